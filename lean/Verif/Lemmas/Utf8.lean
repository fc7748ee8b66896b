/- Decoding UTF-8. -/
import Verif.Lemmas.Split
import Verif.Spec.Utf8
import Mathlib.Tactic.IntervalCases

namespace Radolan
open Go
open _root_.Spec (utf8 scalar Calm)

theorem le8 {a b : UInt8} : a ≤ b ↔ a.toNat ≤ b.toNat := UInt8.le_iff_toNat_le
theorem lt8 {a b : UInt8} : a < b ↔ a.toNat < b.toNat := UInt8.lt_iff_toNat_lt

theorem isCont_iff {b : UInt8} : isCont b = true ↔ 128 ≤ b.toNat ∧ b.toNat ≤ 191 := by
  unfold isCont
  simp only [Bool.and_eq_true, decide_eq_true_eq, le8]
  exact Iff.rfl

theorem eq8 {b : UInt8} {n : Nat} (h : n = b.toNat) : UInt8.ofNat n = b := by rw [h]; simp

/-- decoding gives back what was encoded -/
theorem decode_utf8 {cp : Nat} (h : scalar cp) {b : UInt8} {t : Bytes} (he : utf8 cp = b :: t) (rest : Bytes) :
    decodeRune b (t ++ rest) = (cp, t.length + 1) := by
  have hb : ∀ {n : Nat}, n < 256 → (UInt8.ofNat n).toNat = n := fun hn => by simp; omega
  unfold utf8 at he
  unfold scalar at h
  by_cases h1 : cp < 0x80
  · rw [if_pos h1] at he
    simp only [List.cons.injEq] at he
    obtain ⟨rfl, rfl⟩ := he
    unfold decodeRune
    rw [if_pos (by rw [lt8, hb (by omega)]; exact h1), hb (by omega)]
    rfl
  · rw [if_neg h1] at he
    by_cases h2 : cp < 0x800
    · rw [if_pos h2] at he
      simp only [List.cons.injEq] at he
      obtain ⟨rfl, rfl⟩ := he
      have e0 := hb (n := 0xC0 + cp / 64) (by omega)
      have e1 := hb (n := 0x80 + cp % 64) (by omega)
      unfold decodeRune
      have c0 : (0x80 : UInt8).toNat = 0x80 := rfl
      have c1 : (0xC2 : UInt8).toNat = 0xC2 := rfl
      have c2 : (0xDF : UInt8).toNat = 0xDF := rfl
      rw [if_neg (by rw [lt8, e0, c0]; omega), if_pos (by
        simp only [Bool.and_eq_true, decide_eq_true_eq, le8, e0, c1, c2]; omega)]
      simp only [List.cons_append, List.nil_append]
      rw [if_pos (by rw [isCont_iff, e1]; omega), e0, e1]
      simp only [List.length_singleton, Prod.mk.injEq, and_true]
      omega
    · rw [if_neg h2] at he
      by_cases h3 : cp < 0x10000
      · rw [if_pos h3] at he
        simp only [List.cons.injEq] at he
        obtain ⟨rfl, rfl⟩ := he
        have e0 := hb (n := 0xE0 + cp / 4096) (by omega)
        have e1 := hb (n := 0x80 + cp / 64 % 64) (by omega)
        have e2 := hb (n := 0x80 + cp % 64) (by omega)
        unfold decodeRune
        have c0 : (0x80 : UInt8).toNat = 0x80 := rfl
        have c2 : (0xDF : UInt8).toNat = 0xDF := rfl
        have c3 : (0xE0 : UInt8).toNat = 0xE0 := rfl
        have c4 : (0xEF : UInt8).toNat = 0xEF := rfl
        have c5 : (0xED : UInt8).toNat = 0xED := rfl
        have c6 : (0xA0 : UInt8).toNat = 0xA0 := rfl
        have c7 : (0x9F : UInt8).toNat = 0x9F := rfl
        have c8 : (0xBF : UInt8).toNat = 0xBF := rfl
        rw [if_neg (by rw [lt8, e0, c0]; omega), if_neg (by
          simp only [Bool.and_eq_true, decide_eq_true_eq, le8, e0, c2]; omega), if_pos (by
          simp only [Bool.and_eq_true, decide_eq_true_eq, le8, e0, c3, c4]; omega)]
        simp only [List.cons_append, List.nil_append]
        rw [if_pos, e0, e1, e2]
        · simp only [List.length_cons, List.length_nil, Prod.mk.injEq, and_true]
          omega
        · simp only [Bool.and_eq_true, decide_eq_true_eq, le8, isCont_iff, e1, e2]
          refine ⟨⟨?_, ?_⟩, by omega⟩
          · split
            · rename_i hx
              have := congrArg UInt8.toNat hx
              rw [e0, c3] at this
              rw [c6]; omega
            · rw [c0]; omega
          · split
            · rename_i hx
              have := congrArg UInt8.toNat hx
              rw [e0, c5] at this
              rw [c7]; omega
            · rw [c8]; omega
      · rw [if_neg h3] at he
        simp only [List.cons.injEq] at he
        obtain ⟨rfl, rfl⟩ := he
        have e0 := hb (n := 0xF0 + cp / 262144) (by omega)
        have e1 := hb (n := 0x80 + cp / 4096 % 64) (by omega)
        have e2 := hb (n := 0x80 + cp / 64 % 64) (by omega)
        have e3 := hb (n := 0x80 + cp % 64) (by omega)
        unfold decodeRune
        have c0 : (0x80 : UInt8).toNat = 0x80 := rfl
        have c2 : (0xDF : UInt8).toNat = 0xDF := rfl
        have c4 : (0xEF : UInt8).toNat = 0xEF := rfl
        have c5 : (0xF0 : UInt8).toNat = 0xF0 := rfl
        have c6 : (0xF4 : UInt8).toNat = 0xF4 := rfl
        have c7 : (0x90 : UInt8).toNat = 0x90 := rfl
        have c8 : (0xBF : UInt8).toNat = 0xBF := rfl
        have c9 : (0x8F : UInt8).toNat = 0x8F := rfl
        rw [if_neg (by rw [lt8, e0, c0]; omega), if_neg (by
          simp only [Bool.and_eq_true, decide_eq_true_eq, le8, e0, c2]; omega), if_neg (by
          simp only [Bool.and_eq_true, decide_eq_true_eq, le8, e0, c4]; omega), if_pos (by
          simp only [Bool.and_eq_true, decide_eq_true_eq, le8, e0, c5, c6]; omega)]
        simp only [List.cons_append, List.nil_append]
        rw [if_pos, e0, e1, e2, e3]
        · simp only [List.length_cons, List.length_nil, Prod.mk.injEq, and_true]
          omega
        · simp only [Bool.and_eq_true, decide_eq_true_eq, le8, isCont_iff, e1, e2, e3]
          refine ⟨⟨⟨?_, ?_⟩, by omega⟩, by omega⟩
          · split
            · rename_i hx
              have := congrArg UInt8.toNat hx
              rw [e0, c5] at this
              rw [c7]; omega
            · rw [c0]; omega
          · split
            · rename_i hx
              have := congrArg UInt8.toNat hx
              rw [e0, c6] at this
              rw [c9]; omega
            · rw [c8]; omega

/-- what is decoded from a byte that is not ASCII: a scalar value whose encoding is there, or the replacement character for one byte -/
theorem decode_cases {b : UInt8} (hb : 128 ≤ b) (rest : Bytes) :
    (∃ cp t, 128 ≤ cp ∧ scalar cp ∧ utf8 cp = b :: t ∧ t <+: rest ∧ (∀ x ∈ t, 128 ≤ x) ∧
      decodeRune b rest = (cp, t.length + 1)) ∨ decodeRune b rest = (runeError, 1) := by
  have hb' : 128 ≤ b.toNat := by rw [le8] at hb; exact hb
  have key : ∀ cp t, utf8 cp = b :: t → scalar cp → 128 ≤ cp → t <+: rest → (∀ x ∈ t, 128 ≤ x) →
      (∃ cp t, 128 ≤ cp ∧ scalar cp ∧ utf8 cp = b :: t ∧ t <+: rest ∧ (∀ x ∈ t, 128 ≤ x) ∧
      decodeRune b rest = (cp, t.length + 1)) := by
    rintro cp t h1 h2 h3 ⟨r, rfl⟩ h5
    exact ⟨cp, t, h3, h2, h1, ⟨r, rfl⟩, h5, decode_utf8 h2 h1 r⟩
  have c0 : (0x80 : UInt8).toNat = 0x80 := rfl
  by_cases k2 : (0xC2 ≤ b && b ≤ 0xDF) = true
  · have k2' := k2
    simp only [Bool.and_eq_true, decide_eq_true_eq, le8] at k2'
    have c1 : (0xC2 : UInt8).toNat = 0xC2 := rfl
    have c2 : (0xDF : UInt8).toNat = 0xDF := rfl
    rw [c1, c2] at k2'
    match rest with
    | [] => right; unfold decodeRune; rw [if_neg (by rw [lt8, c0]; omega), if_pos k2]
    | b1 :: r =>
      by_cases hc : isCont b1 = true
      · left
        have hc' := isCont_iff.mp hc
        refine key ((b.toNat % 32) * 64 + b1.toNat % 64) [b1] ?_ ?_ (by omega) ⟨r, rfl⟩ ?_
        · unfold utf8
          rw [if_neg (by omega), if_pos (by omega), eq8 (b := b) (by omega), eq8 (b := b1) (by omega)]
        · unfold scalar; omega
        · intro x hx; simp only [List.mem_singleton] at hx; subst hx; rw [le8]; exact hc'.1
      · right
        unfold decodeRune
        rw [if_neg (by rw [lt8, c0]; omega), if_pos k2]
        simp only [if_neg hc]
  · by_cases k3 : (0xE0 ≤ b && b ≤ 0xEF) = true
    · have k3' := k3
      simp only [Bool.and_eq_true, decide_eq_true_eq, le8] at k3'
      have c1 : (0xE0 : UInt8).toNat = 0xE0 := rfl
      have c2 : (0xEF : UInt8).toNat = 0xEF := rfl
      have c5 : (0xED : UInt8).toNat = 0xED := rfl
      have c6 : (0xA0 : UInt8).toNat = 0xA0 := rfl
      have c7 : (0x9F : UInt8).toNat = 0x9F := rfl
      have c8 : (0xBF : UInt8).toNat = 0xBF := rfl
      rw [c1, c2] at k3'
      match rest with
      | [] => right; unfold decodeRune; rw [if_neg (by rw [lt8, c0]; omega), if_neg k2, if_pos k3]
      | [_] => right; unfold decodeRune; rw [if_neg (by rw [lt8, c0]; omega), if_neg k2, if_pos k3]
      | b1 :: b2 :: r =>
        by_cases hc : ((if b = 0xE0 then (0xA0 : UInt8) else 0x80) ≤ b1 && b1 ≤ (if b = 0xED then (0x9F : UInt8) else 0xBF) &&
            isCont b2) = true
        · left
          have hc' := hc
          simp only [Bool.and_eq_true, decide_eq_true_eq, le8, isCont_iff] at hc'
          obtain ⟨⟨hlo, hhi⟩, h2⟩ := hc'
          have hlo' : (b.toNat = 0xE0 → 0xA0 ≤ b1.toNat) ∧ 0x80 ≤ b1.toNat := by
            split at hlo
            · rw [c6] at hlo; exact ⟨fun _ => hlo, by omega⟩
            · rename_i hx
              rw [c0] at hlo
              exact ⟨fun e => absurd (UInt8.toNat_inj.mp (e.trans c1.symm)) hx, hlo⟩
          have hhi' : (b.toNat = 0xED → b1.toNat ≤ 0x9F) ∧ b1.toNat ≤ 0xBF := by
            split at hhi
            · rw [c7] at hhi; exact ⟨fun _ => hhi, by omega⟩
            · rename_i hx
              rw [c8] at hhi
              exact ⟨fun e => absurd (UInt8.toNat_inj.mp (e.trans c5.symm)) hx, hhi⟩
          refine key ((b.toNat % 16) * 4096 + (b1.toNat % 64) * 64 + b2.toNat % 64) [b1, b2] ?_ ?_ (by omega) ⟨r, rfl⟩ ?_
          · unfold utf8
            rw [if_neg (by omega), if_neg (by omega), if_pos (by omega), eq8 (b := b) (by omega), eq8 (b := b1) (by omega),
              eq8 (b := b2) (by omega)]
          · unfold scalar; omega
          · intro x hx
            simp only [List.mem_cons, List.not_mem_nil, or_false] at hx
            rcases hx with rfl | rfl
            · rw [le8]; exact hlo'.2
            · rw [le8]; exact h2.1
        · right
          unfold decodeRune
          rw [if_neg (by rw [lt8, c0]; omega), if_neg k2, if_pos k3]
          simp only [if_neg hc]
    · by_cases k4 : (0xF0 ≤ b && b ≤ 0xF4) = true
      · have k4' := k4
        simp only [Bool.and_eq_true, decide_eq_true_eq, le8] at k4'
        have c1 : (0xF0 : UInt8).toNat = 0xF0 := rfl
        have c2 : (0xF4 : UInt8).toNat = 0xF4 := rfl
        have c6 : (0x90 : UInt8).toNat = 0x90 := rfl
        have c7 : (0x8F : UInt8).toNat = 0x8F := rfl
        have c8 : (0xBF : UInt8).toNat = 0xBF := rfl
        rw [c1, c2] at k4'
        match rest with
        | [] => right; unfold decodeRune; rw [if_neg (by rw [lt8, c0]; omega), if_neg k2, if_neg k3, if_pos k4]
        | [_] => right; unfold decodeRune; rw [if_neg (by rw [lt8, c0]; omega), if_neg k2, if_neg k3, if_pos k4]
        | [_, _] => right; unfold decodeRune; rw [if_neg (by rw [lt8, c0]; omega), if_neg k2, if_neg k3, if_pos k4]
        | b1 :: b2 :: b3 :: r =>
          by_cases hc : ((if b = 0xF0 then (0x90 : UInt8) else 0x80) ≤ b1 && b1 ≤ (if b = 0xF4 then (0x8F : UInt8) else 0xBF) &&
              isCont b2 && isCont b3) = true
          · left
            have hc' := hc
            simp only [Bool.and_eq_true, decide_eq_true_eq, le8, isCont_iff] at hc'
            obtain ⟨⟨⟨hlo, hhi⟩, h2⟩, h3⟩ := hc'
            have hlo' : (b.toNat = 0xF0 → 0x90 ≤ b1.toNat) ∧ 0x80 ≤ b1.toNat := by
              split at hlo
              · rw [c6] at hlo; exact ⟨fun _ => hlo, by omega⟩
              · rename_i hx
                rw [c0] at hlo
                exact ⟨fun e => absurd (UInt8.toNat_inj.mp (e.trans c1.symm)) hx, hlo⟩
            have hhi' : (b.toNat = 0xF4 → b1.toNat ≤ 0x8F) ∧ b1.toNat ≤ 0xBF := by
              split at hhi
              · rw [c7] at hhi; exact ⟨fun _ => hhi, by omega⟩
              · rename_i hx
                rw [c8] at hhi
                exact ⟨fun e => absurd (UInt8.toNat_inj.mp (e.trans c2.symm)) hx, hhi⟩
            refine key ((b.toNat % 8) * 262144 + (b1.toNat % 64) * 4096 + (b2.toNat % 64) * 64 + b3.toNat % 64) [b1, b2, b3]
              ?_ ?_ (by omega) ⟨r, rfl⟩ ?_
            · unfold utf8
              rw [if_neg (by omega), if_neg (by omega), if_neg (by omega), eq8 (b := b) (by omega), eq8 (b := b1) (by omega),
                eq8 (b := b2) (by omega), eq8 (b := b3) (by omega)]
            · unfold scalar; omega
            · intro x hx
              simp only [List.mem_cons, List.not_mem_nil, or_false] at hx
              rcases hx with rfl | rfl | rfl
              · rw [le8]; exact hlo'.2
              · rw [le8]; exact h2.1
              · rw [le8]; exact h3.1
          · right
            unfold decodeRune
            rw [if_neg (by rw [lt8, c0]; omega), if_neg k2, if_neg k3, if_pos k4]
            simp only [if_neg hc]
      · right
        unfold decodeRune
        rw [if_neg (by rw [lt8, c0]; omega), if_neg k2, if_neg k3, if_neg k4]

end Radolan
