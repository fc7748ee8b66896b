/- The characters of a byte string. -/
import Verif.Lemmas.Utf8

namespace Radolan
open Go
open _root_.Spec (utf8 scalar)

theorem runesFrom_snd (i j k : Nat) (l : Bytes) : (runesFrom i k l).map Prod.snd = (runesFrom j k l).map Prod.snd := by
  induction l generalizing i j k with
  | nil => rfl
  | cons b l ih =>
    unfold runesFrom
    split
    · rw [List.map_cons, List.map_cons, ih (i + 1) (j + 1)]
    · exact ih _ _ _

theorem runesFrom_skip (i : Nat) (t rest : Bytes) : runesFrom i t.length (t ++ rest) = runesFrom (i + t.length) 0 rest := by
  induction t generalizing i with
  | nil => rfl
  | cons b t ih =>
    rw [List.cons_append, runesFrom, if_neg (by simp), List.length_cons, Nat.add_sub_cancel, ih]
    congr 1
    omega

theorem utf8_cons (cp : Nat) : ∃ b t, utf8 cp = b :: t := by
  unfold utf8
  split
  · exact ⟨_, _, rfl⟩
  · split
    · exact ⟨_, _, rfl⟩
    · split <;> exact ⟨_, _, rfl⟩

theorem runesFrom_utf8 {cp : Nat} (h : scalar cp) (i : Nat) (rest : Bytes) :
    runesFrom i 0 (utf8 cp ++ rest) = (i, cp) :: runesFrom (i + (utf8 cp).length) 0 rest := by
  obtain ⟨b, t, e⟩ := utf8_cons cp
  rw [e, List.cons_append, runesFrom, if_pos rfl, decode_utf8 h e rest, Nat.add_sub_cancel, runesFrom_skip, List.length_cons]
  congr 2
  omega

theorem runes_utf8 {cp : Nat} (h : scalar cp) (rest : Bytes) : runes (utf8 cp ++ rest) = cp :: runes rest := by
  unfold runes
  rw [runesFrom_utf8 h, List.map_cons, runesFrom_snd _ 0]

theorem runes_flatMap {cs : List Nat} (h : ∀ c ∈ cs, scalar c) (rest : Bytes) :
    runes (cs.flatMap utf8 ++ rest) = cs ++ runes rest := by
  induction cs with
  | nil => rfl
  | cons c cs ih =>
    rw [List.flatMap_cons, List.append_assoc, runes_utf8 (h c (by simp)), ih fun x hx => h x (by simp [hx])]
    rfl

theorem utf8_byte {b : UInt8} (h : b < 128) : utf8 b.toNat = [b] := by
  have : b.toNat < 0x80 := by rw [lt8] at h; exact h
  unfold utf8
  rw [if_pos this, UInt8.ofNat_toNat]

theorem scalar_byte {b : UInt8} (h : b < 128) : scalar b.toNat := by
  left
  rw [lt8] at h
  exact lt_trans h (by decide)

/-- a text with an encoded character at its beginning, or a byte that begins none -/
theorem decode_first (b : UInt8) (rest : Bytes) :
    (∃ cp t, scalar cp ∧ b :: rest = utf8 cp ++ t ∧ decodeRune b rest = (cp, (utf8 cp).length)) ∨
    ((∀ cp, scalar cp → ¬ utf8 cp <+: b :: rest) ∧ decodeRune b rest = (runeError, 1)) := by
  by_cases hb : b < 128
  · exact Or.inl ⟨b.toNat, rest, scalar_byte hb, by rw [utf8_byte hb]; rfl, by rw [decodeRune_ascii hb, utf8_byte hb]; rfl⟩
  · rcases decode_cases (b := b) (by simpa using hb) rest with ⟨cp, t, _, h2, h3, ⟨r, h4⟩, _, h6⟩ | h
    · exact Or.inl ⟨cp, r, h2, by rw [h3, ← h4]; rfl, by rw [h6, h3]; rfl⟩
    · by_cases hex : ∃ cp, scalar cp ∧ utf8 cp <+: b :: rest
      · obtain ⟨cp, hs, r, hr⟩ := hex
        obtain ⟨b', t, e⟩ := utf8_cons cp
        rw [e] at hr
        simp only [List.cons_append, List.cons.injEq] at hr
        obtain ⟨rfl, rfl⟩ := hr
        exact Or.inl ⟨cp, r, hs, by rw [e]; rfl, by rw [decode_utf8 hs e, e]; rfl⟩
      · refine Or.inr ⟨fun cp hs hp => hex ⟨cp, hs, hp⟩, h⟩

theorem runes_cons {text : Bytes} {c : Nat} {l : List Nat} (h : runes text = c :: l) (hc : c ≠ runeError) :
    ∃ t, scalar c ∧ text = utf8 c ++ t ∧ runes t = l := by
  cases text with
  | nil => simp [runes, runesFrom] at h
  | cons b rest =>
    rcases decode_first b rest with ⟨cp, t, h1, h2, h3⟩ | ⟨_, h3⟩
    · rw [h2, runes_utf8 h1] at h
      simp only [List.cons.injEq] at h
      obtain ⟨rfl, h⟩ := h
      exact ⟨t, h1, h2, h⟩
    · exfalso
      unfold runes at h
      rw [runesFrom, if_pos rfl, h3] at h
      simp only [List.map_cons, List.cons.injEq] at h
      exact hc h.1.symm

theorem runes_append {text : Bytes} {cs l : List Nat} (h : runes text = cs ++ l) (hc : ∀ c ∈ cs, c ≠ runeError) :
    ∃ t, (∀ c ∈ cs, scalar c) ∧ text = cs.flatMap utf8 ++ t ∧ runes t = l := by
  induction cs generalizing text with
  | nil => exact ⟨text, by simp, rfl, h⟩
  | cons c cs ih =>
    obtain ⟨t, h1, rfl, h3⟩ := runes_cons h (hc c (by simp))
    obtain ⟨t', h4, rfl, h6⟩ := ih h3 fun x hx => hc x (by simp [hx])
    refine ⟨t', ?_, by simp, h6⟩
    intro x hx
    rcases List.mem_cons.mp hx with rfl | hx
    · exact h1
    · exact h4 x hx

/-- the first character is a digit if the first byte is -/
theorem runes_head_digit (text : Bytes) : (∀ r ∈ (runes text).head?, isDigit r = false) ↔
    ∀ b ∈ text.head?, isDigit b.toNat = false := by
  cases text with
  | nil => simp [runes, runesFrom]
  | cons b rest =>
    have e : (runes (b :: rest)).head? = some (decodeRune b rest).1 := by
      unfold runes
      rw [runesFrom, if_pos rfl]
      rfl
    rw [e]
    simp only [Option.mem_def, Option.some.injEq, forall_eq', List.head?_cons]
    by_cases hb : b < 128
    · rw [decodeRune_ascii hb]
    · have h1 : 128 ≤ b.toNat := by
        have : 128 ≤ b := by simpa using hb
        rw [le8] at this
        exact this
      have h2 : 128 ≤ (decodeRune b rest).1 := by
        rcases decode_cases (b := b) (by simpa using hb) rest with ⟨cp, t, h1, _, _, _, _, h6⟩ | h
        · rw [h6]; exact h1
        · rw [h]; decide
      unfold isDigit
      simp
      omega

end Radolan
