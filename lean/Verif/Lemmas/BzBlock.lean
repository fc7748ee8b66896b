/- Reading the bytes of a block, in portions of any size. -/
import Verif.Lemmas.Bwt

namespace Radolan.Bz
open Go Spec.Bzip2

/-- the bytes `code` stands for, for a reader that has last read `last`, `br + 1` times in a row -/
def expand : Bytes → Option Nat → Nat → Bytes
  | [], _, _ => []
  | v :: raw, last, br =>
    if br = 3 then
      List.replicate v.toNat (UInt8.ofNat (last.getD 255)) ++ expand raw (if 0 < v.toNat then none else last) 0
    else v :: expand raw (some v.toNat) (if last = some v.toNat then br + 1 else 0)

/-- what the block still delivers -/
def Holds (b : Block) (out : Bytes) : Prop :=
  ∃ raw, Chain b.pre b.tPos raw ∧ b.used + raw.length = b.pre.length ∧
    out = List.replicate b.repeats (UInt8.ofNat (b.last.getD 255)) ++ expand raw (if 0 < b.repeats then none else b.last) b.byteRepeats

theorem readFromBlock_spec : ∀ (fuel n : Nat) (b : Block) (out : Bytes), Holds b out → b.pre.length - b.used + n < fuel →
    ∃ b', readFromBlock fuel n b = .ok (out.take n, b') ∧ Holds b' (out.drop n) ∧ b'.pre.length = b.pre.length := by
  intro fuel
  induction fuel with
  | zero => intro n b out _ h; omega
  | succ fuel ih =>
    intro n b out hh hf
    obtain ⟨raw, h1, h2, h3⟩ := hh
    unfold readFromBlock
    by_cases hc : (0 < b.repeats ∨ b.used < b.pre.length) ∧ 0 < n
    · rw [if_pos hc]
      obtain ⟨n, rfl⟩ : ∃ m, n = m + 1 := ⟨n - 1, by omega⟩
      by_cases hr : 0 < b.repeats
      · rw [if_pos hr]
        rw [if_pos hr] at h3
        obtain ⟨r, hr'⟩ : ∃ r, b.repeats = r + 1 := ⟨b.repeats - 1, by omega⟩
        rw [hr', List.replicate_succ, List.cons_append] at h3
        simp only [hr', Nat.add_sub_cancel]
        obtain ⟨b', e1, e2, e3⟩ := ih n { b with repeats := r, last := if r = 0 then none else b.last }
          (List.replicate r (UInt8.ofNat (b.last.getD 255)) ++ expand raw none b.byteRepeats)
          ⟨raw, h1, h2, by
            by_cases h0 : r = 0
            · subst h0; simp
            · simp only [if_neg h0, if_pos (Nat.pos_of_ne_zero h0)]⟩ (by simp only; omega)
        refine ⟨b', ?_, by rw [h3]; exact e2, e3⟩
        rw [h3]
        simp only [bind, Out.bind, e1, List.take_succ_cons]
      · have hr : b.repeats = 0 := by omega
        rw [if_neg (by omega)]
        rw [hr] at h3
        simp only [List.replicate_zero, List.nil_append, lt_irrefl, if_false] at h3
        cases h1 with
        | nil => simp at h2; omega
        | @cons p x v raw hx hv hch =>
          simp only [List.length_cons] at h2
          simp only [bind, Out.bind, index, hx, hv]
          rw [expand] at h3
          by_cases h4 : b.byteRepeats = 3
          · rw [if_pos h4]
            rw [if_pos h4] at h3
            obtain ⟨b', e1, e2, e3⟩ := ih (n + 1) ⟨b.pre, b.used + 1, x >>> 8, b.last, 0, v.toNat⟩ out
              ⟨raw, hch, by simp only; omega, h3⟩ (by simp only; omega)
            exact ⟨b', e1, e2, e3⟩
          · rw [if_neg h4]
            rw [if_neg h4] at h3
            obtain ⟨b', e1, e2, e3⟩ := ih n ⟨b.pre, b.used + 1, x >>> 8, some v.toNat, if b.last = some v.toNat then b.byteRepeats + 1 else 0,
              b.repeats⟩ (expand raw (some v.toNat) (if b.last = some v.toNat then b.byteRepeats + 1 else 0))
              ⟨raw, hch, by simp only; omega, by simp [hr]⟩ (by simp only; omega)
            refine ⟨b', ?_, by rw [h3]; exact e2, e3⟩
            rw [h3, Nat.add_sub_cancel, e1]
            simp
    · rw [if_neg hc]
      have : n = 0 ∨ out = [] := by
        by_cases hn : n = 0
        · exact Or.inl hn
        · right
          have hr : b.repeats = 0 := by omega
          have : raw = [] := by
            apply List.eq_nil_of_length_eq_zero; omega
          rw [h3, hr, this]; rfl
      refine ⟨b, ?_, ?_, rfl⟩
      · rcases this with rfl | rfl <;> simp
      · have : out.drop n = out := by rcases this with rfl | rfl <;> simp
        rw [this]
        exact ⟨raw, h1, h2, h3⟩

theorem expand_copy (b : UInt8) (raw : Bytes) : ∀ (k br : Nat), br + k ≤ 3 →
    expand (List.replicate k b ++ raw) (some b.toNat) br = List.replicate k b ++ expand raw (some b.toNat) (br + k) := by
  intro k
  induction k with
  | zero => intro br _; rfl
  | succ k ih =>
    intro br h
    rw [List.replicate_succ, List.cons_append, expand, if_neg (by omega), if_pos rfl, ih (br + 1) (by omega), List.cons_append]
    rw [show br + 1 + k = br + (k + 1) by omega]

/-- the reader expands what a compressor has shortened -/
theorem expand_runs {data code : Bytes} (h : Runs data code) : ∀ (last : Option Nat) (br : Nat), br ≤ 2 →
    (∀ b, data.head? = some b → last ≠ some b.toNat) → expand code last br = data := by
  induction h with
  | nil => intro _ _ _ _; rfl
  | @short b k data code h1 h3 hne _ ih =>
    intro last br hbr hl
    obtain ⟨k, rfl⟩ : ∃ m, k = m + 1 := ⟨k - 1, by omega⟩
    have hb : last ≠ some b.toNat := hl b (by simp [List.replicate_succ])
    rw [List.replicate_succ, List.cons_append, List.cons_append, expand, if_neg (by omega), if_neg hb, expand_copy b code k 0 (by omega),
      ih (some b.toNat) (0 + k) (by omega) ?_]
    intro c hc he
    apply hne
    rw [hc, UInt8.toNat_inj.mp (Option.some.inj he)]
  | @long b k data code h1 hne _ ih =>
    intro last br hbr hl
    have hb : last ≠ some b.toNat := hl b (by simp [List.replicate_succ, Nat.add_comm 4 k])
    rw [show List.replicate 4 b ++ UInt8.ofNat k :: code = b :: (List.replicate 3 b ++ UInt8.ofNat k :: code) from rfl, expand,
      if_neg (by omega), if_neg hb, expand_copy b _ 3 0 (by omega), expand, if_pos rfl]
    have hk : (UInt8.ofNat k).toNat = k := by rw [UInt8.toNat_ofNat']; exact Nat.mod_eq_of_lt (by omega)
    rw [hk, Option.getD_some, UInt8.ofNat_toNat, ih _ 0 (by omega) ?_]
    · rw [Nat.add_comm 4 k]
      rfl
    · intro c hc he
      by_cases h0 : 0 < k
      · rw [if_pos h0] at he; cases he
      · rw [if_neg h0] at he
        exact hne (by omega) (by rw [hc, UInt8.toNat_inj.mp (Option.some.inj he)])

/-- the block of a compressor, after `readBlock` -/
theorem holds_block {data code L : Bytes} {o : Nat} (hr : Runs data code) (ht : Transformed code L o) (hn : code.length < 2 ^ 24) :
    ∃ tt p, inverseBWT (L.map UInt8.toNat) o (counts (L.map UInt8.toNat)) = .ok (tt, p) ∧
      Holds ⟨tt, 0, p, none, 0, 0⟩ data := by
  obtain ⟨_, _, tt, p, h1, h2, h3⟩ := transformed_chain ht hn
  refine ⟨tt, p, h1, code, h3, by simp [h2], ?_⟩
  simp only [List.replicate_zero, List.nil_append, lt_irrefl, if_false]
  rw [expand_runs hr none 0 (by omega) (by simp)]

end Radolan.Bz
