/- The level table as a whole. -/
import Verif.Lemmas.Levels
import Verif.Lemmas.Accept

namespace Radolan
open Go _root_.Spec

theorem levelVals_get (E : Env) : ∀ (n : Nat) (b : Bytes) (l : List F32), levelVals E n b = some l →
    l.length = n ∧ ∀ i < n, sscanfF ((b.drop (5 * i)).take 5) = l[i]? := by
  intro n
  induction n with
  | zero => intro b l h; simp only [levelVals, Option.some.injEq] at h; subst h; simp
  | succ n ih =>
    intro b l h
    simp only [levelVals, Option.bind_eq_bind, Option.bind_eq_some_iff, Option.some.injEq] at h
    obtain ⟨v, hv, vs, hvs, rfl⟩ := h
    obtain ⟨h1, h2⟩ := ih _ _ hvs
    refine ⟨by simp [h1], ?_⟩
    intro i hi
    cases i with
    | zero => simpa using hv
    | succ i =>
      have := h2 i (by omega)
      rw [List.drop_drop, show 5 + 5 * i = 5 * (i + 1) by omega] at this
      rw [this]; simp

theorem isInt_reads {v : Bytes} {n : Int} (h : NumText v n) : ReadsInt v n := by
  obtain ⟨b, s, ds, rfl, h1, h2, h3, h4, h5⟩ := h
  exact ⟨[], List.replicate b 32, s, ds, by simp, blank_replicate b, h1, h2, by simp, h3, h4, h5⟩

theorem levelVals_of (E : Env) : ∀ (l : List F32) (b : Bytes),
    (∀ i f, l[i]? = some f → sscanfF ((b.drop (5 * i)).take 5) = some f) → levelVals E l.length b = some l := by
  intro l
  induction l with
  | nil => intro b _; rfl
  | cons v l ih =>
    intro b h
    have h0 := h 0 v (by simp)
    simp only [Nat.mul_zero, List.drop_zero] at h0
    have h1 := ih (b.drop 5) (fun i f hf => by
      rw [List.drop_drop, show 5 + 5 * i = 5 * (i + 1) by omega]
      exact h (i + 1) f (by simpa using hf))
    simp only [List.length_cons, levelVals, h0, h1]
    rfl

/-- the level field is read exactly if it is a table of levels -/
theorem levelOf_iff (E : Env) {v : Bytes} {l : List F32} : levelOf E v = some l ↔ Levels v l := by
  have hlen : ∀ i, ((v.drop (2 + 5 * i)).take 5).length ≤ 5 := fun i => by rw [List.length_take]; omega
  unfold levelOf Levels
  constructor
  · intro h
    by_cases h2 : v.length < 2
    · rw [if_pos h2] at h; simp at h
    rw [if_neg h2] at h
    simp only [Option.bind_eq_bind, Option.bind_eq_some_iff] at h
    obtain ⟨cnt, hc, h⟩ := h
    by_cases he : (v.length : Int) = cnt * 5 + 2
    · rw [if_pos he] at h
      obtain ⟨g1, g2⟩ := levelVals_get E _ _ _ h
      have e : (l.length : Int) = cnt := by omega
      refine ⟨by rw [e]; exact sscanfD_iff.mp hc, by omega, ?_⟩
      intro i f hi
      have hi' : i < l.length := (List.getElem?_eq_some_iff.mp hi).1
      have := g2 i (by omega)
      rw [List.drop_drop, hi] at this
      exact (sscanfF_iff (hlen i) f).mp this
    · rw [if_neg he] at h; simp at h
  · rintro ⟨h1, h2, h3⟩
    rw [if_neg (by omega), sscanfD_iff.mpr h1]
    simp only [Option.bind_eq_bind, Option.bind_some]
    rw [if_pos (by omega), Int.toNat_natCast]
    refine levelVals_of E l _ ?_
    intro i f hi
    rw [List.drop_drop]
    exact (sscanfF_iff (hlen i) f).mpr (h3 i f hi)

/-- a table in Fortran format I2,nF5.1 -/
theorem levelTable_F51 {cnt : Bytes} {entries : List Bytes} {qs : List ℚ} (hc : cnt.length = 2)
    (hn : NumText cnt entries.length) (hq : List.Forall₂ IsF51 entries qs) : LevelTable (cnt ++ entries.flatten) := by
  have key : ∀ {entries : List Bytes} {qs : List ℚ}, List.Forall₂ IsF51 entries qs →
      ∃ l : List F32, l.length = entries.length ∧ entries.flatten.length = 5 * entries.length ∧
        ∀ i f, l[i]? = some f → LevelText ((entries.flatten.drop (5 * i)).take 5) f := by
    intro entries qs hq
    induction hq with
    | nil => exact ⟨[], rfl, rfl, by simp⟩
    | @cons e q es qs he _ ih =>
      obtain ⟨l, k1, k2, k3⟩ := ih
      have hlen : e.length = 5 := by obtain ⟨_, _, _, _, rfl, hx, _⟩ := he; exact hx
      obtain ⟨v, hv, _⟩ := levelText_F51 he
      refine ⟨v :: l, by simp [k1], by simp [k2, hlen]; omega, ?_⟩
      intro i f hi
      cases i with
      | zero =>
        simp only [List.getElem?_cons_zero, Option.some.injEq] at hi
        subst hi
        rw [Nat.mul_zero, List.drop_zero, List.flatten_cons, List.take_append_of_le_length (by omega),
          List.take_of_length_le (by omega)]
        exact hv
      | succ i =>
        have := k3 i f (by simpa using hi)
        rw [List.flatten_cons, show 5 * (i + 1) = e.length + 5 * i by omega, List.drop_append]
        rw [List.drop_of_length_le (by omega), List.nil_append, Nat.add_sub_cancel_left]
        exact this
  obtain ⟨l, k1, k2, k3⟩ := key hq
  refine ⟨l, ?_, by rw [List.length_append]; omega, ?_⟩
  · rw [List.take_append_of_le_length (by omega), List.take_of_length_le (by omega), k1]
    exact isInt_reads hn
  · intro i f hi
    rw [← List.drop_drop, List.drop_append_of_le_length (by omega), List.drop_of_length_le (l := cnt) (by omega),
      List.nil_append]
    exact k3 i f hi

end Radolan
