/- Grid detection. -/
import Verif.Spec.Grid
import Mathlib.Tactic.Linarith
import Mathlib.Tactic.Ring

namespace Radolan
open Go _root_.Spec

/-- the loop of minRes strips common factors of two -/
theorem minResLoop_spec (n : Nat) : ∀ (x y : Int), x ≠ 0 → x.natAbs ≤ n →
    ∃ k : Nat, x = (minResLoop n x y).1 * 2 ^ k ∧ y = (minResLoop n x y).2 * 2 ^ k ∧
      ¬ ((minResLoop n x y).1 % 2 = 0 ∧ (minResLoop n x y).2 % 2 = 0) := by
  induction n with
  | zero => intro x y h0 hx; omega
  | succ n ih =>
    intro x y h0 hx
    unfold minResLoop
    split
    · rename_i he
      obtain ⟨k, h1, h2, h3⟩ := ih (x / 2) (y / 2) (by omega) (by omega)
      refine ⟨k + 1, ?_, ?_, h3⟩
      · generalize (minResLoop n (x / 2) (y / 2)).1 = p at *
        have : p * 2 ^ (k + 1) = 2 * (p * 2 ^ k) := by ring
        omega
      · generalize (minResLoop n (x / 2) (y / 2)).2 = p at *
        have : p * 2 ^ (k + 1) = 2 * (p * 2 ^ k) := by ring
        omega
    · rename_i he
      exact ⟨0, by simp, by simp, he⟩

/-- a representation with common factors of two stripped is unique -/
theorem strip_unique {a b p q : Int} {k l : Nat} (h1 : a * 2 ^ k = p * 2 ^ l) (h2 : b * 2 ^ k = q * 2 ^ l)
    (ha : ¬ (a % 2 = 0 ∧ b % 2 = 0)) (hp : ¬ (p % 2 = 0 ∧ q % 2 = 0)) : a = p ∧ b = q := by
  have h2k : ∀ k : Nat, (2 : Int) ^ k ≠ 0 := fun k => by positivity
  rcases Nat.lt_trichotomy k l with h | h | h
  · exfalso
    obtain ⟨d, rfl⟩ : ∃ d, l = k + (d + 1) := ⟨l - k - 1, by omega⟩
    have e1 : a = 2 * (p * 2 ^ d) := by
      apply mul_right_cancel₀ (h2k k); rw [h1]; ring
    have e2 : b = 2 * (q * 2 ^ d) := by
      apply mul_right_cancel₀ (h2k k); rw [h2]; ring
    apply ha; omega
  · subst h
    exact ⟨mul_right_cancel₀ (h2k k) h1, mul_right_cancel₀ (h2k k) h2⟩
  · exfalso
    obtain ⟨d, rfl⟩ : ∃ d, k = l + (d + 1) := ⟨k - l - 1, by omega⟩
    have e1 : p = 2 * (a * 2 ^ d) := by
      apply mul_right_cancel₀ (h2k l); rw [← h1]; ring
    have e2 : q = 2 * (b * 2 ^ d) := by
      apply mul_right_cancel₀ (h2k l); rw [← h2]; ring
    apply hp; omega

/-- minRes meets a stripped nonzero base exactly on its scalings -/
theorem minRes_eq {dx dy bx by' : Int} (hx : bx ≠ 0) (hy : by' ≠ 0) (ho : ¬ (bx % 2 = 0 ∧ by' % 2 = 0)) :
    minRes dx dy = (bx, by') ↔ Scaled (bx, by') dx dy := by
  unfold minRes Scaled
  split
  · rename_i h0
    constructor
    · intro h
      simp only [Prod.mk.injEq] at h
      omega
    · rintro ⟨k, h1, h2⟩
      have h2k : (2 : Int) ^ k ≠ 0 := by positivity
      exfalso
      rcases h0 with h0 | h0
      · rw [h0] at h1; exact (mul_ne_zero hx h2k) h1.symm
      · rw [h0] at h2; exact (mul_ne_zero hy h2k) h2.symm
  · rename_i h0
    obtain ⟨k, h1, h2, h3⟩ := minResLoop_spec dx.natAbs dx dy (by omega) le_rfl
    constructor
    · intro h
      rw [h] at h1 h2
      exact ⟨k, h1, h2⟩
    · rintro ⟨l, e1, e2⟩
      obtain ⟨r1, r2⟩ := strip_unique (a := (minResLoop dx.natAbs dx dy).1) (b := (minResLoop dx.natAbs dx dy).2)
        (p := bx) (q := by') (k := k) (l := l) (by rw [← h1, e1]) (by rw [← h2, e2]) h3 ho
      ext
      · exact r1
      · exact r2

/-- base dimensions of each grid -/
def gridBase : Grid → Int × Int
  | .unknown => (0, 0)
  | .national => (225, 225)
  | .nationalPicture => (115, 115)
  | .extendedNational => (225, 275)
  | .de1200 => (275, 300)
  | .middleEuropean => (350, 375)

theorem minRes_bases : minRes 900 900 = (225, 225) ∧ minRes 920 920 = (115, 115) ∧ minRes 900 1100 = (225, 275) ∧
    minRes 1100 1200 = (275, 300) ∧ minRes 1400 1500 = (350, 375) := by decide +kernel

theorem detectGrid_iff {dx dy : Int} {g : Grid} (hg : g ≠ .unknown) :
    detectGrid dx dy = g ↔ Scaled (gridBase g) dx dy := by
  obtain ⟨b1, b2, b3, b4, b5⟩ := minRes_bases
  have hm : Scaled (gridBase g) dx dy ↔ minRes dx dy = gridBase g := by
    cases g <;> first | exact absurd rfl hg | exact (minRes_eq (by decide) (by decide) (by decide)).symm
  rw [hm]
  unfold detectGrid
  simp only [b1, b2, b3, b4, b5]
  generalize minRes dx dy = d
  cases g <;> first
    | exact absurd rfl hg
    | (simp only [gridBase]
       constructor
       · intro h
         split at h
         · first | assumption | cases h
         split at h
         · first | assumption | cases h
         split at h
         · first | assumption | cases h
         split at h
         · first | assumption | cases h
         split at h
         · first | assumption | cases h
         cases h
       · rintro rfl; rfl)

theorem calibrate_hasProjection (A : Arith α) (format dx dy : Int) :
    (calibrate A format dx dy).hasProjection = true ↔
      detectGrid dx dy ≠ .unknown ∧ (format < 5 ∨ detectGrid dx dy = .de1200) := by
  unfold calibrate
  simp only
  cases hg : detectGrid dx dy <;> simp only [cornerPoints]
  · simp
  all_goals first
    | (by_cases h5 : 5 ≤ format <;> simp [h5] <;> omega)

end Radolan
