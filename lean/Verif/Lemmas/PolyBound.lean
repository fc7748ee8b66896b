/-
Bounds of polynomials with rational coefficients on an interval [0, T]: the interval is cut into pieces, the polynomial
is expanded around the middle of each piece, and the absolute values of the terms are added up.
-/
import Mathlib.Data.Rat.Cast.Order
import Mathlib.Data.Real.Archimedean
import Mathlib.Algebra.Order.Floor.Ring
import Mathlib.Tactic.Linarith
import Mathlib.Tactic.NormNum
import Mathlib.Tactic.Ring
import Mathlib.Tactic.FieldSimp

namespace Poly

/-- value of the polynomial `a₀ + a₁ t + a₂ t² + …` -/
noncomputable def eval : List ℚ → ℝ → ℝ
  | [], _ => 0
  | a :: p, t => a + t * eval p t

def add : List ℚ → List ℚ → List ℚ
  | [], q => q
  | a :: p, [] => a :: p
  | a :: p, b :: q => (a + b) :: add p q

def scale (c : ℚ) : List ℚ → List ℚ
  | [] => []
  | a :: p => (c * a) :: scale c p

def mul : List ℚ → List ℚ → List ℚ
  | [], _ => []
  | a :: p, q => add (scale a q) (0 :: mul p q)

/-- the coefficients of `u ↦ p(c + u)` -/
def shift (c : ℚ) : List ℚ → List ℚ
  | [] => []
  | a :: p => add (a :: shift c p) (scale c (shift c p))

/-- `|a₀| + |a₁| h + |a₂| h² + …` -/
def bound (h : ℚ) : List ℚ → ℚ
  | [] => 0
  | a :: p => |a| + h * bound h p

/-- `n` pieces of length `2h`, starting at 0 -/
def check (p : List ℚ) (ε h : ℚ) (n : Nat) : Bool :=
  (List.range n).all fun k => decide (bound h (shift ((2 * k + 1) * h) p) ≤ ε)

theorem eval_add (p q : List ℚ) (t : ℝ) : eval (add p q) t = eval p t + eval q t := by
  induction p generalizing q with
  | nil => simp [add, eval]
  | cons a p ih =>
    cases q with
    | nil => simp [add, eval]
    | cons b q => simp only [add, eval, ih]; push_cast; ring

theorem eval_scale (c : ℚ) (p : List ℚ) (t : ℝ) : eval (scale c p) t = c * eval p t := by
  induction p with
  | nil => simp [scale, eval]
  | cons a p ih => simp only [scale, eval, ih]; push_cast; ring

theorem eval_mul (p q : List ℚ) (t : ℝ) : eval (mul p q) t = eval p t * eval q t := by
  induction p with
  | nil => simp [mul, eval]
  | cons a p ih => simp only [mul, eval_add, eval_scale, eval, ih]; push_cast; ring

theorem eval_shift (c : ℚ) (p : List ℚ) (u : ℝ) : eval (shift c p) u = eval p (c + u) := by
  induction p with
  | nil => simp [shift, eval]
  | cons a p ih => simp only [shift, eval_add, eval_scale, eval, ih]; ring

theorem bound_nonneg {h : ℚ} (hh : 0 ≤ h) (p : List ℚ) : 0 ≤ bound h p := by
  induction p with
  | nil => simp [bound]
  | cons a p ih => simp only [bound]; have := mul_nonneg hh ih; have := abs_nonneg a; linarith

theorem eval_le_bound {h : ℚ} (p : List ℚ) {u : ℝ} (hu : |u| ≤ h) : |eval p u| ≤ bound h p := by
  have hh : (0 : ℝ) ≤ h := (abs_nonneg _).trans hu
  induction p with
  | nil => simp [eval, bound]
  | cons a p ih =>
    simp only [eval, bound]
    refine (abs_add_le _ _).trans ?_
    push_cast
    rw [abs_mul]
    have := mul_le_mul hu ih (abs_nonneg _) hh
    linarith

theorem of_check {p : List ℚ} {ε h : ℚ} {n : Nat} (hh : 0 < h) (hc : check p ε h n = true) {t : ℝ} (h0 : 0 ≤ t)
    (h1 : t < 2 * h * n) : |eval p t| ≤ ε := by
  have hR : (0 : ℝ) < h := by exact_mod_cast hh
  have hp : 0 < 2 * (h : ℝ) := by linarith
  set k := ⌊t / (2 * h)⌋₊ with hk
  have k1 : (k : ℝ) ≤ t / (2 * h) := Nat.floor_le (div_nonneg h0 hp.le)
  have k2 : t / (2 * h) < k + 1 := Nat.lt_floor_add_one _
  rw [le_div_iff₀ hp] at k1
  rw [div_lt_iff₀ hp] at k2
  have kn : k < n := by
    have : (k : ℝ) * (2 * h) < n * (2 * h) := by linarith
    have := lt_of_mul_lt_mul_right this hp.le
    exact_mod_cast this
  have hb : bound h (shift ((2 * k + 1) * h) p) ≤ ε := by
    have := List.all_eq_true.mp hc k (List.mem_range.mpr kn)
    exact of_decide_eq_true this
  have e : t = (((2 * (k : ℚ) + 1) * h : ℚ) : ℝ) + (t - (2 * k + 1) * h) := by push_cast; ring
  have hu : |t - (2 * (k : ℝ) + 1) * h| ≤ h := by rw [abs_le]; constructor <;> linarith
  rw [e, ← eval_shift]
  refine (eval_le_bound _ hu).trans ?_
  exact_mod_cast hb

end Poly
