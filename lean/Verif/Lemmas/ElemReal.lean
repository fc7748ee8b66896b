/- The polynomials of Model/Elem.lean against exponential and logarithm, in exact arithmetic. -/
import Verif.Model.Elem
import Verif.Lemmas.PolyBound
import Mathlib.Analysis.Complex.Exponential
import Mathlib.Analysis.SpecialFunctions.Log.Deriv
import Mathlib.Analysis.SpecialFunctions.Exp

namespace Radolan.Elem
open Real

set_option maxHeartbeats 1000000 in
theorem ln2_close : |((Pow.ln2 : ℚ) : ℝ) - log 2| ≤ 1 / 10 ^ 26 := by
  have h := abs_log_sub_add_sum_range_le (x := 1 / 2) (by rw [abs_of_pos (by norm_num)]; norm_num) 92
  have e : log (1 - 1 / 2 : ℝ) = - log 2 := by
    rw [show (1 - 1 / 2 : ℝ) = 2⁻¹ by norm_num, log_inv]
  rw [e, abs_of_pos (by norm_num : (0 : ℝ) < 1 / 2)] at h
  have hs : |∑ i ∈ Finset.range 92, ((1 / 2 : ℝ) ^ (i + 1) / (i + 1)) - ((Pow.ln2 : ℚ) : ℝ)| ≤ 2 / 10 ^ 27 := by
    have : |∑ i ∈ Finset.range 92, ((1 / 2 : ℚ) ^ (i + 1) / (i + 1)) - Pow.ln2| ≤ 2 / 10 ^ 27 := by decide +kernel
    have h2 : ((|∑ i ∈ Finset.range 92, ((1 / 2 : ℚ) ^ (i + 1) / (i + 1)) - Pow.ln2| : ℚ) : ℝ) ≤ ((2 / 10 ^ 27 : ℚ) : ℝ) := by
      exact_mod_cast this
    push_cast at h2
    exact h2
  have h2 : ((1 / 2 : ℝ) ^ (92 + 1) / (1 - 1 / 2)) ≤ 1 / 10 ^ 27 := by norm_num
  have h3 := abs_le.mp (h.trans h2)
  have h4 := abs_le.mp hs
  rw [abs_le]
  constructor <;> linarith [h3.1, h3.2, h4.1, h4.2]

/-- a polynomial on an interval around 0 -/
theorem poly_sym {p : List ℚ} {ε h : ℚ} {n : Nat} (hh : 0 < h) (hc : Poly.check (Poly.shift (-(h * n)) p) ε h n = true)
    {t : ℝ} (ht : |t| < h * n) : |Poly.eval p t| ≤ ε := by
  obtain ⟨t1, t2⟩ := abs_lt.mp ht
  have := Poly.of_check hh hc (t := t + h * n) (by linarith) (by push_cast; linarith)
  rw [Poly.eval_shift] at this
  push_cast at this
  rwa [show -((h : ℝ) * n) + (t + h * n) = t by ring] at this

/-- the Taylor polynomial of `e^x - 1` -/
def taylorE : List ℚ := [0, 1, 1 / 2, 1 / 6, 1 / 24, 1 / 120, 1 / 720, 1 / 5040, 1 / 40320, 1 / 362880, 1 / 3628800,
  1 / 39916800, 1 / 479001600, 1 / 6227020800, 1 / 87178291200]

theorem exp_taylor {x : ℝ} (h : |x| ≤ 35 / 100) : |exp x - 1 - Poly.eval taylorE x| ≤ 2 / 10 ^ 19 := by
  have := Real.exp_bound (x := x) (h.trans (by norm_num)) (n := 15) (by norm_num)
  have e : ∑ m ∈ Finset.range 15, x ^ m / (m.factorial : ℝ) = 1 + Poly.eval taylorE x := by
    simp only [Finset.sum_range_succ, Finset.sum_range_zero, taylorE, Poly.eval, Nat.factorial]; push_cast; ring
  rw [e] at this
  rw [sub_sub]
  refine this.trans ?_
  have : |x| ^ 15 ≤ (35 / 100) ^ 15 := pow_le_pow_left₀ (abs_nonneg _) h 15
  refine (mul_le_mul_of_nonneg_right this (by positivity)).trans ?_
  norm_num [Nat.factorial]

/-- `2 - c` in the code, as a polynomial in `r` -/
def polyD : List ℚ := [2, -1, p1, 0, p2, 0, p3, 0, p4, 0, p5]

theorem checkE : Poly.check (Poly.shift (-(1 / 20 * (7 : Nat))) (Poly.add [0, 2] (Poly.scale (-1) (Poly.mul polyD taylorE))))
    (45 / 10 ^ 18) (1 / 20) 7 = true := by decide +kernel

/-- `(2 - c)`, with `c = r - t*(P1+...)`, `t = r²` -/
theorem polyD_eval (r : ℝ) : Poly.eval polyD r = 2 - (r - r * r * ((p1 : ℝ) + r * r * ((p2 : ℝ) + r * r * ((p3 : ℝ)
    + r * r * ((p4 : ℝ) + r * r * (p5 : ℝ)))))) := by
  simp only [polyD, Poly.eval]; push_cast; ring

theorem p_range {t : ℝ} (h0 : 0 ≤ t) (h1 : t ≤ 1 / 8) :
    166 / 1000 ≤ (p1 : ℝ) + t * ((p2 : ℝ) + t * ((p3 : ℝ) + t * ((p4 : ℝ) + t * (p5 : ℝ)))) ∧
    (p1 : ℝ) + t * ((p2 : ℝ) + t * ((p3 : ℝ) + t * ((p4 : ℝ) + t * (p5 : ℝ)))) ≤ 167 / 1000 := by
  simp only [p1, p2, p3, p4, p5, Rat.mkRat_eq_div]
  push_cast
  have a1 : 0 ≤ t * t := mul_nonneg h0 h0
  have a2 : t * t ≤ 1 / 8 * t := by nlinarith
  have a3 : 0 ≤ t * (t * t) := mul_nonneg h0 a1
  have a4 : t * (t * t) ≤ 1 / 8 * (t * t) := by nlinarith
  have a5 : 0 ≤ t * (t * (t * t)) := mul_nonneg h0 a3
  have a6 : t * (t * (t * t)) ≤ 1 / 8 * (t * (t * t)) := by nlinarith
  constructor <;> ring_nf at a1 a2 a3 a4 a5 a6 ⊢ <;> norm_num at * <;> linarith

theorem sq_le {r : ℝ} (h : |r| ≤ 3467 / 10 ^ 4) : 0 ≤ r * r ∧ r * r ≤ 1203 / 10 ^ 4 := by
  refine ⟨mul_self_nonneg r, ?_⟩
  have : |r| * |r| ≤ 3467 / 10 ^ 4 * (3467 / 10 ^ 4) := mul_le_mul h h (abs_nonneg _) (by norm_num)
  rw [abs_mul_abs_self] at this
  exact this.trans (by norm_num)

/-- the value `c` of the code -/
noncomputable def cOf (r : ℝ) : ℝ := r - r * r * ((p1 : ℝ) + r * r * ((p2 : ℝ) + r * r * ((p3 : ℝ) + r * r * ((p4 : ℝ) + r * r * (p5 : ℝ)))))

theorem c_range {r : ℝ} (h : |r| ≤ 3467 / 10 ^ 4) : |cOf r| ≤ 367 / 1000 ∧ cOf r ≤ 327 / 1000 := by
  obtain ⟨s0, s1⟩ := sq_le h
  obtain ⟨q1, q2⟩ := p_range s0 (s1.trans (by norm_num))
  obtain ⟨h1, h2⟩ := abs_le.mp h
  unfold cOf
  generalize (p1 : ℝ) + r * r * ((p2 : ℝ) + r * r * ((p3 : ℝ) + r * r * ((p4 : ℝ) + r * r * (p5 : ℝ)))) = q at *
  have e1 : 0 ≤ r * r * q := mul_nonneg s0 (by linarith)
  have e2 : r * r * q ≤ 1203 / 10 ^ 4 * (167 / 1000) := mul_le_mul s1 q2 (by linarith) (by norm_num)
  have e3 : r * r * (166 / 1000) ≤ r * r * q := mul_le_mul_of_nonneg_left q1 s0
  have e4 : r - r * r * (166 / 1000) ≤ 327 / 1000 := by
    norm_num at h2 ⊢; nlinarith
  rw [abs_le]
  refine ⟨⟨?_, ?_⟩, ?_⟩ <;> norm_num at * <;> linarith

/-- the exponential of the reduced argument -/
theorem exp_approx {r : ℝ} (h : |r| ≤ 3467 / 10 ^ 4) :
    |1 + r + r * cOf r / (2 - cOf r) - exp r| ≤ 3 / 10 ^ 17 := by
  obtain ⟨c1, c2⟩ := c_range h
  have k := poly_sym (p := Poly.add [0, 2] (Poly.scale (-1) (Poly.mul polyD taylorE))) (by norm_num) checkE (t := r)
    (lt_of_le_of_lt h (by norm_num))
  rw [Poly.eval_add, Poly.eval_scale, Poly.eval_mul, polyD_eval] at k
  change |_ + _ * ((2 - cOf r) * _)| ≤ _ at k
  have e0 : Poly.eval [0, 2] r = 2 * r := by simp only [Poly.eval]; push_cast; ring
  rw [e0] at k
  have t := exp_taylor (h.trans (by norm_num))
  generalize Poly.eval taylorE r = T at *
  generalize cOf r = c at *
  have hd : 1673 / 1000 ≤ 2 - c := by linarith
  have h0 : 2 - c ≠ 0 := by linarith
  have hc3 : 2 - c ≤ 3 := by linarith [(abs_le.mp c1).1]
  have e : 1 + r + r * c / (2 - c) - exp r = ((2 * r + ((-1 : ℚ) : ℝ) * ((2 - c) * T)) - (2 - c) * (exp r - 1 - T)) / (2 - c) := by
    field_simp; push_cast; ring
  rw [e, abs_div, abs_of_pos (by linarith : 0 < 2 - c), div_le_iff₀ (by linarith)]
  have b : |(2 - c) * (exp r - 1 - T)| ≤ 3 * (2 / 10 ^ 19) := by
    rw [abs_mul, abs_of_pos (by linarith : 0 < 2 - c)]
    exact mul_le_mul hc3 t (abs_nonneg _) (by norm_num)
  refine (abs_sub _ _).trans ((add_le_add k b).trans ?_)
  push_cast
  have := mul_le_mul_of_nonneg_left hd (by norm_num : (0 : ℝ) ≤ 3 / 10 ^ 17)
  refine _root_.le_trans ?_ this
  norm_num

/-- the series of `(log ((1+s)/(1-s)) - 2s) / s` in `s²`, and the polynomial of the code -/
def taylorL : List ℚ := [0, 2 / 3, 2 / 5, 2 / 7, 2 / 9, 2 / 11, 2 / 13, 2 / 15, 2 / 17, 2 / 19, 2 / 21, 2 / 23]
def polyL : List ℚ := [0, l1, l2, l3, l4, l5, l6, l7]

theorem checkL : Poly.check (Poly.add polyL (Poly.scale (-1) taylorL)) (14 / 10 ^ 18) (2945 / 1600000) 8 = true := by
  decide +kernel

theorem log_series {s : ℝ} (h : |s| ≤ 1716 / 10 ^ 4) :
    |log (1 + s) - log (1 - s) - (2 * s + s * Poly.eval taylorL (s * s))| ≤ 2 / 10 ^ 19 := by
  have hy : |s| < 1 := lt_of_le_of_lt h (by norm_num)
  have hy' : |-s| < 1 := by rwa [abs_neg]
  have h1 := Real.abs_log_sub_add_sum_range_le hy 24
  have h2 := Real.abs_log_sub_add_sum_range_le hy' 24
  have hb : |s| ^ (24 + 1) / (1 - |s|) ≤ 1 / 10 ^ 19 := by
    have : |s| ^ (24 + 1) ≤ (1716 / 10 ^ 4) ^ 25 := pow_le_pow_left₀ (abs_nonneg _) h 25
    rw [div_le_iff₀ (by linarith)]
    refine this.trans ?_
    have : (8 : ℝ) / 10 ≤ 1 - |s| := by norm_num at h; linarith
    calc ((1716 : ℝ) / 10 ^ 4) ^ 25 ≤ 1 / 10 ^ 19 * (8 / 10) := by norm_num
      _ ≤ _ := by apply mul_le_mul_of_nonneg_left this; norm_num
  rw [abs_neg] at h2
  have e : log (1 + s) - log (1 - s) - (2 * s + s * Poly.eval taylorL (s * s)) =
      (∑ i ∈ Finset.range 24, (-s) ^ (i + 1) / ((i : ℝ) + 1) + log (1 - -s))
      - (∑ i ∈ Finset.range 24, s ^ (i + 1) / ((i : ℝ) + 1) + log (1 - s)) := by
    simp only [Finset.sum_range_succ, Finset.sum_range_zero, taylorL, Poly.eval, sub_neg_eq_add]
    push_cast
    ring
  rw [e]
  refine (abs_sub _ _).trans ((add_le_add (h2.trans hb) (h1.trans hb)).trans ?_)
  norm_num

theorem s_range {f : ℝ} (h1 : -2929 / 10 ^ 4 ≤ f) (h2 : f ≤ 41422 / 10 ^ 5) : |f / (2 + f)| ≤ 1716 / 10 ^ 4 := by
  have hd : 0 < 2 + f := by norm_num at h1; linarith
  rw [abs_le, le_div_iff₀ hd, div_le_iff₀ hd]
  constructor <;> norm_num at h1 h2 ⊢ <;> linarith

/-- the logarithm of the reduced argument -/
theorem log_approx {f : ℝ} (h1 : -2929 / 10 ^ 4 ≤ f) (h2 : f ≤ 41422 / 10 ^ 5) :
    |f - (f * f / 2 - f / (2 + f) * (f * f / 2 + Poly.eval polyL (f / (2 + f) * (f / (2 + f))))) - log (1 + f)| ≤ 3 / 10 ^ 18 := by
  have hs := s_range h1 h2
  have hd : 0 < 2 + f := by norm_num at h1; linarith
  have hf1 : 0 < 1 + f := by norm_num at h1; linarith
  have hl : log (1 + f) = log (1 + f / (2 + f)) - log (1 - f / (2 + f)) := by
    rw [← log_div]
    · congr 1; field_simp; ring
    · have : 1 + f / (2 + f) = 2 * (1 + f) / (2 + f) := by field_simp; ring
      rw [this]; positivity
    · have : 1 - f / (2 + f) = 2 / (2 + f) := by field_simp; ring
      rw [this]; positivity
  have t := log_series hs
  have ez : f - (f * f / 2 - f / (2 + f) * (f * f / 2 + Poly.eval polyL (f / (2 + f) * (f / (2 + f)))))
      = 2 * (f / (2 + f)) + f / (2 + f) * Poly.eval polyL (f / (2 + f) * (f / (2 + f))) := by
    generalize Poly.eval polyL (f / (2 + f) * (f / (2 + f))) = q
    field_simp; ring
  rw [hl, ez]
  generalize f / (2 + f) = s at *
  have z1 : s * s ≤ 1716 / 10 ^ 4 * (1716 / 10 ^ 4) := by
    have := mul_le_mul hs hs (abs_nonneg _) (by norm_num)
    rwa [abs_mul_abs_self] at this
  have k := Poly.of_check (by norm_num) checkL (t := s * s) (mul_self_nonneg s) (by push_cast; norm_num at z1 ⊢; linarith)
  rw [Poly.eval_add, Poly.eval_scale] at k
  have e : 2 * s + s * Poly.eval polyL (s * s) - (log (1 + s) - log (1 - s)) =
      s * (Poly.eval polyL (s * s) + ((-1 : ℚ) : ℝ) * Poly.eval taylorL (s * s))
      - (log (1 + s) - log (1 - s) - (2 * s + s * Poly.eval taylorL (s * s))) := by push_cast; ring
  rw [e]
  refine (abs_sub _ _).trans ?_
  rw [abs_mul]
  have := mul_le_mul hs k (abs_nonneg _) (by norm_num)
  push_cast at this t ⊢
  norm_num at this t ⊢
  linarith

/-! ### amd64 -/

def polyA : List ℚ := [0, 1, 1 / 2, c3, c4, c5, c6, c7, c8]

theorem checkA : Poly.check (Poly.shift (-(11 / 500 * (1 : Nat))) (Poly.add polyA (Poly.scale (-1) taylorE))) (2 / 10 ^ 20) (11 / 500) 1
    = true := by decide +kernel

theorem expm1_approx {s : ℝ} (h : |s| < 11 / 500) : |Poly.eval polyA s - (exp s - 1)| ≤ 3 / 10 ^ 19 := by
  have k := poly_sym (by norm_num) checkA (t := s) (by push_cast; norm_num at h ⊢; exact h)
  rw [Poly.eval_add, Poly.eval_scale] at k
  have t := exp_taylor (x := s) (h.le.trans (by norm_num))
  have e : Poly.eval polyA s - (exp s - 1) = (Poly.eval polyA s + ((-1 : ℚ) : ℝ) * Poly.eval taylorE s)
      - (exp s - 1 - Poly.eval taylorE s) := by push_cast; ring
  rw [e]
  refine (abs_sub _ _).trans ?_
  push_cast at k ⊢
  norm_num at k t ⊢
  linarith

/-- bounds of the powers of `e^s` -/
theorem exp_bounds {s : ℝ} (h : |s| ≤ 217 / 10 ^ 4) : 9783 / 10 ^ 4 ≤ exp s ∧ exp s ≤ 10222 / 10 ^ 4 := by
  obtain ⟨s1, s2⟩ := abs_le.mp h
  constructor
  · have := add_one_le_exp s
    norm_num at s1 ⊢; linarith
  · have h3 := add_one_le_exp (-s)
    have h4 : exp s * exp (-s) = 1 := by rw [← exp_add]; simp
    have h5 := exp_pos s
    norm_num at s2 ⊢
    nlinarith

end Radolan.Elem
