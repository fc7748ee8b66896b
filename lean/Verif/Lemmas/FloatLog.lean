/-
Relative errors of float64 operations, measured by the logarithm.
-/
import Verif.Lemmas.FloatReal
import Verif.Lemmas.Nearest
import Mathlib.Analysis.Complex.ExponentialBounds
import Verif.Props.Conversion

namespace Go.Fl
open Real Radolan Radolan.Num Spec

/-- `x` is a positive finite float with logarithm within `δ` of `L` -/
def LogAp (x : F64) (L δ : ℝ) : Prop := x.isFin = true ∧ (0 : ℝ) < x.val ∧ |log x.val - L| ≤ δ

theorem LogAp.mono {x : F64} {L δ ε : ℝ} (h : LogAp x L δ) (hd : δ ≤ ε) : LogAp x L ε := ⟨h.1, h.2.1, h.2.2.trans hd⟩

/-- relative error to logarithm -/
theorem log_of_rel {v t ε : ℝ} (ht : 0 < t) (h : |v - t| ≤ t * ε) (he : ε ≤ 1 / 1000) (h0 : 0 ≤ ε) :
    0 < v ∧ |log v - log t| ≤ ε * (1 + 2 / 1000) := by
  have hb := abs_le.mp h
  have hv : 0 < v := by nlinarith
  refine ⟨hv, ?_⟩
  have hq : log v - log t = log (v / t) := (log_div hv.ne' ht.ne').symm
  have hp : 0 < v / t := div_pos hv ht
  have e1 : v / t ≤ 1 + ε := by rw [div_le_iff₀ ht]; nlinarith
  have e2 : 1 - ε ≤ v / t := by rw [le_div_iff₀ ht]; nlinarith
  rw [hq, abs_le]
  constructor
  · have h1 := Real.one_sub_inv_le_log_of_pos hp
    have h2 : (v / t)⁻¹ ≤ (1 - ε)⁻¹ := inv_anti₀ (by linarith) e2
    have h3 : (1 - ε)⁻¹ ≤ 1 + ε * (1 + 2 / 1000) := by
      rw [inv_le_iff_one_le_mul₀ (by linarith)]
      nlinarith
    linarith
  · have := log_le_sub_one_of_pos hp
    nlinarith

/-- logarithm to relative error -/
theorem rel_of_log {v t δ : ℝ} (hv : 0 < v) (ht : 0 < t) (h : |log v - log t| ≤ δ) (hd : δ ≤ 1) :
    |v - t| ≤ t * (2 * δ) := by
  have h1 := Real.abs_exp_sub_one_le (x := log v - log t) (h.trans hd)
  have e : v - t = t * (exp (log v - log t) - 1) := by
    rw [exp_sub, exp_log hv, exp_log ht]; field_simp
  rw [e, abs_mul, abs_of_pos ht]
  exact mul_le_mul_of_nonneg_left (h1.trans (by linarith)) ht.le

theorem exp_range {L : ℝ} (h : |L| ≤ 120) : 1 / 10 ^ 60 ≤ exp L ∧ exp L ≤ 10 ^ 60 := by
  have hb := abs_le.mp h
  have e1 : exp (120 : ℝ) ≤ 10 ^ 60 := by
    have h1 : exp (120 : ℝ) = exp 1 ^ 120 := by rw [← exp_nat_mul]; norm_num
    rw [h1]
    have : exp 1 < 2.7182818286 := exp_one_lt_d9
    calc exp 1 ^ 120 ≤ (2.7182818286 : ℝ) ^ 120 := pow_le_pow_left₀ (exp_pos _).le this.le _
      _ ≤ 10 ^ 60 := by norm_num
  have e2 : exp L ≤ exp 120 := exp_le_exp.mpr hb.2
  have e3 : exp (-120) ≤ exp L := exp_le_exp.mpr hb.1
  refine ⟨?_, e2.trans e1⟩
  refine _root_.le_trans ?_ e3
  rw [exp_neg, one_div]
  exact inv_anti₀ (exp_pos _) e1

/-- rounding a positive number of moderate size -/
theorem mk_log {b : Bool} {q : ℚ} (hq : (0 : ℝ) < q) (h : |log (q : ℝ)| ≤ 120) :
    LogAp (mk f64 b q) (log q) (13 / 10 ^ 17) := by
  obtain ⟨r1, r2⟩ := exp_range h
  rw [exp_log hq] at r1 r2
  have := mk_ap (b := b) (q := q) (r := q) (ε := 0) (M := q) (by simp) (by rw [abs_of_pos hq]; simp) r1 r2
  obtain ⟨h1, h2⟩ := log_of_rel (v := (mk f64 b q).val) (t := q) (ε := 12 / 10 ^ 17) hq
    (by have := this.2; linarith) (by norm_num) (by norm_num)
  exact ⟨this.1, h1, h2.trans (by norm_num)⟩

theorem mul_log {x y : F64} {a b δ ε t : ℝ} (hx : LogAp x a δ) (hy : LogAp y b ε) (hab : |a + b| + (δ + ε) ≤ 120)
    (ht : δ + ε + 13 / 10 ^ 17 ≤ t) : LogAp (mul x y) (a + b) t := by
  obtain ⟨x1, x2, x3⟩ := hx
  obtain ⟨y1, y2, y3⟩ := hy
  have hl : log (((x.val * y.val : ℚ)) : ℝ) = log x.val + log y.val := by
    push_cast; exact log_mul x2.ne' y2.ne'
  have hn : |log (((x.val * y.val : ℚ)) : ℝ) - (a + b)| ≤ δ + ε := by
    rw [hl]; exact near_add x3 y3
  have hr : |log (((x.val * y.val : ℚ)) : ℝ)| ≤ 120 := by
    have := abs_add_le (a + b) (log (((x.val * y.val : ℚ)) : ℝ) - (a + b))
    rw [add_sub_cancel] at this
    linarith
  rw [mul_fin x1 y1]
  obtain ⟨h1, h2, h3⟩ := mk_log (b := x.sign ^^ y.sign) (q := x.val * y.val) (by push_cast; exact mul_pos x2 y2) hr
  refine ⟨h1, h2, ?_⟩
  have e : log ((mk f64 (x.sign ^^ y.sign) (x.val * y.val)).val : ℝ) - (a + b) =
      (log ((mk f64 (x.sign ^^ y.sign) (x.val * y.val)).val : ℝ) - log (((x.val * y.val : ℚ)) : ℝ)) +
      (log (((x.val * y.val : ℚ)) : ℝ) - (a + b)) := by ring
  rw [e]
  refine (abs_add_le _ _).trans ((add_le_add h3 hn).trans ?_)
  linarith

variable {M : MathLib}

/-- powers -/
theorem pow_log (hM : AccuratePowLog M) {x y : F64} {l b δ ε B K t : ℝ} (hx : LogAp x l δ) (hx1 : (1 : ℝ) ≤ x.val) (hx2 : (x.val : ℝ) ≤ 10 ^ 4)
    (hy : Ap y b ε) (hb : |b| ≤ B) (hl : |l| ≤ K) (he : B * δ + K * ε + ε * δ ≤ t) (hr : B * K + t ≤ 100)
    (hB2 : B + ε ≤ 200) :
    LogAp (M.pow x y) (b * l) (t + 11 / 10 ^ 14) := by
  obtain ⟨x1, x2, x3⟩ := hx
  have hε : 0 ≤ ε := (abs_nonneg _).trans hy.2
  have hδ : 0 ≤ δ := (abs_nonneg _).trans x3
  have hB : 0 ≤ B := (abs_nonneg _).trans hb
  have hprod : |(y.val : ℝ) * log x.val - b * l| ≤ t := by
    have e : (y.val : ℝ) * log x.val - b * l =
        b * (log x.val - l) + (((y.val : ℝ) - b) * l + ((y.val : ℝ) - b) * (log x.val - l)) := by ring
    rw [e]
    refine (abs_add_le _ _).trans (_root_.le_trans (add_le_add le_rfl (abs_add_le _ _)) ?_)
    rw [abs_mul, abs_mul, abs_mul]
    have k1 : |b| * |log (x.val : ℝ) - l| ≤ B * δ := mul_le_mul hb x3 (abs_nonneg _) hB
    have k2 : |(y.val : ℝ) - b| * |l| ≤ ε * K := mul_le_mul hy.2 hl (abs_nonneg _) hε
    have k3 : |(y.val : ℝ) - b| * |log (x.val : ℝ) - l| ≤ ε * δ := mul_le_mul hy.2 x3 (abs_nonneg _) hε
    linarith
  have hrange : |(y.val : ℝ) * log x.val| ≤ 100 := by
    have := abs_add_le (b * l) ((y.val : ℝ) * log x.val - b * l)
    rw [add_sub_cancel] at this
    have h2 : |b * l| ≤ B * K := by rw [abs_mul]; exact mul_le_mul hb hl (abs_nonneg _) hB
    linarith
  have hy200 : |(y.val : ℝ)| ≤ 200 := by
    have := abs_add_le b ((y.val : ℝ) - b)
    rw [add_sub_cancel] at this
    linarith [hy.2]
  obtain ⟨p1, p2⟩ := hM.pow x y x1 hy.1 hx1 hx2 hy200 hrange
  have hp : 0 < (x.val : ℝ) ^ (y.val : ℝ) := rpow_pos_of_pos x2 _
  obtain ⟨g1, g2⟩ := log_of_rel (ε := 1 / 10 ^ 13) hp (by rw [mul_one_div]; exact p2) (by norm_num) (by norm_num)
  refine ⟨p1, g1, ?_⟩
  rw [log_rpow x2] at g2
  have e : log ((M.pow x y).val : ℝ) - b * l = (log ((M.pow x y).val : ℝ) - y.val * log x.val) + (y.val * log x.val - b * l) := by ring
  rw [e]
  refine (abs_add_le _ _).trans ((add_le_add g2 hprod).trans ?_)
  norm_num; linarith

end Go.Fl
