/- The polynomials of Model/Trig.lean against sine, cosine and tangent, in exact arithmetic. -/
import Verif.Model.Trig
import Verif.Lemmas.PolyBound
import Mathlib.Analysis.Complex.Trigonometric
import Mathlib.Analysis.Complex.Exponential
import Mathlib.Analysis.Real.Pi.Bounds
import Mathlib.Analysis.SpecialFunctions.Trigonometric.Bounds

namespace Radolan.Trig
open Real

/-- the Taylor polynomials of `sin z / z` and `cos z` in `z²` -/
def taylorS : List ℚ := (List.range 10).map fun k => (-1) ^ k / ((2 * k + 1).factorial : ℚ)
def taylorC : List ℚ := (List.range 10).map fun k => (-1) ^ k / ((2 * k).factorial : ℚ)

/-- the polynomials of the code, lowest power first: `sin z / z`, `cos z`, and numerator and denominator of `tan z / z - 1` -/
def polyS : List ℚ := [1, sin5, sin4, sin3, sin2, sin1, sin0]
def polyC : List ℚ := [1, -1 / 2, cos5, cos4, cos3, cos2, cos1, cos0]
def polyP : List ℚ := [0, tanP2, tanP1, tanP0]
def polyQ : List ℚ := [tanQ4, tanQ3, tanQ2, tanQ1, 1]

theorem exp_sum20 (x : ℝ) : ∑ m ∈ Finset.range 20, ((x : ℂ) * Complex.I) ^ m / (m.factorial : ℂ)
    = (Poly.eval taylorC (x ^ 2) : ℂ) + (x * Poly.eval taylorS (x ^ 2) : ℂ) * Complex.I := by
  have h2 : Complex.I ^ 2 = -1 := Complex.I_sq
  have h3 : Complex.I ^ 3 = -Complex.I := Complex.I_pow_three
  have h4 : Complex.I ^ 4 = 1 := Complex.I_pow_four
  have p : ∀ n, Complex.I ^ (n + 4) = Complex.I ^ n := by intro n; rw [pow_add, h4, mul_one]
  have h5 : Complex.I ^ 5 = Complex.I := by rw [p 1, pow_one]
  have h6 : Complex.I ^ 6 = -1 := by rw [p 2, h2]
  have h7 : Complex.I ^ 7 = -Complex.I := by rw [p 3, h3]
  have h8 : Complex.I ^ 8 = 1 := by rw [p 4, h4]
  have h9 : Complex.I ^ 9 = Complex.I := by rw [p 5, h5]
  have h10 : Complex.I ^ 10 = -1 := by rw [p 6, h6]
  have h11 : Complex.I ^ 11 = -Complex.I := by rw [p 7, h7]
  have h12 : Complex.I ^ 12 = 1 := by rw [p 8, h8]
  have h13 : Complex.I ^ 13 = Complex.I := by rw [p 9, h9]
  have h14 : Complex.I ^ 14 = -1 := by rw [p 10, h10]
  have h15 : Complex.I ^ 15 = -Complex.I := by rw [p 11, h11]
  have h16 : Complex.I ^ 16 = 1 := by rw [p 12, h12]
  have h17 : Complex.I ^ 17 = Complex.I := by rw [p 13, h13]
  have h18 : Complex.I ^ 18 = -1 := by rw [p 14, h14]
  have h19 : Complex.I ^ 19 = -Complex.I := by rw [p 15, h15]
  have eC : taylorC = [1, -1 / 2, 1 / 24, -1 / 720, 1 / 40320, -1 / 3628800, 1 / 479001600, -1 / 87178291200,
      1 / 20922789888000, -1 / 6402373705728000] := by decide +kernel
  have eS : taylorS = [1, -1 / 6, 1 / 120, -1 / 5040, 1 / 362880, -1 / 39916800, 1 / 6227020800, -1 / 1307674368000,
      1 / 355687428096000, -1 / 121645100408832000] := by decide +kernel
  rw [eC, eS]
  simp only [Finset.sum_range_succ, Finset.sum_range_zero, mul_pow, h2, h3, h4, h5, h6, h7, h8, h9, h10, h11, h12,
    h13, h14, h15, h16, h17, h18, h19, Nat.factorial, Poly.eval]
  push_cast
  ring

theorem exp_err20 {x : ℝ} (h : |x| ≤ 1) :
    ‖Complex.exp ((x : ℂ) * Complex.I)
      - ((Poly.eval taylorC (x ^ 2) : ℂ) + (x * Poly.eval taylorS (x ^ 2) : ℂ) * Complex.I)‖ ≤ 5 / 10 ^ 19 := by
  have hn : ‖(x : ℂ) * Complex.I‖ ≤ 1 := by simpa using h
  have := Complex.exp_bound hn (n := 20) (by norm_num)
  rw [exp_sum20] at this
  refine this.trans ?_
  have h1 : ‖(x : ℂ) * Complex.I‖ ^ 20 ≤ 1 := pow_le_one₀ (norm_nonneg _) hn
  refine (mul_le_mul_of_nonneg_right h1 (by positivity)).trans ?_
  norm_num [Nat.factorial]

theorem cos_taylor {x : ℝ} (h : |x| ≤ 1) : |cos x - Poly.eval taylorC (x ^ 2)| ≤ 5 / 10 ^ 19 := by
  refine le_trans ?_ (exp_err20 h)
  have := Complex.abs_re_le_norm (Complex.exp ((x : ℂ) * Complex.I)
    - ((Poly.eval taylorC (x ^ 2) : ℂ) + (x * Poly.eval taylorS (x ^ 2) : ℂ) * Complex.I))
  rw [← Complex.ofReal_mul] at this
  simpa [Complex.exp_ofReal_mul_I_re] using this

theorem sin_taylor {x : ℝ} (h : |x| ≤ 1) : |sin x - x * Poly.eval taylorS (x ^ 2)| ≤ 5 / 10 ^ 19 := by
  refine le_trans ?_ (exp_err20 h)
  have := Complex.abs_im_le_norm (Complex.exp ((x : ℂ) * Complex.I)
    - ((Poly.eval taylorC (x ^ 2) : ℂ) + (x * Poly.eval taylorS (x ^ 2) : ℂ) * Complex.I))
  rw [← Complex.ofReal_mul] at this
  simpa [Complex.exp_ofReal_mul_I_im] using this

/-- the range of `z²` -/
theorem sq_range {x : ℝ} (h : |x| ≤ 7855 / 10 ^ 4) : 0 ≤ x ^ 2 ∧ x ^ 2 < 618 / 1000 := by
  have h2 : x ^ 2 ≤ (7855 / 10 ^ 4) ^ 2 := by rw [← sq_abs]; exact pow_le_pow_left₀ (abs_nonneg _) h 2
  exact ⟨sq_nonneg _, lt_of_le_of_lt h2 (by norm_num)⟩

theorem checkS : Poly.check (Poly.add polyS (Poly.scale (-1) taylorS)) (2 / 10 ^ 17) (618 / 16000) 8 = true := by
  decide +kernel
theorem checkC : Poly.check (Poly.add polyC (Poly.scale (-1) taylorC)) (1 / 10 ^ 18) (618 / 16000) 8 = true := by
  decide +kernel
theorem checkT : Poly.check (Poly.add (Poly.mul (Poly.add polyQ polyP) taylorC) (Poly.scale (-1) (Poly.mul polyQ taylorS)))
    (5 / 10 ^ 12) (618 / 16000) 8 = true := by decide +kernel

theorem sin_approx {x : ℝ} (h : |x| ≤ 7855 / 10 ^ 4) : |x * Poly.eval polyS (x ^ 2) - sin x| ≤ 2 / 10 ^ 17 := by
  have hx1 : |x| ≤ 1 := h.trans (by norm_num)
  obtain ⟨h0, h1⟩ := sq_range h
  have k := Poly.of_check (by norm_num) checkS h0 (by push_cast; norm_num at h1 ⊢; exact h1)
  rw [Poly.eval_add, Poly.eval_scale] at k
  have t := sin_taylor hx1
  have e : x * Poly.eval polyS (x ^ 2) - sin x = x * (Poly.eval polyS (x ^ 2) + ((-1 : ℚ) : ℝ) * Poly.eval taylorS (x ^ 2))
      - (sin x - x * Poly.eval taylorS (x ^ 2)) := by push_cast; ring
  rw [e]
  refine (abs_sub _ _).trans ?_
  rw [abs_mul]
  have := mul_le_mul h k (abs_nonneg _) (by norm_num)
  push_cast at this t ⊢
  norm_num at this t ⊢
  linarith

theorem cos_approx {x : ℝ} (h : |x| ≤ 7855 / 10 ^ 4) : |Poly.eval polyC (x ^ 2) - cos x| ≤ 2 / 10 ^ 18 := by
  have hx1 : |x| ≤ 1 := h.trans (by norm_num)
  obtain ⟨h0, h1⟩ := sq_range h
  have k := Poly.of_check (by norm_num) checkC h0 (by push_cast; norm_num at h1 ⊢; exact h1)
  rw [Poly.eval_add, Poly.eval_scale] at k
  have t := cos_taylor hx1
  have e : Poly.eval polyC (x ^ 2) - cos x = (Poly.eval polyC (x ^ 2) + ((-1 : ℚ) : ℝ) * Poly.eval taylorC (x ^ 2))
      - (cos x - Poly.eval taylorC (x ^ 2)) := by push_cast; ring
  rw [e]
  refine (abs_sub _ _).trans ?_
  push_cast at k t ⊢
  norm_num at k t ⊢
  linarith

/-- the denominator of the tangent -/
theorem polyQ_range {t : ℝ} (h0 : 0 ≤ t) (h1 : t < 618 / 1000) :
    Poly.eval polyQ t ≤ -38400000 ∧ -54000000 ≤ Poly.eval polyQ t := by
  simp only [polyQ, Poly.eval, tanQ1, tanQ2, tanQ3, tanQ4, Rat.mkRat_eq_div]
  push_cast
  have a1 : 0 ≤ t * t := mul_nonneg h0 h0
  have a2 : t * t ≤ 618 / 1000 * t := by nlinarith
  have a3 : 0 ≤ t * (t * t) := mul_nonneg h0 a1
  have a4 : t * (t * t) ≤ 618 / 1000 * (t * t) := by nlinarith
  have a5 : 0 ≤ t * (t * (t * t)) := mul_nonneg h0 a3
  have a6 : t * (t * (t * t)) ≤ 618 / 1000 * (t * (t * t)) := by nlinarith
  constructor <;> ring_nf at a1 a2 a3 a4 a5 a6 ⊢ <;> norm_num at * <;> linarith

theorem cos_low {x : ℝ} (h : |x| ≤ 7855 / 10 ^ 4) : 69 / 100 ≤ cos x := by
  have h1 := Real.one_sub_sq_div_two_le_cos (x := x)
  have h2 := (sq_range h).2
  linarith

theorem tan_approx {x : ℝ} (h : |x| ≤ 7855 / 10 ^ 4) :
    |x + x * (Poly.eval polyP (x ^ 2) / Poly.eval polyQ (x ^ 2)) - tan x| ≤ 3 / 10 ^ 18 := by
  have hx1 : |x| ≤ 1 := h.trans (by norm_num)
  obtain ⟨h0, h1⟩ := sq_range h
  have k := Poly.of_check (by norm_num) checkT h0 (by push_cast; norm_num at h1 ⊢; exact h1)
  rw [Poly.eval_add, Poly.eval_scale, Poly.eval_mul, Poly.eval_mul, Poly.eval_add] at k
  obtain ⟨q1, q2⟩ := polyQ_range h0 h1
  have c0 := cos_low h
  have ts := sin_taylor hx1
  have tc := cos_taylor hx1
  generalize Poly.eval polyQ (x ^ 2) = Q at *
  generalize hP : Poly.eval polyP (x ^ 2) = P at *
  generalize Poly.eval taylorS (x ^ 2) = S at *
  generalize Poly.eval taylorC (x ^ 2) = C at *
  have bP : |P| ≤ 12000000 := by
    rw [← hP]
    simp only [polyP, Poly.eval, tanP0, tanP1, tanP2, Rat.mkRat_eq_div]
    generalize x ^ 2 = t at *
    push_cast
    have a1 : 0 ≤ t * t := mul_nonneg h0 h0
    have a2 : t * t ≤ 618 / 1000 * t := by nlinarith
    have a3 : 0 ≤ t * (t * t) := mul_nonneg h0 a1
    have a4 : t * (t * t) ≤ 618 / 1000 * (t * t) := by nlinarith
    rw [abs_le]
    constructor <;> ring_nf at a1 a2 a3 a4 ⊢ <;> norm_num at * <;> linarith
  have Q0 : Q ≠ 0 := by linarith
  have hc : cos x ≠ 0 := by linarith
  have e : x + x * (P / Q) - tan x = (x * ((Q + P) * C + ((-1 : ℚ) : ℝ) * (Q * S)) + x * (Q + P) * (cos x - C)
      - Q * (sin x - x * S)) / (Q * cos x) := by
    rw [tan_eq_sin_div_cos]; field_simp; push_cast; ring
  rw [e, abs_div]
  have hd : 26000000 ≤ |Q * cos x| := by
    rw [abs_mul, abs_of_neg (by linarith), abs_of_pos (by linarith)]; nlinarith
  rw [div_le_iff₀ (by linarith)]
  have b1 : |x * ((Q + P) * C + ((-1 : ℚ) : ℝ) * (Q * S))| ≤ 1 * (5 / 10 ^ 12) := by
    rw [abs_mul]
    refine mul_le_mul hx1 (k.trans (by push_cast; norm_num)) (abs_nonneg _) (by norm_num)
  have bQ : |Q| ≤ 54000000 := by rw [abs_le]; constructor <;> linarith
  have bQP : |Q + P| ≤ 66000000 := (abs_add_le _ _).trans (by linarith)
  have b2 : |x * (Q + P) * (cos x - C)| ≤ 1 * 66000000 * (5 / 10 ^ 19) := by
    rw [abs_mul, abs_mul]
    exact mul_le_mul (mul_le_mul hx1 bQP (abs_nonneg _) (by norm_num)) tc (abs_nonneg _) (by norm_num)
  have b3 : |Q * (sin x - x * S)| ≤ 54000000 * (5 / 10 ^ 19) := by
    rw [abs_mul]; exact mul_le_mul bQ ts (abs_nonneg _) (by norm_num)
  have := (abs_sub (x * ((Q + P) * C + ((-1 : ℚ) : ℝ) * (Q * S)) + x * (Q + P) * (cos x - C)) (Q * (sin x - x * S))).trans
    (add_le_add (abs_add_le _ _) (le_refl _))
  refine this.trans ?_
  have n1 : (1 : ℝ) * (5 / 10 ^ 12) + 1 * 66000000 * (5 / 10 ^ 19) + 54000000 * (5 / 10 ^ 19) ≤ 3 / 10 ^ 18 * 26000000 := by
    norm_num
  have n2 : (3 : ℝ) / 10 ^ 18 * 26000000 ≤ 3 / 10 ^ 18 * |Q * cos x| := mul_le_mul_of_nonneg_left hd (by norm_num)
  linarith

end Radolan.Trig
