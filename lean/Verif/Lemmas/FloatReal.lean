/- Float64 operations against real operations: finite results and absolute error bounds. -/
import Verif.Lemmas.FloatSmall
import Verif.Lemmas.TrigNum
import Verif.Spec.MathLib
import Mathlib.Analysis.SpecialFunctions.Trigonometric.ArctanDeriv
import Mathlib.Analysis.SpecialFunctions.Pow.Deriv
import Mathlib.Analysis.Calculus.MeanValue

namespace Go

/-- rounding error relative to a bound on the magnitude -/
theorem rnd_err_le {q M : ℚ} (h : |q| ≤ M) (hM : pow2 (-900) ≤ M) : |rnd f64 q - q| ≤ M * pow2 (-53) := by
  by_cases hn : pow2 (-1022) ≤ |q|
  · have hn' : pow2 (f64.emin + f64.prec - 1) ≤ |q| := by
      rw [show f64.emin + (f64.prec : Int) - 1 = -1022 by decide]; exact hn
    have h1 := rnd_rel_err f64 hn'
    exact h1.trans (mul_le_mul_of_nonneg_right h (pow2_pos _).le)
  · have hn := lt_of_not_ge hn
    have h1 : |q| < pow2 (f64.emin + f64.prec) := lt_trans hn (pow2_lt.mpr (by decide))
    have h2 := rnd_abs_err f64 h1
    have h3 : pow2 (f64.emin - 1) ≤ pow2 (-900) * pow2 (-53) := by
      rw [← pow2_add]; exact pow2_le.mpr (by decide)
    exact h2.trans (h3.trans (mul_le_mul_of_nonneg_right hM (pow2_pos _).le))

namespace Fl
open Real Radolan.Num

/-- `x` is a finite number within `ε` of the real `r` -/
def Ap (x : F64) (r ε : ℝ) : Prop := x.isFin = true ∧ |(x.val : ℝ) - r| ≤ ε

theorem Ap.mono {x : F64} {r ε δ : ℝ} (h : Ap x r ε) (hd : ε ≤ δ) : Ap x r δ := ⟨h.1, h.2.trans hd⟩

theorem Ap.exact {x : F64} (h : x.isFin = true) : Ap x x.val 0 := ⟨h, by simp⟩

theorem pow2_real (e : Int) : ((pow2 e : ℚ) : ℝ) = (2 : ℝ) ^ e := by rw [pow2_eq]; push_cast; rfl

theorem small_bound {M : ℝ} (h : 1 / 10 ^ 60 ≤ M) : ((pow2 (-900) : ℚ) : ℝ) ≤ M := by
  refine _root_.le_trans ?_ h
  have : pow2 (-900) ≤ pow2 (-220) := pow2_le.mpr (by decide)
  have h2 : pow2 (-220) ≤ 1 / 10 ^ 60 := by rw [pow2_eq]; norm_num
  have h3 := this.trans h2
  have h4 : ((pow2 (-900) : ℚ) : ℝ) ≤ ((1 / 10 ^ 60 : ℚ) : ℝ) := by exact_mod_cast h3
  refine h4.trans (le_of_eq ?_)
  push_cast; rfl

/-- one rounding -/
theorem mk_ap {b : Bool} {q : ℚ} {r ε M : ℝ} (h : |(q : ℝ) - r| ≤ ε) (hM : |r| + ε ≤ M) (h1 : 1 / 10 ^ 60 ≤ M)
    (h2 : M ≤ 10 ^ 60) : Ap (mk f64 b q) r (ε + M * (12 / 10 ^ 17)) := by
  have hq : |(q : ℝ)| ≤ M := by
    have := abs_add_le r ((q : ℝ) - r)
    rw [add_sub_cancel] at this
    linarith
  have hq0 : ((|q| : ℚ) : ℝ) ≤ M := by push_cast; exact hq
  -- a rational bound of the magnitude
  have he : |rnd f64 q - q| ≤ max |q| (pow2 (-900)) * pow2 (-53) := rnd_err_le (le_max_left _ _) (le_max_right _ _)
  have he' : |((rnd f64 q : ℚ) : ℝ) - q| ≤ M * (12 / 10 ^ 17) := by
    have h3 : ((|rnd f64 q - q| : ℚ) : ℝ) ≤ ((max |q| (pow2 (-900)) * pow2 (-53) : ℚ) : ℝ) := by exact_mod_cast he
    rw [Rat.cast_mul, Rat.cast_max] at h3
    have h4 : max (((|q| : ℚ)) : ℝ) ((pow2 (-900) : ℚ) : ℝ) ≤ M := max_le hq0 (small_bound h1)
    have h5 : ((pow2 (-53) : ℚ) : ℝ) ≤ 12 / 10 ^ 17 := by
      have : pow2 (-53) ≤ 12 / 10 ^ 17 := by rw [pow2_eq]; norm_num
      have h6 : ((pow2 (-53) : ℚ) : ℝ) ≤ ((12 / 10 ^ 17 : ℚ) : ℝ) := by exact_mod_cast this
      refine h6.trans (le_of_eq ?_)
      push_cast; rfl
    have h7 : (0 : ℝ) ≤ ((pow2 (-53) : ℚ) : ℝ) := by exact_mod_cast (pow2_pos _).le
    have h8 : (0 : ℝ) ≤ M := (abs_nonneg _).trans hq
    have := mul_le_mul h4 h5 h7 h8
    push_cast at h3 this
    exact h3.trans this
  have hfin : |rnd f64 q| < pow2 f64.emax := by
    have h3 : |((rnd f64 q : ℚ) : ℝ)| ≤ 2 * 10 ^ 60 := by
      have := abs_add_le (q : ℝ) (((rnd f64 q : ℚ) : ℝ) - q)
      rw [add_sub_cancel] at this
      have h8 : (0 : ℝ) ≤ M := (abs_nonneg _).trans hq
      have : M * (12 / 10 ^ 17) ≤ M := by nlinarith
      linarith
    have h4 : |rnd f64 q| ≤ 2 * 10 ^ 60 := by exact_mod_cast h3
    refine lt_of_le_of_lt h4 (lt_trans (?_ : _ < pow2 220) (pow2_lt.mpr (by decide)))
    rw [pow2_eq]; norm_num
  obtain ⟨f1, f2⟩ := mk_fin (b := b) hfin
  refine ⟨f1, ?_⟩
  rw [f2]
  have e : ((rnd f64 q : ℚ) : ℝ) - r = (((rnd f64 q : ℚ) : ℝ) - q) + ((q : ℝ) - r) := by ring
  rw [e]
  refine (abs_add_le _ _).trans ?_
  linarith

theorem lit_ap {q : ℚ} {r ε M t : ℝ} (h : |(q : ℝ) - r| ≤ ε) (hM : |r| + ε ≤ M) (h1 : 1 / 10 ^ 60 ≤ M)
    (h2 : M ≤ 10 ^ 60) (ht : ε + M * (12 / 10 ^ 17) ≤ t) : Ap (lit f64 q) r t :=
  (mk_ap h hM h1 h2).mono ht

theorem add_ap {x y : F64} {a b ε δ M t : ℝ} (hx : Ap x a ε) (hy : Ap y b δ) (hM : |a + b| + (ε + δ) ≤ M)
    (h1 : 1 / 10 ^ 60 ≤ M) (h2 : M ≤ 10 ^ 60) (ht : ε + δ + M * (12 / 10 ^ 17) ≤ t) : Ap (add x y) (a + b) t := by
  rw [add_fin hx.1 hy.1]
  refine (mk_ap ?_ hM h1 h2).mono ht
  push_cast
  exact near_add hx.2 hy.2

theorem sub_ap {x y : F64} {a b ε δ M t : ℝ} (hx : Ap x a ε) (hy : Ap y b δ) (hM : |a - b| + (ε + δ) ≤ M)
    (h1 : 1 / 10 ^ 60 ≤ M) (h2 : M ≤ 10 ^ 60) (ht : ε + δ + M * (12 / 10 ^ 17) ≤ t) : Ap (sub x y) (a - b) t := by
  rw [sub_fin hx.1 hy.1]
  refine (mk_ap ?_ hM h1 h2).mono ht
  push_cast
  exact near_sub hx.2 hy.2

theorem mul_ap {x y : F64} {a b ε δ A B e t : ℝ} (hx : Ap x a ε) (hy : Ap y b δ) (ha : |a| ≤ A) (hb : |b| ≤ B)
    (he : A * δ + B * ε + ε * δ ≤ e)
    (h1 : 1 / 10 ^ 60 ≤ A * B + e) (h2 : A * B + e ≤ 10 ^ 60) (ht : e + (A * B + e) * (12 / 10 ^ 17) ≤ t) :
    Ap (mul x y) (a * b) t := by
  rw [mul_fin hx.1 hy.1]
  refine (mk_ap (ε := e) ?_ ?_ h1 h2).mono ht
  · push_cast
    exact mul_bound hx.2 hy.2 ha hb he
  · have := Radolan.Num.abs_mul_le ha hb
    linarith

theorem div_ap {x y : F64} {a b ε δ m q e t : ℝ} (hx : Ap x a ε) (hy : Ap y b δ) (hm : 0 < m) (hb : m + δ ≤ |b|)
    (hq : |a| ≤ q * |b|) (he : (ε + q * δ) / m ≤ e) (h1 : 1 / 10 ^ 60 ≤ q + e) (h2 : q + e ≤ 10 ^ 60)
    (ht : e + (q + e) * (12 / 10 ^ 17) ≤ t) : Ap (div x y) (a / b) t := by
  have hδ : 0 ≤ δ := (abs_nonneg _).trans hy.2
  have hb0 : 0 < |b| := by linarith
  have hy0 : y.val ≠ 0 := by
    intro h0
    have := hy.2
    rw [h0] at this
    simp only [Rat.cast_zero, zero_sub, abs_neg] at this
    linarith
  rw [div_fin hx.1 hy.1 hy0]
  refine (mk_ap (ε := e) ?_ ?_ h1 h2).mono ht
  · push_cast
    exact (near_div hx.2 hy.2 hm hb hq).trans he
  · have : |a / b| ≤ q := by rw [abs_div, div_le_iff₀ hb0]; exact hq
    linarith

theorem neg_ap {x : F64} {a ε : ℝ} (hx : Ap x a ε) : Ap (neg x) (-a) ε := by
  refine ⟨by rw [neg_isFin]; exact hx.1, ?_⟩
  rw [neg_val]
  push_cast
  rw [show -(x.val : ℝ) - -a = -((x.val : ℝ) - a) by ring, abs_neg]
  exact hx.2

/-! ### elementary functions -/

theorem tan_lip {x y : ℝ} (hx : |x| ≤ 6 / 5) (hy : |y| ≤ 6 / 5) : |tan x - tan y| ≤ 13 * |x - y| := by
  have hcos : ∀ z : ℝ, |z| ≤ 6 / 5 → 28 / 100 ≤ cos z := by
    intro z hz
    have h1 := Real.one_sub_sq_div_two_le_cos (x := z)
    have h2 : z ^ 2 ≤ (6 / 5) ^ 2 := by rw [← sq_abs]; exact pow_le_pow_left₀ (abs_nonneg _) hz 2
    norm_num at h2; linarith
  have := Convex.norm_image_sub_le_of_norm_hasDerivWithin_le (f := tan) (f' := fun z => 1 / cos z ^ 2) (C := 13)
    (s := Set.Icc (-(6 / 5)) (6 / 5)) (x := y) (y := x) ?_ ?_ (convex_Icc _ _) (abs_le.mp hy) (abs_le.mp hx)
  · simpa [Real.norm_eq_abs] using this
  · intro z hz
    have := hcos z (abs_le.mpr hz)
    exact (hasDerivAt_tan (by linarith)).hasDerivWithinAt
  · intro z hz
    have h := hcos z (abs_le.mpr hz)
    rw [Real.norm_eq_abs, abs_of_pos (by positivity), div_le_iff₀ (by positivity)]
    nlinarith

theorem rpow_lip {x a y b : ℝ} (hx : 1 / 2 ≤ x ∧ x ≤ 2) (ha : 1 / 2 ≤ a ∧ a ≤ 2) (hy : 0 ≤ y ∧ y ≤ 1)
    (hb : 0 ≤ b ∧ b ≤ 1) : |x ^ y - a ^ b| ≤ 2 * |x - a| + 2 * |y - b| := by
  have k1 : |x ^ y - a ^ y| ≤ 2 * |x - a| := by
    have := Convex.norm_image_sub_le_of_norm_hasDerivWithin_le (f := fun t : ℝ => t ^ y) (f' := fun t => y * t ^ (y - 1))
      (C := 2) (s := Set.Icc (1 / 2) 2) (x := a) (y := x) ?_ ?_ (convex_Icc _ _) ha hx
    · simpa [Real.norm_eq_abs] using this
    · intro z hz
      have hz0 : z ≠ 0 := by linarith [hz.1]
      exact (Real.hasDerivAt_rpow_const (Or.inl hz0)).hasDerivWithinAt
    · intro z hz
      have hz0 : 0 < z := by linarith [hz.1]
      rw [Real.norm_eq_abs, abs_of_nonneg (mul_nonneg hy.1 (rpow_pos_of_pos hz0 _).le)]
      have h1 : z ^ (y - 1) ≤ 2 := by
        rcases le_total z 1 with h | h
        · calc z ^ (y - 1) ≤ z ^ (-1 : ℝ) := rpow_le_rpow_of_exponent_ge hz0 h (by linarith [hy.1])
            _ = z⁻¹ := by rw [rpow_neg_one]
            _ ≤ 2 := by rw [inv_le_comm₀ hz0 (by norm_num)]; linarith [hz.1]
        · calc z ^ (y - 1) ≤ z ^ (0 : ℝ) := rpow_le_rpow_of_exponent_le h (by linarith [hy.2])
            _ = 1 := rpow_zero _
            _ ≤ 2 := by norm_num
      have h0 : 0 ≤ z ^ (y - 1) := (rpow_pos_of_pos hz0 _).le
      nlinarith [hy.1, hy.2]
  have a0 : 0 < a := by linarith [ha.1]
  have k2 : |a ^ y - a ^ b| ≤ 2 * |y - b| := by
    have := Convex.norm_image_sub_le_of_norm_hasDerivWithin_le (f := fun t : ℝ => a ^ t) (f' := fun t => a ^ t * log a)
      (C := 2) (s := Set.Icc 0 1) (x := b) (y := y) ?_ ?_ (convex_Icc _ _) hb hy
    · simpa [Real.norm_eq_abs] using this
    · intro z hz
      exact (Real.hasStrictDerivAt_const_rpow a0 z).hasDerivAt.hasDerivWithinAt
    · intro z hz
      rw [Real.norm_eq_abs, abs_mul, abs_of_pos (rpow_pos_of_pos a0 _)]
      have h1 : a ^ z ≤ 2 := by
        rcases le_total a 1 with h | h
        · calc a ^ z ≤ a ^ (0 : ℝ) := rpow_le_rpow_of_exponent_ge a0 h hz.1
            _ = 1 := rpow_zero _
            _ ≤ 2 := by norm_num
        · calc a ^ z ≤ a ^ (1 : ℝ) := rpow_le_rpow_of_exponent_le h hz.2
            _ = a := rpow_one _
            _ ≤ 2 := ha.2
      have h2 : |log a| ≤ 1 := by
        rw [abs_le]
        constructor
        · have := Real.one_sub_inv_le_log_of_pos a0
          have h3 : a⁻¹ ≤ 2 := by rw [inv_le_comm₀ a0 (by norm_num)]; linarith [ha.1]
          linarith
        · have := Real.log_le_sub_one_of_pos a0
          linarith [ha.2]
      have h0 : 0 ≤ a ^ z := (rpow_pos_of_pos a0 _).le
      nlinarith [abs_nonneg (log a)]
  exact (abs_sub_le _ (a ^ y) _).trans (add_le_add k1 k2)

section
variable {M : Radolan.MathLib} (hM : Spec.AccurateMath M)
include hM

theorem sin_ap {x : F64} {a ε t : ℝ} (hx : Ap x a ε) (ha : |a| + ε ≤ 8) (ht : ε + 1 / 10 ^ 15 ≤ t) :
    Ap (M.sin x) (Real.sin a) t := by
  have hv : |(x.val : ℝ)| ≤ 8 := by
    have := abs_add_le a ((x.val : ℝ) - a)
    rw [add_sub_cancel] at this
    linarith [hx.2]
  obtain ⟨h1, h2⟩ := hM.sin x hx.1 hv
  refine ⟨h1, (abs_sub_le _ (Real.sin x.val) _).trans ?_⟩
  have := abs_sin_sub_sin_le (x.val : ℝ) a
  linarith [hx.2]

theorem cos_ap {x : F64} {a ε t : ℝ} (hx : Ap x a ε) (ha : |a| + ε ≤ 8) (ht : ε + 1 / 10 ^ 15 ≤ t) :
    Ap (M.cos x) (Real.cos a) t := by
  have hv : |(x.val : ℝ)| ≤ 8 := by
    have := abs_add_le a ((x.val : ℝ) - a)
    rw [add_sub_cancel] at this
    linarith [hx.2]
  obtain ⟨h1, h2⟩ := hM.cos x hx.1 hv
  refine ⟨h1, (abs_sub_le _ (Real.cos x.val) _).trans ?_⟩
  have := abs_cos_sub_cos_le (x.val : ℝ) a
  linarith [hx.2]

theorem tan_ap {x : F64} {a ε t : ℝ} (hx : Ap x a ε) (ha : |a| + ε ≤ 6 / 5) (ht : 13 * ε + 1 / 10 ^ 14 ≤ t) :
    Ap (M.tan x) (Real.tan a) t := by
  have hv : |(x.val : ℝ)| ≤ 6 / 5 := by
    have := abs_add_le a ((x.val : ℝ) - a)
    rw [add_sub_cancel] at this
    linarith [hx.2]
  obtain ⟨h1, h2⟩ := hM.tan x hx.1 hv
  refine ⟨h1, (abs_sub_le _ (Real.tan x.val) _).trans ?_⟩
  have hε : 0 ≤ ε := (abs_nonneg _).trans hx.2
  have := tan_lip hv (by linarith : |a| ≤ 6 / 5)
  linarith [hx.2]

theorem pow_ap {x y : F64} {a b ε δ t : ℝ} (hx : Ap x a ε) (hy : Ap y b δ) (ha : 1 / 2 + ε ≤ a ∧ a + ε ≤ 2)
    (hb : δ ≤ b ∧ b + δ ≤ 1 / 10) (ht : 2 * ε + 2 * δ + 5 / 10 ^ 15 ≤ t) :
    Ap (M.pow x y) (a ^ b) t := by
  have hx' := abs_le.mp hx.2
  have hy' := abs_le.mp hy.2
  have hε : 0 ≤ ε := (abs_nonneg _).trans hx.2
  have hδ : 0 ≤ δ := (abs_nonneg _).trans hy.2
  have vx : 1 / 2 ≤ (x.val : ℝ) ∧ (x.val : ℝ) ≤ 2 := ⟨by linarith [hx'.1, ha.1], by linarith [hx'.2, ha.2]⟩
  have vy : 0 ≤ (y.val : ℝ) ∧ (y.val : ℝ) ≤ 1 / 10 := ⟨by linarith [hy'.1, hb.1], by linarith [hy'.2, hb.2]⟩
  obtain ⟨h1, h2⟩ := hM.pow x y hx.1 hy.1 vx vy
  refine ⟨h1, (abs_sub_le _ ((x.val : ℝ) ^ (y.val : ℝ)) _).trans ?_⟩
  have := rpow_lip vx ⟨by linarith [ha.1], by linarith [ha.2]⟩ ⟨vy.1, vy.2.trans (by norm_num)⟩ ⟨by linarith [hb.1], by linarith [hb.2]⟩ (a := a) (b := b)
  linarith [hx.2, hy.2]

end

end Fl
end Go
