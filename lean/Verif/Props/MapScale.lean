/-
C100: the scale of the map at every latitude and distances on it, on the sphere and on the ellipsoid.
-/
import Verif.Spec.Surface
import Verif.Props.MapSpec
import Verif.Props.Distances
import Mathlib.Analysis.Calculus.Deriv.MeanValue

namespace Props
open Go Radolan Spec Spec.Fusion Real

namespace Scale
open Spec.Surface

/-! ### the surface -/

/-- the surface a format version refers to -/
abbrev ell (format : Int) : Bool := decide (5 ≤ format)

theorem ecc_format (format : Int) : Surface.ecc (ell format) = eccentricity format := by
  unfold Surface.ecc eccentricity ell Map.ecc
  by_cases h : 5 ≤ format <;> simp [h]

theorem ecc_range (b : Bool) : 0 ≤ Surface.ecc b ∧ Surface.ecc b ≤ 82 / 1000 := by
  unfold Surface.ecc Map.ecc; cases b <;> norm_num

theorem axis_pos (b : Bool) : 0 < axis b := by unfold axis; cases b <;> norm_num

/-- `1 - ε² sin²` -/
noncomputable def W2 (b : Bool) (n : ℝ) : ℝ := 1 - Surface.ecc b ^ 2 * sin (rads n) ^ 2

theorem W2_range (b : Bool) (n : ℝ) : 99 / 100 ≤ W2 b n ∧ W2 b n ≤ 1 := by
  have hs : sin (rads n) ^ 2 ≤ 1 := sin_sq_le_one _
  have hs0 := sq_nonneg (sin (rads n))
  obtain ⟨e0, e1⟩ := ecc_range b
  have e2 : Surface.ecc b ^ 2 ≤ 1 / 100 := by nlinarith
  have e3 := sq_nonneg (Surface.ecc b)
  unfold W2
  constructor <;> nlinarith

theorem W2_pos (b : Bool) (n : ℝ) : 0 < W2 b n := by linarith [(W2_range b n).1]

/-- distance from the axis and height above the equator -/
noncomputable def P (b : Bool) (n : ℝ) : ℝ := primeVertical b n * cos (rads n)
noncomputable def Z (b : Bool) (n : ℝ) : ℝ := (1 - Surface.ecc b ^ 2) * primeVertical b n * sin (rads n)

theorem P_eq (b : Bool) (n : ℝ) : P b n = axis b / √(W2 b n) * cos (rads n) := rfl
theorem Z_eq (b : Bool) (n : ℝ) : Z b n = (1 - Surface.ecc b ^ 2) * (axis b / √(W2 b n)) * sin (rads n) := rfl
theorem M_eq (b : Bool) (n : ℝ) : meridian b n = axis b * (1 - Surface.ecc b ^ 2) / √(W2 b n) ^ 3 := rfl

theorem P_pos (b : Bool) {n : ℝ} (h1 : -90 < n) (h2 : n < 90) : 0 < P b n := by
  rw [P_eq]
  have := axis_pos b
  have := sqrt_pos.mpr (W2_pos b n)
  have := cos_pos_of_mem_Ioo (rads_mem h1 h2)
  positivity

theorem M_pos (b : Bool) (n : ℝ) : 0 < meridian b n := by
  rw [M_eq]
  have := axis_pos b
  have := sqrt_pos.mpr (W2_pos b n)
  obtain ⟨e0, e1⟩ := ecc_range b
  have : 0 < 1 - Surface.ecc b ^ 2 := by nlinarith
  positivity

theorem W_hasDerivAt (b : Bool) (n : ℝ) :
    HasDerivAt (fun t => √(W2 b t)) (-(Surface.ecc b ^ 2) * sin (rads n) * cos (rads n) * (π / 180) / √(W2 b n)) n := by
  have d1 : HasDerivAt (fun t => sin (rads t)) (cos (rads n) * (π / 180)) n :=
    (hasDerivAt_sin _).comp n (rads_hasDerivAt' n)
  have d2 : HasDerivAt (W2 b) (-(Surface.ecc b ^ 2 * (2 * sin (rads n) * (cos (rads n) * (π / 180))))) n := by
    have := ((d1.pow 2).const_mul (Surface.ecc b ^ 2)).const_sub 1
    refine (this.congr_deriv ?_)
    simp
  have d3 := d2.sqrt (W2_pos b n).ne'
  refine d3.congr_deriv ?_
  have := (sqrt_pos.mpr (W2_pos b n)).ne'
  field_simp

/-- the meridian runs with the latitude: southwards from the axis by the sine, upwards by the cosine -/
theorem P_hasDerivAt (b : Bool) (n : ℝ) :
    HasDerivAt (P b) (-(meridian b n * sin (rads n) * (π / 180))) n := by
  have hw := (sqrt_pos.mpr (W2_pos b n)).ne'
  have d1 : HasDerivAt (fun t => cos (rads t)) (-sin (rads n) * (π / 180)) n :=
    (hasDerivAt_cos _).comp n (rads_hasDerivAt' n)
  have d2 := ((hasDerivAt_const n (axis b)).div (W_hasDerivAt b n) hw).mul d1
  refine d2.congr_deriv ?_
  rw [M_eq]
  simp only [Pi.div_apply]
  have hsq : √(W2 b n) ^ 2 = W2 b n := sq_sqrt (W2_pos b n).le
  have hs := sin_sq_add_cos_sq (rads n)
  set w := √(W2 b n)
  have hW : w ^ 2 = 1 - Surface.ecc b ^ 2 * sin (rads n) ^ 2 := hsq
  field_simp
  rw [hW]
  linear_combination (axis b * Surface.ecc b ^ 2 * sin (rads n) * π) * hs

theorem Z_hasDerivAt (b : Bool) (n : ℝ) :
    HasDerivAt (Z b) (meridian b n * cos (rads n) * (π / 180)) n := by
  have hw := (sqrt_pos.mpr (W2_pos b n)).ne'
  have d1 : HasDerivAt (fun t => sin (rads t)) (cos (rads n) * (π / 180)) n :=
    (hasDerivAt_sin _).comp n (rads_hasDerivAt' n)
  have d2 := (((hasDerivAt_const n (axis b)).div (W_hasDerivAt b n) hw).const_mul (1 - Surface.ecc b ^ 2)).mul d1
  refine d2.congr_deriv ?_
  rw [M_eq]
  simp only [Pi.div_apply]
  have hsq : √(W2 b n) ^ 2 = W2 b n := sq_sqrt (W2_pos b n).le
  set w := √(W2 b n)
  have hW : w ^ 2 = 1 - Surface.ecc b ^ 2 * sin (rads n) ^ 2 := hsq
  field_simp
  rw [hW]
  ring

/-! ### the scale -/

/-- scale of the map: kilometres on the map by kilometres on the surface -/
noncomputable def k (format : Int) (n : ℝ) : ℝ := radius format n / P (ell format) n

theorem k_pos (format : Int) {n : ℝ} (h1 : -90 < n) (h2 : n < 90) : 0 < k format n :=
  div_pos (radius_pos format h1 h2) (P_pos _ h1 h2)

theorem radius_k (format : Int) {n : ℝ} (h1 : -90 < n) (h2 : n < 90) : radius format n = k format n * P (ell format) n := by
  unfold k; rw [div_mul_cancel₀ _ (P_pos _ h1 h2).ne']

theorem radius_deriv (format : Int) {n : ℝ} (h1 : -90 < n) (h2 : n < 90) :
    HasDerivAt (radius format) (-(k format n * meridian (ell format) n * (π / 180))) n := by
  refine (radius_hasDerivAt format h1 h2).congr_deriv ?_
  unfold k
  rw [M_eq, P_eq, ← ecc_format]
  have hw := (sqrt_pos.mpr (W2_pos (ell format) n)).ne'
  have hc := (cos_pos_of_mem_Ioo (rads_mem h1 h2)).ne'
  have ha := (axis_pos (ell format)).ne'
  have hsq : √(W2 (ell format) n) ^ 2 = W2 (ell format) n := sq_sqrt (W2_pos _ n).le
  have hW0 : (1 - Surface.ecc (ell format) ^ 2 * sin (rads n) ^ 2) ≠ 0 := (W2_pos (ell format) n).ne'
  set w := √(W2 (ell format) n)
  have hW : w ^ 2 = 1 - Surface.ecc (ell format) ^ 2 * sin (rads n) ^ 2 := hsq
  rw [← hW]
  field_simp

theorem k_hasDerivAt (format : Int) {n : ℝ} (h1 : -90 < n) (h2 : n < 90) :
    HasDerivAt (k format) (-(k format n * meridian (ell format) n * (π / 180) * (1 - sin (rads n)) / P (ell format) n)) n := by
  have hp := (P_pos (ell format) h1 h2).ne'
  refine ((radius_deriv format h1 h2).div (P_hasDerivAt _ n) hp).congr_deriv ?_
  rw [radius_k format h1 h2]
  field_simp
  ring

theorem k_anti (format : Int) : StrictAntiOn (k format) (Set.Ioo (-90) 90) := by
  apply strictAntiOn_of_deriv_neg (convex_Ioo _ _)
  · exact fun n hn => (k_hasDerivAt format hn.1 hn.2).continuousAt.continuousWithinAt
  · intro n hn
    rw [interior_Ioo] at hn
    rw [(k_hasDerivAt format hn.1 hn.2).deriv]
    have := k_pos format hn.1 hn.2
    have := M_pos (ell format) n
    have := P_pos (ell format) hn.1 hn.2
    have : 0 < 1 - sin (rads n) := by linarith [(sin_bounds (rads_mem hn.1 hn.2)).2]
    have := pi_pos
    rw [neg_lt_zero]
    positivity

theorem k_sphere {format : Int} (h : ¬ 5 ≤ format) {n : ℝ} (h1 : -90 < n) (h2 : n < 90) :
    k format n = (1 + sin (rads 60)) / (1 + sin (rads n)) := by
  unfold k radius polar
  rw [P_eq, if_neg h]
  have e : ell format = false := by unfold ell; simp [h]
  have hc := (cos_pos_of_mem_Ioo (rads_mem h1 h2)).ne'
  have hb := sin_bounds (rads_mem h1 h2)
  have hb' : 1 + sin (rads n) ≠ 0 := by linarith
  have hw : W2 false n = 1 := by unfold W2 Surface.ecc; simp
  rw [e, hw, sqrt_one]
  unfold axis
  simp only [Bool.false_eq_true, if_false]
  norm_num
  field_simp

theorem k60 {format dx dy : Int} {b : Int × Int} (h : HasGrid format dx dy b) : |k format 60 - 1| ≤ 1 / 10 ^ 9 := by
  by_cases hf : 5 ≤ format
  · have hm := mapFactor_close h
    have e : k format 60 = 1 / mapFactor format := by
      unfold k mapFactor
      rw [P_eq, if_pos hf]
      have e : ell format = true := by unfold ell; simp [hf]
      have hw : W2 true 60 = 1 - ecc84 ^ 2 * sin (rads 60) ^ 2 := by
        unfold W2 Surface.ecc; rw [if_pos rfl, ecc_eq]
      rw [e, hw]
      unfold axis
      rw [if_pos rfl, one_div_div, mul_comm_div]
    rwa [e]
  · rw [k_sphere hf (by norm_num) (by norm_num), div_self]
    · norm_num
    · linarith [(sin_bounds (rads_mem (by norm_num : (-90 : ℝ) < 60) (by norm_num))).1]

theorem sin40' : (6427 : ℝ) / 10000 ≤ sin (rads 40) := by
  have h := sin40
  have h3 := sin_three_mul (rads 40)
  rw [show 3 * rads 40 = π - π / 3 by unfold rads; ring, sin_pi_sub, sin_pi_div_three] at h3
  have k2 : √3 < (173206 : ℝ) / 10 ^ 5 := by
    rw [Real.sqrt_lt' (by norm_num)]; norm_num
  norm_num at k2
  by_contra hn
  push Not at hn
  set s := sin (rads 40)
  have : s ^ 3 ≤ s ^ 2 * (6427 / 10000) := by nlinarith [sq_nonneg s]
  nlinarith

theorem sin60 : sin (rads 60) ≤ 866025404 / 10 ^ 9 := by
  have s60 : sin (rads 60) = √3 / 2 := by
    rw [show rads 60 = π / 3 by unfold rads; ring, sin_pi_div_three]
  have k2 : √3 < (17320508076 : ℝ) / 10 ^ 10 := by
    rw [Real.sqrt_lt' (by norm_num)]; norm_num
  rw [s60]
  norm_num at k2 ⊢
  linarith

theorem sin_range {n : ℝ} (h1 : 40 ≤ n) (h2 : n ≤ 60) : sin (rads 40) ≤ sin (rads n) ∧ sin (rads n) ≤ sin (rads 60) := by
  have hpi := pi_pos
  constructor <;> (apply sin_le_sin_of_le_of_le_pi_div_two <;> unfold rads <;> nlinarith)

theorem ellFactor_ge994 {n : ℝ} (h1 : 40 ≤ n) (h2 : n ≤ 60) : 994 / 1000 ≤ ellFactor ecc84 (rads n) := by
  obtain ⟨m1, m2⟩ := sin_range h1 h2
  have hs : 638 / 1000 ≤ sin (rads n) := sin40.trans m1
  have hs1 : sin (rads n) ≤ 8661 / 10000 := by have := sin60; norm_num at this; linarith
  have e0 : (0 : ℝ) < ecc84 := by unfold ecc84; norm_num
  have e1 : ecc84 ≤ 8182 / 100000 := by unfold ecc84; norm_num
  set s := sin (rads n)
  have y0 : 0 < ecc84 * s := by nlinarith
  have y1 : ecc84 * s ≤ 709 / 10000 := by nlinarith
  have d1 : 0 < 1 + ecc84 * s := by linarith
  have d2 : 0 < 1 - ecc84 * s := by linarith
  have d3 : (1 - ecc84 * s) / (1 + ecc84 * s) ≤ 1 := by
    rw [div_le_one d1]; linarith
  have d4 : ((994 : ℝ) / 1000) ^ (24 : ℕ) ≤ (1 - ecc84 * s) / (1 + ecc84 * s) := by
    rw [le_div_iff₀ d1]
    have : ((994 : ℝ) / 1000) ^ (24 : ℕ) ≤ 867 / 1000 := by norm_num
    nlinarith
  have a1 := rpow_le_rpow_of_exponent_ge (div_pos d2 d1) d3 (show 1 / 2 * ecc84 ≤ 1 / 24 by linarith)
  refine le_trans ?_ a1
  have a2 := rpow_le_rpow (by positivity) d4 (show (0 : ℝ) ≤ 1 / 24 by norm_num)
  refine le_trans (le_of_eq ?_) a2
  rw [← rpow_natCast, ← rpow_mul (by norm_num)]
  norm_num

/-- between 40 N and 60 N the scale is hardly more than on the sphere -/
theorem k_sin (format : Int) {n : ℝ} (h1 : 40 ≤ n) (h2 : n ≤ 60) : k format n * (1 + sin (rads n)) ≤ 1869 / 1000 := by
  obtain ⟨m1, m2⟩ := sin_range h1 h2
  have hs : 638 / 1000 ≤ sin (rads n) := sin40.trans m1
  have hs1 : 1 + sin (rads n) ≠ 0 := by linarith
  have g1 : -90 < n := by linarith
  have g2 : n < 90 := by linarith
  by_cases hf : 5 ≤ format
  · have hff := ellFactor_ge994 h1 h2
    have e : ell format = true := by unfold ell; simp [hf]
    have hc := (cos_pos_of_mem_Ioo (rads_mem g1 g2)).ne'
    have hw2 : W2 true n ≤ (99865 / 100000) ^ 2 := by
      unfold W2 Surface.ecc Map.ecc
      rw [if_pos rfl]
      have : (638 / 1000) ^ 2 ≤ sin (rads n) ^ 2 := by
        apply pow_le_pow_left₀ (by norm_num) hs
      norm_num at this ⊢
      linarith
    have hw : √(W2 true n) ≤ 99865 / 100000 := by
      rw [sqrt_le_iff]; exact ⟨by norm_num, hw2⟩
    have hw0 := sqrt_pos.mpr (W2_pos true n)
    have key : k format n * (1 + sin (rads n)) =
        11862667042661695 / 10 ^ 9 / 1000 * √(W2 true n) / (ellFactor ecc84 (rads n) * 6378.137) := by
      unfold k radius ellPolar polar
      rw [P_eq, if_pos hf, e]
      unfold axis
      rw [if_pos rfl]
      have f0 : ellFactor ecc84 (rads n) ≠ 0 := by linarith
      field_simp
    rw [key, div_le_iff₀ (by nlinarith)]
    norm_num
    nlinarith
  · rw [k_sphere hf g1 g2, div_mul_cancel₀ _ hs1]
    have := sin60
    norm_num at this ⊢
    linarith

/-- turning by up to 20 degrees does not outweigh the change of the scale -/
theorem turned {n t : ℝ} (h1 : 40 ≤ n) (h2 : n ≤ t) (h3 : t ≤ 60) :
    1869 / 1000 ≤ 114 / 100 * (1 + sin (rads t)) * cos (rads t - rads n) := by
  have hpi := pi_pos
  have hpi4 := pi_lt_d4
  have c1 : cos (rads t - rads 40) ≤ cos (rads t - rads n) := by
    apply cos_le_cos_of_nonneg_of_le_pi
    · unfold rads; nlinarith
    · unfold rads; nlinarith
    · unfold rads; nlinarith
  set x := rads t - rads 40 with hx
  have x0 : 0 ≤ x := by rw [hx]; unfold rads; nlinarith
  have x1 : x ≤ 35 / 100 := by
    have : x ≤ π / 9 := by rw [hx]; unfold rads; nlinarith
    norm_num at hpi4
    linarith
  have u0 : 0 ≤ sin x := sin_nonneg_of_nonneg_of_le_pi x0 (by norm_num at hpi4; linarith [pi_gt_three])
  have u1 : sin x ≤ 35 / 100 := (sin_le x0).trans x1
  have hs := sin_sq_add_cos_sq x
  have v0 : 0 ≤ cos x := (cos_pos_of_mem_Ioo ⟨by linarith [pi_gt_three], by linarith [pi_gt_three]⟩).le
  have v1 := cos_le_one x
  have v2 : 1 - sin x ^ 2 ≤ cos x := by nlinarith
  have st : sin (rads t) = sin (rads 40) * cos x + cos (rads 40) * sin x := by
    rw [show rads t = rads 40 + x by rw [hx]; ring, sin_add]
  have s40 := sin40'
  have c40 : 7071 / 10000 ≤ cos (rads 40) := by
    have : cos (π / 4) ≤ cos (rads 40) := by
      apply cos_le_cos_of_nonneg_of_le_pi
      · unfold rads; positivity
      · linarith
      · unfold rads; linarith
    rw [cos_pi_div_four] at this
    have h2 : (14142 : ℝ) / 10000 < √2 := by apply lt_sqrt_of_sq_lt; norm_num
    linarith
  have ht : 0 ≤ 1 + sin (rads t) := by linarith [neg_one_le_sin (rads t)]
  set u := sin x
  set v := cos x
  have a1 : (1 + sin (rads t)) * v ≥ (1 - u ^ 2) * (16427 / 10000 + 7071 / 10000 * u) := by
    rw [st]
    have w1 : 0 ≤ 1 - u ^ 2 := by nlinarith
    have w2 : v ^ 2 = 1 - u ^ 2 := by linarith
    have w3 : 6427 / 10000 * (1 - u ^ 2) ≤ sin (rads 40) * v ^ 2 := by rw [w2]; exact mul_le_mul_of_nonneg_right s40 w1
    have w4 : 7071 / 10000 * (u * (1 - u ^ 2)) ≤ cos (rads 40) * (u * v) :=
      mul_le_mul c40 (mul_le_mul_of_nonneg_left v2 u0) (mul_nonneg u0 w1) (by linarith)
    nlinarith
  have a2 : (16395 : ℝ) / 10000 ≤ (1 - u ^ 2) * (16427 / 10000 + 7071 / 10000 * u) := by
    have : 0 ≤ u * (7071 / 10000 - 16427 / 10000 * u - 7071 / 10000 * u ^ 2) := by
      apply mul_nonneg u0
      nlinarith
    nlinarith
  have a3 := mul_le_mul_of_nonneg_left c1 ht
  nlinarith

theorem k_turned (format : Int) {n t : ℝ} (h1 : 40 ≤ n) (h2 : n ≤ t) (h3 : t ≤ 60) :
    k format t ≤ 114 / 100 * cos (rads t - rads n) := by
  have a := k_sin format (h1.trans h2) h3
  have b := turned h1 h2 h3
  have hs := sin40.trans (sin_range (h1.trans h2) h3).1
  have : k format t * (1 + sin (rads t)) ≤ 114 / 100 * cos (rads t - rads n) * (1 + sin (rads t)) := by linarith
  exact le_of_mul_le_mul_right this (by linarith)

theorem k_le (format : Int) {n : ℝ} (h1 : 40 ≤ n) (h2 : n ≤ 60) : k format n ≤ 114 / 100 := by
  have := k_turned format h1 le_rfl h2
  simpa using this

theorem k_ge {format dx dy : Int} {b : Int × Int} (h : HasGrid format dx dy b) {n : ℝ} (h1 : -90 < n) (h2 : n ≤ 60) :
    1 - 1 / 10 ^ 9 ≤ k format n := by
  have a := (abs_le.mp (k60 h)).1
  have b := (k_anti format).antitoneOn (show n ∈ Set.Ioo (-90 : ℝ) 90 from ⟨h1, by linarith⟩)
    (show (60 : ℝ) ∈ Set.Ioo (-90 : ℝ) 90 by norm_num) h2
  linarith

/-! ### along a meridian -/

/-- straight-line distance along a meridian -/
noncomputable def D (b : Bool) (n n' : ℝ) : ℝ := √((P b n' - P b n) ^ 2 + (Z b n' - Z b n) ^ 2)

theorem inner_le (u v x y : ℝ) (h : x ^ 2 + y ^ 2 = 1) : u * x + v * y ≤ √(u ^ 2 + v ^ 2) := by
  apply le_sqrt_of_sq_le
  nlinarith [sq_nonneg (u * y - v * x)]

theorem D_lower {format dx dy : Int} {b : Int × Int} (h : HasGrid format dx dy b) {n n' : ℝ} (h1 : -90 < n)
    (h2 : n ≤ n') (h3 : n' ≤ 60) : (1 - 1 / 10 ^ 9) * D (ell format) n n' ≤ radius format n - radius format n' := by
  set B := ell format
  set u := P B n' - P B n with hu
  set v := Z B n' - Z B n with hv
  have hD : D B n n' = √(u ^ 2 + v ^ 2) := rfl
  set d := √(u ^ 2 + v ^ 2) with hd
  have d0 : 0 ≤ d := sqrt_nonneg _
  have dsq : d ^ 2 = u ^ 2 + v ^ 2 := sq_sqrt (by positivity)
  have hder : ∀ t ∈ Set.Icc n n', HasDerivAt (fun t => (1 - 1 / 10 ^ 9) * (u * P B t + v * Z B t) + d * radius format t)
      ((1 - 1 / 10 ^ 9) * (u * -(meridian B t * sin (rads t) * (π / 180)) + v * (meridian B t * cos (rads t) * (π / 180)))
        + d * -(k format t * meridian B t * (π / 180))) t := by
    intro t ht
    exact ((((P_hasDerivAt B t).const_mul u).add ((Z_hasDerivAt B t).const_mul v)).const_mul _).add
      ((radius_deriv format (by linarith [ht.1]) (by linarith [ht.2])).const_mul d)
  have anti : AntitoneOn (fun t => (1 - 1 / 10 ^ 9) * (u * P B t + v * Z B t) + d * radius format t) (Set.Icc n n') := by
    apply antitoneOn_of_deriv_nonpos (convex_Icc _ _)
    · exact fun t ht => (hder t ht).continuousAt.continuousWithinAt
    · exact fun t ht => ((hder t (interior_subset ht)).differentiableAt).differentiableWithinAt
    · intro t ht
      have ht' := interior_subset ht
      rw [(hder t ht').deriv]
      have i := inner_le u v (-sin (rads t)) (cos (rads t)) (by rw [neg_sq]; exact sin_sq_add_cos_sq _)
      rw [← hd] at i
      have kg := k_ge h (show -90 < t by linarith [ht'.1]) (by linarith [ht'.2])
      have m := mul_pos (M_pos B t) (show 0 < π / 180 by have := pi_pos; positivity)
      have q : (1 - 1 / 10 ^ 9) * (u * -sin (rads t) + v * cos (rads t)) ≤ d * k format t := by
        have q1 := mul_le_mul_of_nonneg_left i (show (0 : ℝ) ≤ 1 - 1 / 10 ^ 9 by norm_num)
        have q2 := mul_le_mul_of_nonneg_left kg d0
        linarith
      have q3 := mul_le_mul_of_nonneg_right q m.le
      linarith
  have fin := anti (Set.left_mem_Icc.mpr h2) (Set.right_mem_Icc.mpr h2) h2
  simp only at fin
  rw [hD]
  rcases eq_or_lt_of_le d0 with h0 | h0
  · rw [← h0, mul_zero]
    have := radius_deriv format h1 (show n < 90 by linarith)
    rcases eq_or_lt_of_le h2 with h4 | h4
    · rw [h4, sub_self]
    · have ra : AntitoneOn (radius format) (Set.Icc n n') := by
        apply antitoneOn_of_deriv_nonpos (convex_Icc _ _)
        · exact fun t ht => (radius_deriv format (by linarith [ht.1]) (by linarith [ht.2])).continuousAt.continuousWithinAt
        · exact fun t ht => ((radius_deriv format (by linarith [(interior_subset ht).1])
            (by linarith [(interior_subset ht).2])).differentiableAt).differentiableWithinAt
        · intro t ht
          have g1 : -90 < t := by linarith [(interior_subset ht).1]
          have g2 : t < 90 := by linarith [(interior_subset ht).2]
          rw [(radius_deriv format g1 g2).deriv]
          have := mul_pos (mul_pos (k_pos format g1 g2) (M_pos B t)) (show 0 < π / 180 by have := pi_pos; positivity)
          linarith
      linarith [ra (Set.left_mem_Icc.mpr h2) (Set.right_mem_Icc.mpr h2) h2]
  · have : (1 - 1 / 10 ^ 9) * d * d ≤ (radius format n - radius format n') * d := by
      have e : (1 - 1 / 10 ^ 9) * d * d = (1 - 1 / 10 ^ 9) * (u * u + v * v) := by rw [mul_assoc, ← sq, dsq]; ring
      rw [e]
      rw [hu, hv]
      rw [← hu, ← hv]
      have f : (1 - 1 / 10 ^ 9) * (u * u + v * v) = (1 - 1 / 10 ^ 9) * (u * P B n' + v * Z B n') -
          (1 - 1 / 10 ^ 9) * (u * P B n + v * Z B n) := by rw [hu, hv]; ring
      rw [f]
      linarith
    exact le_of_mul_le_mul_right this h0

theorem D_upper (format : Int) {n n' : ℝ} (h1 : 40 ≤ n) (h2 : n ≤ n') (h3 : n' ≤ 60) :
    radius format n - radius format n' ≤ 114 / 100 * D (ell format) n n' := by
  set B := ell format
  have hder : ∀ t ∈ Set.Icc n n', HasDerivAt (fun t => 114 / 100 * (-sin (rads n) * P B t + cos (rads n) * Z B t) + radius format t)
      (114 / 100 * (-sin (rads n) * -(meridian B t * sin (rads t) * (π / 180)) + cos (rads n) * (meridian B t * cos (rads t) * (π / 180)))
        + -(k format t * meridian B t * (π / 180))) t := by
    intro t ht
    exact ((((P_hasDerivAt B t).const_mul _).add ((Z_hasDerivAt B t).const_mul _)).const_mul _).add
      (radius_deriv format (by linarith [ht.1]) (by linarith [ht.2]))
  have mono : MonotoneOn (fun t => 114 / 100 * (-sin (rads n) * P B t + cos (rads n) * Z B t) + radius format t) (Set.Icc n n') := by
    apply monotoneOn_of_deriv_nonneg (convex_Icc _ _)
    · exact fun t ht => (hder t ht).continuousAt.continuousWithinAt
    · exact fun t ht => ((hder t (interior_subset ht)).differentiableAt).differentiableWithinAt
    · intro t ht
      have ht' := interior_subset ht
      rw [(hder t ht').deriv]
      have kt := k_turned format h1 ht'.1 (ht'.2.trans h3)
      rw [cos_sub] at kt
      have m := mul_pos (M_pos B t) (show 0 < π / 180 by have := pi_pos; positivity)
      have := mul_le_mul_of_nonneg_right kt m.le
      linarith
  have fin := mono (Set.left_mem_Icc.mpr h2) (Set.right_mem_Icc.mpr h2) h2
  simp only at fin
  have i := inner_le (P B n' - P B n) (Z B n' - Z B n) (-sin (rads n)) (cos (rads n)) (by rw [neg_sq]; exact sin_sq_add_cos_sq _)
  unfold D
  linarith

/-! ### any two places -/

theorem straight_sq (b : Bool) (n e n' e' : ℝ) :
    straight b n e n' e' = √(D b n n' ^ 2 + 2 * (P b n * P b n') * (1 - cos (rads e' - rads e))) := by
  have e1 : D b n n' ^ 2 = (P b n' - P b n) ^ 2 + (Z b n' - Z b n) ^ 2 := sq_sqrt (by positivity)
  have t1 := sin_sq_add_cos_sq (rads e)
  have t2 := sin_sq_add_cos_sq (rads e')
  unfold straight place
  simp only [deg_eq]
  rw [e1, cos_sub]
  congr 1
  unfold P Z
  set N := primeVertical b n
  set N' := primeVertical b n'
  linear_combination (N * cos (rads n)) ^ 2 * t1 + (N' * cos (rads n')) ^ 2 * t2

theorem km_sq {format dx dy : Int} {b : Int × Int} (h : HasGrid format dx dy b) {n e n' e' : ℝ} (hn : -90 < n ∧ n < 90)
    (hn' : -90 < n' ∧ n' < 90) :
    (kmBetween format dx dy n e n' e').1 ^ 2 + (kmBetween format dx dy n e n' e').2 ^ 2 =
      (radius format n - radius format n') ^ 2 + 2 * (radius format n * radius format n') * (1 - cos (rads e' - rads e)) := by
  rw [kmBetween_eq h, planeXY_real format hn.1 hn.2, planeXY_real format hn'.1 hn'.2]
  have t1 := sin_sq_add_cos_sq (rads (e - 10))
  have t2 := sin_sq_add_cos_sq (rads (e' - 10))
  rw [show rads e' - rads e = rads (e' - 10) - rads (e - 10) by unfold rads; ring, cos_sub]
  simp only
  linear_combination (radius format n) ^ 2 * t1 + (radius format n') ^ 2 * t2

theorem D_symm (b : Bool) (n n' : ℝ) : D b n' n = D b n n' := by
  unfold D; congr 1; ring

theorem D_bounds {format dx dy : Int} {b : Int × Int} (h : HasGrid format dx dy b) {n n' : ℝ} (h1 : n ∈ Set.Icc (40 : ℝ) 60)
    (h2 : n' ∈ Set.Icc (40 : ℝ) 60) :
    (1 - 1 / 10 ^ 9) * D (ell format) n n' ≤ |radius format n - radius format n'| ∧
    |radius format n - radius format n'| ≤ 114 / 100 * D (ell format) n n' := by
  have key : ∀ {n n' : ℝ}, n ∈ Set.Icc (40 : ℝ) 60 → n' ∈ Set.Icc (40 : ℝ) 60 → n ≤ n' →
      (1 - 1 / 10 ^ 9) * D (ell format) n n' ≤ |radius format n - radius format n'| ∧
      |radius format n - radius format n'| ≤ 114 / 100 * D (ell format) n n' := by
    intro n n' h1 h2 hle
    have a := D_lower h (by linarith [h1.1]) hle h2.2
    have c := D_upper format h1.1 hle h2.2
    have d0 : 0 ≤ D (ell format) n n' := sqrt_nonneg _
    have : 0 ≤ radius format n - radius format n' := le_trans (mul_nonneg (by norm_num) d0) a
    rw [abs_of_nonneg this]
    exact ⟨a, c⟩
  rcases le_total n n' with hle | hle
  · exact key h1 h2 hle
  · have := key h2 h1 hle
    rw [D_symm, abs_sub_comm] at this
    exact this

/-- the exact map: between 40 N and 60 N distances are true to 2 centimetres or up to 14 percent too long -/
theorem stretch {format dx dy : Int} {b : Int × Int} (h : HasGrid format dx dy b) {n n' : ℝ} (e e' : ℝ)
    (h1 : n ∈ Set.Icc (40 : ℝ) 60) (h2 : n' ∈ Set.Icc (40 : ℝ) 60) :
    let d := √((kmBetween format dx dy n e n' e').1 ^ 2 + (kmBetween format dx dy n e n' e').2 ^ 2)
    straight (ell format) n e n' e' - 2 / 10 ^ 5 ≤ d ∧ d ≤ 114 / 100 * straight (ell format) n e n' e' := by
  intro d
  have g1 : -90 < n ∧ n < 90 := ⟨by linarith [h1.1], by linarith [h1.2]⟩
  have g2 : -90 < n' ∧ n' < 90 := ⟨by linarith [h2.1], by linarith [h2.2]⟩
  obtain ⟨d1, d2⟩ := D_bounds h h1 h2
  have d0 : 0 ≤ D (ell format) n n' := sqrt_nonneg _
  have hd : d = √((radius format n - radius format n') ^ 2 +
      2 * (radius format n * radius format n') * (1 - cos (rads e' - rads e))) := by
    show √_ = _
    rw [km_sq h g1 g2]
  have c0 : 0 ≤ 1 - cos (rads e' - rads e) := by linarith [cos_le_one (rads e' - rads e)]
  have c2 : 1 - cos (rads e' - rads e) ≤ 2 := by linarith [neg_one_le_cos (rads e' - rads e)]
  have p1 := P_pos (ell format) g1.1 g1.2
  have p2 := P_pos (ell format) g2.1 g2.2
  have r1 := radius_pos format g1.1 g1.2
  have r2 := radius_pos format g2.1 g2.2
  have k1 := k_ge h g1.1 h1.2
  have k2 := k_ge h g2.1 h2.2
  have k3 := k_le format h1.1 h1.2
  have k4 := k_le format h2.1 h2.2
  have e1 := radius_k format g1.1 g1.2
  have e2 := radius_k format g2.1 g2.2
  have q1 : (1 - 1 / 10 ^ 9) * P (ell format) n ≤ radius format n := by rw [e1]; exact mul_le_mul_of_nonneg_right k1 p1.le
  have q2 : (1 - 1 / 10 ^ 9) * P (ell format) n' ≤ radius format n' := by rw [e2]; exact mul_le_mul_of_nonneg_right k2 p2.le
  have q3 : radius format n ≤ 114 / 100 * P (ell format) n := by rw [e1]; exact mul_le_mul_of_nonneg_right k3 p1.le
  have q4 : radius format n' ≤ 114 / 100 * P (ell format) n' := by rw [e2]; exact mul_le_mul_of_nonneg_right k4 p2.le
  have rb : ∀ m ∈ Set.Icc (40 : ℝ) 60, radius format m ≤ 5714 := fun m hm => by
    linarith [radius_cos format hm.1 hm.2, (cos40 hm.1 hm.2).2]
  have b1 := rb n h1
  have b2 := rb n' h2
  have hl := radius_lipschitz40 format h1 h2
  have hl2 : |radius format n - radius format n'| ≤ 2600 := by
    have : |n - n'| ≤ 20 := by rw [abs_le]; constructor <;> linarith [h1.1, h1.2, h2.1, h2.2]
    linarith
  have rr0 : 0 < radius format n * radius format n' := mul_pos r1 r2
  have rr : radius format n * radius format n' ≤ 5714 * 5714 := mul_le_mul b1 b2 r2.le (by norm_num)
  have sq0 := sq_abs (radius format n - radius format n')
  rw [straight_sq, hd]
  set κ : ℝ := 1 - 1 / 10 ^ 9 with hκ
  have κ0 : 0 < κ := by rw [hκ]; norm_num
  set c := 1 - cos (rads e' - rads e)
  set R := |radius format n - radius format n'|
  set S := √(D (ell format) n n' ^ 2 + 2 * (P (ell format) n * P (ell format) n') * c) with hS
  have R0 : 0 ≤ R := abs_nonneg _
  have S0 : 0 ≤ S := sqrt_nonneg _
  have pp : 0 < P (ell format) n * P (ell format) n' := mul_pos p1 p2
  have Ssq : S ^ 2 = D (ell format) n n' ^ 2 + 2 * (P (ell format) n * P (ell format) n') * c := by
    rw [hS]; exact sq_sqrt (by positivity)
  rw [← sq0]
  have low : κ * S ≤ √(R ^ 2 + 2 * (radius format n * radius format n') * c) := by
    apply le_sqrt_of_sq_le
    have a1 : (κ * D (ell format) n n') ^ 2 ≤ R ^ 2 := pow_le_pow_left₀ (by positivity) d1 2
    have a2 : (κ * P (ell format) n) * (κ * P (ell format) n') ≤ radius format n * radius format n' :=
      mul_le_mul q1 q2 (by positivity) r1.le
    have a3 := mul_le_mul_of_nonneg_right a2 c0
    rw [mul_pow, Ssq]
    linarith
  have upp : √(R ^ 2 + 2 * (radius format n * radius format n') * c) ≤ 114 / 100 * S := by
    rw [sqrt_le_iff]
    refine ⟨by positivity, ?_⟩
    have a1 : R ^ 2 ≤ (114 / 100 * D (ell format) n n') ^ 2 := pow_le_pow_left₀ R0 d2 2
    have a2 : radius format n * radius format n' ≤ (114 / 100 * P (ell format) n) * (114 / 100 * P (ell format) n') :=
      mul_le_mul q3 q4 r2.le (by positivity)
    have a3 := mul_le_mul_of_nonneg_right a2 c0
    rw [mul_pow, Ssq]
    linarith
  have big : √(R ^ 2 + 2 * (radius format n * radius format n') * c) ≤ 11900 := by
    rw [sqrt_le_iff]
    refine ⟨by norm_num, ?_⟩
    have a1 : R ^ 2 ≤ 2600 ^ 2 := pow_le_pow_left₀ R0 hl2 2
    have a2 : radius format n * radius format n' * c ≤ 5714 * 5714 * 2 := mul_le_mul rr c2 c0 (by norm_num)
    linarith
  refine ⟨?_, upp⟩
  have : S - κ * S = 1 / 10 ^ 9 * S := by rw [hκ]; ring
  have s1 : κ * S ≤ 11900 := low.trans big
  have s2 : S ≤ 12000 := by
    rw [hκ] at s1
    norm_num at s1
    linarith
  have s3 : 1 / 10 ^ 9 * S ≤ 2 / 10 ^ 5 := by norm_num; linarith
  refine le_trans ?_ low
  rw [← this] at s3
  exact sub_le_comm.mp s3

end Scale

open Spec.Surface

/-- C100. At every place the map, in kilometres, is the surface scaled by a factor that is the same in all directions, depends
on the latitude only, decreases strictly northwards and is 1 at 60 N (to a billionth). Between 40 N and 60 N it is at least 1
and at most 1.14. For the sphere of the formats before 5 and the WGS84 ellipsoid of the later ones. -/
theorem C100_scale {format dx dy : Int} {b : Int × Int} (h : HasGrid format dx dy b) :
    ∃ k : ℝ → ℝ, StrictAntiOn k (Set.Ioo (-90) 90) ∧ |k 60 - 1| ≤ 1 / 10 ^ 9 ∧
      (∀ n, 40 ≤ n → n ≤ 60 → 1 - 1 / 10 ^ 9 ≤ k n ∧ k n ≤ 114 / 100) ∧
      ∀ n e : ℝ, -90 < n → n < 90 → ∃ xn yn xe ye : ℝ,
        HasDerivAt (fun t => kmRight format dx dy t e) xn n ∧ HasDerivAt (fun t => kmDown format dx dy t e) yn n ∧
        HasDerivAt (fun t => kmRight format dx dy n t) xe e ∧ HasDerivAt (fun t => kmDown format dx dy n t) ye e ∧
        xn * xe + yn * ye = 0 ∧
        √(xn ^ 2 + yn ^ 2) = k n * (meridian (decide (5 ≤ format)) n * (π / 180)) ∧
        √(xe ^ 2 + ye ^ 2) = k n * (primeVertical (decide (5 ≤ format)) n * cos (Map.deg n) * (π / 180)) := by
  refine ⟨Scale.k format, Scale.k_anti format, Scale.k60 h, fun n h1 h2 => ⟨Scale.k_ge h (by linarith) h2, Scale.k_le format h1 h2⟩, ?_⟩
  intro n e h1 h2
  obtain ⟨xn, yn, xe, ye, d1, d2, d3, d4, d5, _, d6⟩ := C53_conformal h (e := e) h1 h2
  obtain ⟨xe', ye', f1, f2, f3⟩ := east_scale h (e := e) h1 h2
  rw [f1.unique d3, f2.unique d4] at f3
  have hP : √(xe ^ 2 + ye ^ 2) = Scale.k format n * (Scale.P (Scale.ell format) n * (π / 180)) := by
    rw [f3, Scale.radius_k format h1 h2, mul_assoc]
  refine ⟨xn, yn, xe, ye, d1, d2, d3, d4, d5, ?_, hP⟩
  rw [hP, Scale.P_eq, ← Scale.ecc_format] at d6
  have hc := cos_pos_of_mem_Ioo (rads_mem h1 h2)
  have hw := sqrt_pos.mpr (Scale.W2_pos (Scale.ell format) n)
  have hsq : √(Scale.W2 (Scale.ell format) n) ^ 2 = Scale.W2 (Scale.ell format) n := sq_sqrt (Scale.W2_pos _ n).le
  have hW : 1 - Surface.ecc (Scale.ell format) ^ 2 * sin (rads n) ^ 2 = √(Scale.W2 (Scale.ell format) n) ^ 2 := hsq.symm
  rw [hW] at d6
  have e1 : meridian (decide (5 ≤ format)) n =
      axis (Scale.ell format) * (1 - Surface.ecc (Scale.ell format) ^ 2) / √(Scale.W2 (Scale.ell format) n) ^ 3 := rfl
  rw [e1]
  set w := √(Scale.W2 (Scale.ell format) n)
  have key : √(xn ^ 2 + yn ^ 2) = (Scale.k format n * (axis (Scale.ell format) / w * cos (rads n) * (π / 180)) *
      (1 - Surface.ecc (Scale.ell format) ^ 2)) / (w ^ 2 * cos (rads n)) := by
    rw [eq_div_iff (by positivity)]; exact d6
  rw [key]
  field_simp

/-- C100. A distance a program measures between 40 N and 60 N, where all grids lie, from the pixel coordinates and the pixel
size, is never more than 3 centimetres shorter than the straight line between the two places on the surface of the format
(sphere or WGS84 ellipsoid), and at most 14 percent (and a centimetre) longer; whatever operations the compiler fuses. -/
theorem C100_stretch {E : Env} (hM : AccurateMath E.math) {c : Composite} {b : Int × Int} (hg : HasGrid c.format c.dx c.dy b)
    (hdx : c.dx < 2 ^ 63) (hdy : c.dy < 2 ^ 63) {n e n' e' : F64} (hp : OnMap n e) (hp' : OnMap n' e')
    (h0 : 40 ≤ n.val ∧ n.val ≤ 60) (h0' : 40 ≤ n'.val ∧ n'.val ≤ 60) {rx ry x y x' y' : F64}
    (hrx : Observable (permittedCalib E c).rx rx) (hry : Observable (permittedCalib E c).ry ry)
    (hx : Observable (permittedProject E c n e).1 x) (hy : Observable (permittedProject E c n e).2 y)
    (hx' : Observable (permittedProject E c n' e').1 x') (hy' : Observable (permittedProject E c n' e').2 y') :
    let s := straight (decide (5 ≤ c.format)) n.val e.val n'.val e'.val
    s - 3 / 10 ^ 5 ≤ kmApart rx ry x y x' y' ∧ kmApart rx ry x y x' y' ≤ 114 / 100 * s + 1 / 10 ^ 5 := by
  intro s
  obtain ⟨a1, a2⟩ := displacement hM hg hdx hdy hp hp' ⟨by linarith [h0.1], by linarith [h0.2]⟩
    ⟨by linarith [h0'.1], by linarith [h0'.2]⟩ hrx hry hx hy hx' hy'
  have z1 : (n.val : ℝ) ∈ Set.Icc (40 : ℝ) 60 := ⟨by exact_mod_cast h0.1, by exact_mod_cast h0.2⟩
  have z2 : (n'.val : ℝ) ∈ Set.Icc (40 : ℝ) 60 := ⟨by exact_mod_cast h0'.1, by exact_mod_cast h0'.2⟩
  obtain ⟨b1, b2⟩ := Scale.stretch hg e.val e'.val z1 z2
  obtain ⟨t1, t2⟩ := abs_le.mp (sqrt_close a1 a2)
  unfold kmApart
  constructor
  · have : s - 2 / 10 ^ 5 ≤ _ := b1
    norm_num at this t1 ⊢
    linarith
  · have : _ ≤ 114 / 100 * s := b2
    norm_num at this t2 ⊢
    linarith

/-- The hypotheses are met, on the ellipsoid of format version 5: 55 N 10 E and 46 N 13 E on 1100 x 1200 pixels, with the
values of a program that rounds every operation. -/
example : ∃ c : Composite, ∃ x y x' y' : F64, HasGrid c.format c.dx c.dy (275, 300) ∧ c.format = 5 ∧
    (x, y) = c.Project envExact (Fl.lit f64 55) (Fl.lit f64 10) ∧ (x', y') = c.Project envExact (Fl.lit f64 46) (Fl.lit f64 13) ∧
    let s := straight true (Fl.lit f64 55).val (Fl.lit f64 10).val (Fl.lit f64 46).val (Fl.lit f64 13).val
    s - 3 / 10 ^ 5 ≤ kmApart c.rx c.ry x y x' y' ∧ kmApart c.rx c.ry x y x' y' ≤ 114 / 100 * s + 1 / 10 ^ 5 := by
  have hg : HasGrid (NewDummy envExact [] 5 1100 1200).format (NewDummy envExact [] 5 1100 1200).dx
      (NewDummy envExact [] 5 1100 1200).dy (275, 300) := ⟨by decide, ⟨2, rfl, rfl⟩, Or.inr rfl⟩
  have r := Ready.dummy (E := envExact) [] 5 1100 1200
  have o1 : OnMap (Fl.lit f64 55) (Fl.lit f64 10) := by unfold OnMap; decide +kernel
  have o2 : OnMap (Fl.lit f64 46) (Fl.lit f64 13) := by unfold OnMap; decide +kernel
  obtain ⟨a1, a2, a3, a4⟩ := C67_separate_rounding r (Fl.lit f64 55) (Fl.lit f64 10)
  obtain ⟨_, _, a5, a6⟩ := C67_separate_rounding r (Fl.lit f64 46) (Fl.lit f64 13)
  exact ⟨_, _, _, _, _, hg, by decide, rfl, rfl,
    C100_stretch exactMath_accurate hg (by decide) (by decide) o1 o2 (by decide +kernel) (by decide +kernel) a1 a2 a3 a4 a5 a6⟩

/-- C100_scale on the same grid. -/
example : ∃ k : ℝ → ℝ, k 50 ≤ 114 / 100 ∧ k 51 < k 50 ∧ 1 - 1 / 10 ^ 9 ≤ k 50 := by
  obtain ⟨k, h1, _, h3, _⟩ := C100_scale (format := 5) (dx := 1100) (dy := 1200) (b := (275, 300)) ⟨by decide, ⟨2, rfl, rfl⟩, Or.inr rfl⟩
  exact ⟨k, (h3 50 (by norm_num) (by norm_num)).2, h1 (by norm_num) (by norm_num) (by norm_num), (h3 50 (by norm_num) (by norm_num)).1⟩

end Props
