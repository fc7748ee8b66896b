/- The polar stereographic projections in real arithmetic. -/
import Verif.Model.RealArith
import Verif.Lemmas.Calib
import Mathlib.Analysis.SpecialFunctions.Trigonometric.Angle
import Mathlib.Analysis.SpecialFunctions.Log.Deriv
import Mathlib.Analysis.Calculus.Deriv.MeanValue

namespace Radolan
open Go Real

/-- `cos φ / (1 + sin φ)`, the distance from the pole in units of twice the junction plane radius -/
noncomputable def polar (φ : ℝ) : ℝ := cos φ / (1 + sin φ)

theorem cos_pos_deg {φ : ℝ} (h : φ ∈ Set.Ioo (-(π / 2)) (π / 2)) : 0 < cos φ := cos_pos_of_mem_Ioo h

theorem sin_bounds {φ : ℝ} (h : φ ∈ Set.Ioo (-(π / 2)) (π / 2)) : -1 < sin φ ∧ sin φ < 1 := by
  have hc := cos_pos_of_mem_Ioo h
  have hs := sin_sq_add_cos_sq φ
  constructor <;> nlinarith [sq_nonneg (sin φ - 1), sq_nonneg (sin φ + 1)]

theorem polar_pos {φ : ℝ} (h : φ ∈ Set.Ioo (-(π / 2)) (π / 2)) : 0 < polar φ := by
  have := sin_bounds h
  exact div_pos (cos_pos_of_mem_Ioo h) (by linarith)

theorem polar_sq {φ : ℝ} (h : φ ∈ Set.Ioo (-(π / 2)) (π / 2)) :
    polar φ ^ 2 = (1 - sin φ) / (1 + sin φ) := by
  have hb := sin_bounds h
  have h1 : (1 + sin φ) ≠ 0 := by linarith
  unfold polar
  rw [div_pow, cos_sq', div_eq_div_iff (by positivity) h1]
  ring

theorem polar_strictAnti : StrictAntiOn polar (Set.Ioo (-(π / 2)) (π / 2)) := by
  intro a ha b hb hab
  have hs : sin a < sin b := strictMonoOn_sin ⟨ha.1.le, ha.2.le⟩ ⟨hb.1.le, hb.2.le⟩ hab
  have h1 := sin_bounds ha
  have h2 := sin_bounds hb
  have : polar b ^ 2 < polar a ^ 2 := by
    rw [polar_sq ha, polar_sq hb, div_lt_div_iff₀ (by linarith) (by linarith)]
    nlinarith
  exact lt_of_pow_lt_pow_left₀ 2 (polar_pos ha).le this

/-- tan of the half polar distance -/
theorem tan_half {φ : ℝ} (h : φ ∈ Set.Ioo (-(π / 2)) (π / 2)) : tan (1 / 2 * (π / 2 - φ)) = polar φ := by
  obtain ⟨h1, h2⟩ := h
  set t := 1 / 2 * (π / 2 - φ) with ht
  have hφ : φ = π / 2 - 2 * t := by rw [ht]; ring
  have htm : t ∈ Set.Ioo (-(π / 2)) (π / 2) := by constructor <;> rw [ht] <;> linarith [pi_pos]
  have hc : 0 < cos t := cos_pos_of_mem_Ioo htm
  unfold polar
  rw [hφ, cos_pi_div_two_sub, sin_pi_div_two_sub, sin_two_mul, cos_two_mul, tan_eq_sin_div_cos]
  field_simp
  ring

/-- the factor correcting for the ellipsoid -/
noncomputable def ellFactor (e φ : ℝ) : ℝ := ((1 - e * sin φ) / (1 + e * sin φ)) ^ (1 / 2 * e)

/-- the ellipsoidal polar distance -/
noncomputable def ellPolar (e φ : ℝ) : ℝ := polar φ / ellFactor e φ

theorem ell_bounds {e s : ℝ} (he : 0 < e) (he1 : e < 1) (hs : -1 < s ∧ s < 1) : 0 < 1 - e * s ∧ 0 < 1 + e * s := by
  constructor <;> nlinarith

theorem ellFactor_pos {e φ : ℝ} (he : 0 < e) (he1 : e < 1) (h : φ ∈ Set.Ioo (-(π / 2)) (π / 2)) :
    0 < ellFactor e φ := by
  obtain ⟨h1, h2⟩ := ell_bounds he he1 (sin_bounds h)
  exact rpow_pos_of_pos (div_pos h1 h2) _

theorem ellPolar_pos {e φ : ℝ} (he : 0 < e) (he1 : e < 1) (h : φ ∈ Set.Ioo (-(π / 2)) (π / 2)) :
    0 < ellPolar e φ := div_pos (polar_pos h) (ellFactor_pos he he1 h)

/-- logarithm of the squared ellipsoidal polar distance as a function of the sine of the latitude -/
noncomputable def ellLog (e s : ℝ) : ℝ := log (1 - s) - log (1 + s) + e * (log (1 + e * s) - log (1 - e * s))

theorem log_ellPolar {e φ : ℝ} (he : 0 < e) (he1 : e < 1) (h : φ ∈ Set.Ioo (-(π / 2)) (π / 2)) :
    2 * log (ellPolar e φ) = ellLog e (sin φ) := by
  have hb := sin_bounds h
  obtain ⟨h1, h2⟩ := ell_bounds he he1 hb
  have hp := polar_pos h
  have hl : 2 * log (polar φ) = log (1 - sin φ) - log (1 + sin φ) := by
    have := congrArg log (polar_sq h)
    rw [log_pow, log_div (by linarith) (by linarith)] at this
    exact_mod_cast this
  have hf : log (ellFactor e φ) = 1 / 2 * e * (log (1 - e * sin φ) - log (1 + e * sin φ)) := by
    unfold ellFactor
    rw [log_rpow (div_pos h1 h2), log_div h1.ne' h2.ne']
  unfold ellPolar ellLog
  rw [log_div hp.ne' (ellFactor_pos he he1 h).ne', mul_sub, hl, hf]
  ring

theorem ellLog_strictAnti {e : ℝ} (he : 0 < e) (he1 : e < 1) : StrictAntiOn (ellLog e) (Set.Ioo (-1) 1) := by
  have hder : ∀ s ∈ Set.Ioo (-1 : ℝ) 1, HasDerivAt (ellLog e)
      (-1 / (1 - s) - 1 / (1 + s) + e * (e / (1 + e * s) - -e / (1 - e * s))) s := by
    intro s hs
    obtain ⟨h1, h2⟩ := ell_bounds he he1 hs
    have d1 : HasDerivAt (fun s : ℝ => log (1 - s)) (-1 / (1 - s)) s :=
      HasDerivAt.log (by simpa using (hasDerivAt_id s).const_sub 1) (by linarith [hs.2])
    have d2 : HasDerivAt (fun s : ℝ => log (1 + s)) (1 / (1 + s)) s :=
      HasDerivAt.log (by simpa using (hasDerivAt_id s).const_add 1) (by linarith [hs.1])
    have dm : HasDerivAt (fun s : ℝ => e * s) e s := by simpa using (hasDerivAt_id s).const_mul e
    have d3 : HasDerivAt (fun s : ℝ => log (1 + e * s)) (e / (1 + e * s)) s :=
      HasDerivAt.log (by simpa using dm.const_add 1) h2.ne'
    have d4 : HasDerivAt (fun s : ℝ => log (1 - e * s)) (-e / (1 - e * s)) s :=
      HasDerivAt.log (by simpa using dm.const_sub 1) h1.ne'
    exact (d1.sub d2).add ((d3.sub d4).const_mul e)
  apply strictAntiOn_of_deriv_neg (convex_Ioo _ _)
  · intro s hs; exact (hder s hs).continuousAt.continuousWithinAt
  · intro s hs
    rw [interior_Ioo] at hs
    rw [(hder s hs).deriv]
    obtain ⟨h1, h2⟩ := ell_bounds he he1 hs
    have k1 : 0 < 1 - s := by linarith [hs.2]
    have k2 : 0 < 1 + s := by linarith [hs.1]
    have e1 : -1 / (1 - s) - 1 / (1 + s) + e * (e / (1 + e * s) - -e / (1 - e * s))
        = 2 * (e ^ 2 - 1) / ((1 - s) * (1 + s) * ((1 - e * s) * (1 + e * s))) := by
      have n1 := h1.ne'
      have n2 := h2.ne'
      have n3 := k1.ne'
      have n4 := k2.ne'
      rw [div_sub_div _ _ n3 n4, div_sub_div _ _ n2 n1, mul_div_assoc', div_add_div _ _ (mul_ne_zero n3 n4)
        (mul_ne_zero n2 n1), div_eq_div_iff (mul_ne_zero (mul_ne_zero n3 n4) (mul_ne_zero n2 n1))
        (mul_ne_zero (mul_ne_zero n3 n4) (mul_ne_zero n1 n2))]
      ring
    rw [e1]
    apply div_neg_of_neg_of_pos
    · nlinarith
    · positivity

theorem ellPolar_strictAnti {e : ℝ} (he : 0 < e) (he1 : e < 1) :
    StrictAntiOn (ellPolar e) (Set.Ioo (-(π / 2)) (π / 2)) := by
  intro a ha b hb hab
  have hs : sin a < sin b := strictMonoOn_sin ⟨ha.1.le, ha.2.le⟩ ⟨hb.1.le, hb.2.le⟩ hab
  have := ellLog_strictAnti he he1 (sin_bounds ha) (sin_bounds hb) hs
  rw [← log_ellPolar he he1 ha, ← log_ellPolar he he1 hb] at this
  have hlt : log (ellPolar e b) < log (ellPolar e a) := by linarith
  exact (log_lt_log_iff (ellPolar_pos he he1 hb) (ellPolar_pos he he1 ha)).mp hlt

/-- degrees to radians -/
noncomputable def rads (d : ℝ) : ℝ := d * (π / 180)

theorem rads_mem {d : ℝ} (h1 : -90 < d) (h2 : d < 90) : rads d ∈ Set.Ioo (-(π / 2)) (π / 2) := by
  unfold rads
  have := pi_pos
  constructor <;> nlinarith

theorem rads_strictMono : StrictMono rads := by
  intro a b h
  exact mul_lt_mul_of_pos_right h (by positivity)

/-- the eccentricity in the code -/
noncomputable def ecc84 : ℝ := 8181919084262032 / 10 ^ 17

/-- distance (km) of the image of a latitude from the image of the pole -/
noncomputable def radius (format : Int) (north : ℝ) : ℝ :=
  if 5 ≤ format then 11862667042661695 / 10 ^ 9 / 1000 * ellPolar ecc84 (rads north)
  else 637004 / 100 * (1 + sin (rads 60)) * polar (rads north)

/-- image of the pole (km) -/
noncomputable def pole (format : Int) : ℝ × ℝ :=
  if 5 ≤ format then (54319683521776402 / 10 ^ 11 / 1000, -(3622588861931001 / 10 ^ 9 / 1000)) else (0, 0)

theorem planeXY_real (format : Int) {north : ℝ} (h1 : -90 < north) (h2 : north < 90) (east : ℝ) :
    planeXY realArith format north east =
      ((pole format).1 + radius format north * sin (rads (east - 10)),
       (pole format).2 + radius format north * cos (rads (east - 10))) := by
  have hm := rads_mem h1 h2
  unfold planeXY pole radius
  split
  · have hlat : north * (π * ((2 / 360 : ℚ) : ℝ)) = rads north := by unfold rads; push_cast; ring
    have hlon : east * (π * ((2 / 360 : ℚ) : ℝ)) - π * ((10 * 2 / 360 : ℚ) : ℝ) = rads (east - 10) := by
      unfold rads; push_cast; ring
    have hhalf : (((1 / 2 : ℚ)) : ℝ) * (π * ((1 / 2 : ℚ) : ℝ) - rads north) = 1 / 2 * (π / 2 - rads north) := by
      push_cast; ring
    have hecc : ((mkRat 8181919084262032 (10 ^ 17) : ℚ) : ℝ) = ecc84 := by
      rw [Rat.mkRat_eq_div]; unfold ecc84; norm_num
    have hpow : ((1 - ecc84 * sin (rads north)) / (1 + ecc84 * sin (rads north))) ^ (((1 / 2 : ℚ) : ℝ) * ecc84)
        = ellFactor ecc84 (rads north) := by
      unfold ellFactor; push_cast; rfl
    have hpow' : ((1 - ecc84 * sin (rads north)) / (1 + ecc84 * sin (rads north))) ^ ((1 / 2 : ℝ) * ecc84)
        = ellFactor ecc84 (rads north) := rfl
    simp only [wgs84XY, projDE1200, realArith, degToRad, hlat, hlon, hhalf, tan_half hm, hecc, Rat.cast_one, hpow]
    ext
    · simp only [Rat.mkRat_eq_div, ellPolar]
      push_cast
      ring
    · simp only [Rat.mkRat_eq_div, ellPolar]
      push_cast
      ring
  · have hlat : ∀ d : ℝ, d * (π * ((1 / 180 : ℚ) : ℝ)) = rads d := by intro d; unfold rads; push_cast; ring
    have hlon : rads east - rads ((10 : ℚ) : ℝ) = rads (east - 10) := by unfold rads; push_cast; ring
    simp only [sphereXY, realArith, rad, earthRadius, junctionEast, junctionNorth, hlat, hlon]
    ext
    · simp only [Rat.mkRat_eq_div, polar]
      push_cast
      ring
    · simp only [Rat.mkRat_eq_div, polar]
      push_cast
      ring

theorem radius_pos (format : Int) {north : ℝ} (h1 : -90 < north) (h2 : north < 90) : 0 < radius format north := by
  have hm := rads_mem h1 h2
  unfold radius
  split
  · have := ellPolar_pos (e := ecc84) (by unfold ecc84; norm_num) (by unfold ecc84; norm_num) hm
    positivity
  · have := polar_pos hm
    have h60 : 0 < sin (rads 60) := by
      apply sin_pos_of_pos_of_lt_pi <;> unfold rads <;> linarith [pi_pos]
    positivity

theorem radius_anti (format : Int) {a b : ℝ} (h1 : -90 < a) (h : a < b) (h2 : b < 90) :
    radius format b < radius format a := by
  have hr := rads_strictMono h
  have ha := rads_mem h1 (h.trans h2)
  have hb := rads_mem (h1.trans h) h2
  unfold radius
  split
  · have := ellPolar_strictAnti (e := ecc84) (by unfold ecc84; norm_num) (by unfold ecc84; norm_num) ha hb hr
    exact mul_lt_mul_of_pos_left this (by norm_num)
  · have := polar_strictAnti ha hb hr
    have h60 : 0 < sin (rads 60) := by
      apply sin_pos_of_pos_of_lt_pi <;> unfold rads <;> linarith [pi_pos]
    exact mul_lt_mul_of_pos_left this (by positivity)

end Radolan
