/-
C53: the projection is conformal (a polar stereographic projection), true to scale at 60 N on the sphere.
-/
import Verif.Props.RealProjection
import Verif.Lemmas.TrigNum
import Mathlib.Analysis.SpecialFunctions.Trigonometric.Deriv
import Mathlib.Analysis.SpecialFunctions.ExpDeriv

namespace Props
open Go Radolan Spec Real

/-- first eccentricity of the reference surface: a sphere before format version 5, the WGS84 ellipsoid since -/
noncomputable def eccentricity (format : Int) : ℝ := if 5 ≤ format then 0.08181919084262032 else 0

/-- kilometres in the projection plane, right of and below the top left corner of the grid -/
noncomputable def kmRight (format dx dy : Int) (north east : ℝ) : ℝ :=
  (realProject format dx dy north east).1 * (realCalib format dx dy).rx
noncomputable def kmDown (format dx dy : Int) (north east : ℝ) : ℝ :=
  (realProject format dx dy north east).2 * (realCalib format dx dy).ry

theorem rads_hasDerivAt (c d : ℝ) : HasDerivAt (fun x => rads (x - c)) (π / 180) d := by
  unfold rads
  simpa using ((hasDerivAt_id d).sub_const c).mul_const (π / 180)

theorem rads_hasDerivAt' (d : ℝ) : HasDerivAt rads (π / 180) d := by
  simpa using rads_hasDerivAt 0 d

theorem polar_hasDerivAt {φ : ℝ} (h : φ ∈ Set.Ioo (-(π / 2)) (π / 2)) : HasDerivAt polar (polar φ * (-1 / cos φ)) φ := by
  have hb := sin_bounds h
  have hc := cos_pos_of_mem_Ioo h
  have h1 : 1 + sin φ ≠ 0 := by linarith
  have d := (hasDerivAt_cos φ).div ((hasDerivAt_sin φ).const_add 1) h1
  refine d.congr_deriv ?_
  unfold polar
  have hs := sin_sq_add_cos_sq φ
  field_simp
  linear_combination -hs

theorem ellLog_hasDerivAt {e s : ℝ} (he : 0 < e) (he1 : e < 1) (hs : -1 < s ∧ s < 1) :
    HasDerivAt (ellLog e) (2 * (e ^ 2 - 1) / ((1 - s ^ 2) * (1 - e ^ 2 * s ^ 2))) s := by
  obtain ⟨h1, h2⟩ := ell_bounds he he1 hs
  have d1 : HasDerivAt (fun s : ℝ => log (1 - s)) (-1 / (1 - s)) s :=
    HasDerivAt.log (by simpa using (hasDerivAt_id s).const_sub 1) (by linarith [hs.2])
  have d2 : HasDerivAt (fun s : ℝ => log (1 + s)) (1 / (1 + s)) s :=
    HasDerivAt.log (by simpa using (hasDerivAt_id s).const_add 1) (by linarith [hs.1])
  have dm : HasDerivAt (fun s : ℝ => e * s) e s := by simpa using (hasDerivAt_id s).const_mul e
  have d3 : HasDerivAt (fun s : ℝ => log (1 + e * s)) (e / (1 + e * s)) s :=
    HasDerivAt.log (by simpa using dm.const_add 1) h2.ne'
  have d4 : HasDerivAt (fun s : ℝ => log (1 - e * s)) (-e / (1 - e * s)) s :=
    HasDerivAt.log (by simpa using dm.const_sub 1) h1.ne'
  have d := (d1.sub d2).add ((d3.sub d4).const_mul e)
  refine d.congr_deriv ?_
  have k1 : 1 - s ≠ 0 := by linarith [hs.2]
  have k2 : 1 + s ≠ 0 := by linarith [hs.1]
  have n1 := h1.ne'
  have n2 := h2.ne'
  have e1 : 1 - s ^ 2 = (1 - s) * (1 + s) := by ring
  have e2 : 1 - e ^ 2 * s ^ 2 = (1 - e * s) * (1 + e * s) := by ring
  rw [e1, e2, div_sub_div _ _ k1 k2, div_sub_div _ _ n2 n1, mul_div_assoc', div_add_div _ _ (mul_ne_zero k1 k2)
    (mul_ne_zero n2 n1), div_eq_div_iff (mul_ne_zero (mul_ne_zero k1 k2) (mul_ne_zero n2 n1))
    (mul_ne_zero (mul_ne_zero k1 k2) (mul_ne_zero n1 n2))]
  ring

theorem ellPolar_hasDerivAt {e φ : ℝ} (he : 0 < e) (he1 : e < 1) (h : φ ∈ Set.Ioo (-(π / 2)) (π / 2)) :
    HasDerivAt (ellPolar e) (ellPolar e φ * (-(1 - e ^ 2) / ((1 - e ^ 2 * sin φ ^ 2) * cos φ))) φ := by
  have hb := sin_bounds h
  have hc := cos_pos_of_mem_Ioo h
  obtain ⟨h1, h2⟩ := ell_bounds he he1 hb
  have key : ∀ ψ ∈ Set.Ioo (-(π / 2)) (π / 2), ellPolar e ψ = exp (1 / 2 * ellLog e (sin ψ)) := by
    intro ψ hψ
    rw [← log_ellPolar he he1 hψ]
    rw [show 1 / 2 * (2 * log (ellPolar e ψ)) = log (ellPolar e ψ) by ring, exp_log (ellPolar_pos he he1 hψ)]
  have d := ((ellLog_hasDerivAt he he1 hb).comp φ (hasDerivAt_sin φ)).const_mul (1 / 2) |>.exp
  have heq : (fun ψ => exp (1 / 2 * (ellLog e ∘ sin) ψ)) =ᶠ[nhds φ] ellPolar e := by
    filter_upwards [isOpen_Ioo.mem_nhds h] with ψ hψ
    rw [key ψ hψ]; rfl
  refine (d.congr_of_eventuallyEq heq.symm).congr_deriv ?_
  rw [key φ h]
  have e1 : 1 - sin φ ^ 2 = cos φ ^ 2 := by rw [cos_sq']
  have n0 : (1 - e ^ 2 * sin φ ^ 2) ≠ 0 := by
    have : 1 - e ^ 2 * sin φ ^ 2 = (1 - e * sin φ) * (1 + e * sin φ) := by ring
    rw [this]; exact mul_ne_zero h1.ne' h2.ne'
  simp only [Function.comp]
  rw [e1]
  field_simp
  ring

theorem ecc_bounds (format : Int) : 0 ≤ eccentricity format ∧ eccentricity format < 1 := by
  unfold eccentricity; split <;> norm_num

theorem radius_hasDerivAt (format : Int) {n : ℝ} (h1 : -90 < n) (h2 : n < 90) :
    HasDerivAt (radius format) (radius format n * (-(1 - eccentricity format ^ 2) /
      ((1 - eccentricity format ^ 2 * sin (rads n) ^ 2) * cos (rads n)) * (π / 180))) n := by
  have hm := rads_mem h1 h2
  by_cases hf : 5 ≤ format
  · have e0 : eccentricity format = ecc84 := by unfold eccentricity ecc84; rw [if_pos hf]; norm_num
    have d := ((ellPolar_hasDerivAt (e := ecc84) (by unfold ecc84; norm_num) (by unfold ecc84; norm_num) hm).comp n
      (rads_hasDerivAt' n)).const_mul (11862667042661695 / 10 ^ 9 / 1000 : ℝ)
    have : radius format = fun n => 11862667042661695 / 10 ^ 9 / 1000 * (ellPolar ecc84 ∘ rads) n := by
      funext x; unfold radius; rw [if_pos hf]; rfl
    rw [this, e0]
    refine d.congr_deriv ?_
    simp only [Function.comp]; ring
  · have e0 : eccentricity format = 0 := by unfold eccentricity; rw [if_neg hf]
    have d := ((polar_hasDerivAt hm).comp n (rads_hasDerivAt' n)).const_mul (637004 / 100 * (1 + sin (rads 60)) : ℝ)
    have : radius format = fun n => 637004 / 100 * (1 + sin (rads 60)) * (polar ∘ rads) n := by
      funext x; unfold radius; rw [if_neg hf]; rfl
    rw [this, e0]
    refine d.congr_deriv ?_
    simp only [Function.comp]; ring

/-- plane coordinates of a point as distances from the top left corner -/
theorem km_eq {format dx dy : Int} {b : Int × Int} (h : HasGrid format dx dy b) :
    ∃ ox oy : ℝ, ∀ n e : ℝ, -90 < n → n < 90 →
      kmRight format dx dy n e = radius format n * sin (rads (e - 10)) - ox ∧
      kmDown format dx dy n e = radius format n * cos (rads (e - 10)) - oy := by
  obtain ⟨ot, ol, eb, er, hc⟩ := corners_isSome h
  obtain ⟨e1, e2, e3⟩ := realCalib_eq h hc
  obtain ⟨p1, p2⟩ := C37_resolution_positive h
  refine ⟨(planeXY realArith format ot ol).1 - (pole format).1, (planeXY realArith format ot ol).2 - (pole format).2, ?_⟩
  intro n e h1 h2
  unfold kmRight kmDown
  rw [e3]
  simp only
  rw [div_mul_cancel₀ _ p1.ne', div_mul_cancel₀ _ p2.ne', planeXY_real format h1 h2]
  simp only
  constructor <;> ring

/-- C53. The projection is conformal. At every point the plane distances change northwards and eastwards along
directions that are orthogonal, not mirrored, and with the same scale relative to distances on the reference surface:
one degree north spans `M` and one degree east spans `N cos φ` on the surface, and
`M : N cos φ = 1 - ε² : (1 - ε² sin² φ) cos φ`. -/
theorem C53_conformal {format dx dy : Int} {b : Int × Int} (h : HasGrid format dx dy b) {n e : ℝ}
    (h1 : -90 < n) (h2 : n < 90) :
    ∃ xn yn xe ye : ℝ,
      HasDerivAt (fun t => kmRight format dx dy t e) xn n ∧ HasDerivAt (fun t => kmDown format dx dy t e) yn n ∧
      HasDerivAt (fun t => kmRight format dx dy n t) xe e ∧ HasDerivAt (fun t => kmDown format dx dy n t) ye e ∧
      xn * xe + yn * ye = 0 ∧ xe * yn - ye * xn < 0 ∧
      √(xn ^ 2 + yn ^ 2) * ((1 - eccentricity format ^ 2 * sin (rads n) ^ 2) * cos (rads n))
        = √(xe ^ 2 + ye ^ 2) * (1 - eccentricity format ^ 2) := by
  obtain ⟨ox, oy, hk⟩ := km_eq h
  have hm := rads_mem h1 h2
  have hc := cos_pos_of_mem_Ioo hm
  have hb := sin_bounds hm
  have hr := radius_pos format h1 h2
  obtain ⟨ec0, ec1⟩ := ecc_bounds format
  set ε := eccentricity format with hε
  have hq : 0 < 1 - ε ^ 2 := by nlinarith
  have hD : 0 < 1 - ε ^ 2 * sin (rads n) ^ 2 := by
    have : sin (rads n) ^ 2 ≤ 1 := sin_sq_le_one _
    nlinarith [sq_nonneg ε]
  have dn := radius_hasDerivAt format h1 h2
  rw [← hε] at dn
  set k := -(1 - ε ^ 2) / ((1 - ε ^ 2 * sin (rads n) ^ 2) * cos (rads n)) * (π / 180) with hkdef
  set S := sin (rads (e - 10)) with hS
  set C := cos (rads (e - 10)) with hC
  have hsc : S ^ 2 + C ^ 2 = 1 := sin_sq_add_cos_sq _
  have hkneg : k < 0 := by
    rw [hkdef]
    apply mul_neg_of_neg_of_pos
    · apply div_neg_of_neg_of_pos (by linarith) (by positivity)
    · positivity
  set r := radius format n with hrdef
  have hnhds : ∀ᶠ t in nhds n, -90 < t ∧ t < 90 := isOpen_Ioo.mem_nhds (show n ∈ Set.Ioo (-90 : ℝ) 90 from ⟨h1, h2⟩)
  refine ⟨r * k * S, r * k * C, r * (C * (π / 180)), r * (-S * (π / 180)), ?_, ?_, ?_, ?_, by ring, ?_, ?_⟩
  · refine ((dn.mul_const S).sub_const ox).congr_of_eventuallyEq ?_
    filter_upwards [hnhds] with t ht
    exact (hk t e ht.1 ht.2).1
  · refine ((dn.mul_const C).sub_const oy).congr_of_eventuallyEq ?_
    filter_upwards [hnhds] with t ht
    exact (hk t e ht.1 ht.2).2
  · have : (fun t => kmRight format dx dy n t) = fun t => r * sin (rads (t - 10)) - ox := by
      funext t; exact (hk n t h1 h2).1
    rw [this]
    exact ((((hasDerivAt_sin _).comp e (rads_hasDerivAt 10 e)).const_mul r).sub_const ox)
  · have : (fun t => kmDown format dx dy n t) = fun t => r * cos (rads (t - 10)) - oy := by
      funext t; exact (hk n t h1 h2).2
    rw [this]
    exact ((((hasDerivAt_cos _).comp e (rads_hasDerivAt 10 e)).const_mul r).sub_const oy)
  · have : r * (C * (π / 180)) * (r * k * C) - r * (-S * (π / 180)) * (r * k * S) = r ^ 2 * (π / 180) * k := by
      linear_combination r ^ 2 * (π / 180) * k * hsc
    rw [this]
    exact mul_neg_of_pos_of_neg (by positivity) hkneg
  · have a1 : (r * k * S) ^ 2 + (r * k * C) ^ 2 = (r * -k) ^ 2 := by linear_combination r ^ 2 * k ^ 2 * hsc
    have a2 : (r * (C * (π / 180))) ^ 2 + (r * (-S * (π / 180))) ^ 2 = (r * (π / 180)) ^ 2 := by
      linear_combination r ^ 2 * (π / 180) ^ 2 * hsc
    rw [a1, a2, sqrt_sq (mul_nonneg hr.le (by linarith)), sqrt_sq (by positivity), hkdef]
    field_simp

/-- derivatives eastwards -/
theorem east_scale {format dx dy : Int} {b : Int × Int} (h : HasGrid format dx dy b) {n e : ℝ}
    (h1 : -90 < n) (h2 : n < 90) :
    ∃ xe ye : ℝ,
      HasDerivAt (fun t => kmRight format dx dy n t) xe e ∧ HasDerivAt (fun t => kmDown format dx dy n t) ye e ∧
      √(xe ^ 2 + ye ^ 2) = radius format n * (π / 180) := by
  obtain ⟨ox, oy, hk⟩ := km_eq h
  have hr := radius_pos format h1 h2
  refine ⟨radius format n * (cos (rads (e - 10)) * (π / 180)), radius format n * (-sin (rads (e - 10)) * (π / 180)),
    ?_, ?_, ?_⟩
  · have : (fun t => kmRight format dx dy n t) = fun t => radius format n * sin (rads (t - 10)) - ox := by
      funext t; exact (hk n t h1 h2).1
    rw [this]
    exact ((((hasDerivAt_sin _).comp e (rads_hasDerivAt 10 e)).const_mul _).sub_const ox)
  · have : (fun t => kmDown format dx dy n t) = fun t => radius format n * cos (rads (t - 10)) - oy := by
      funext t; exact (hk n t h1 h2).2
    rw [this]
    exact ((((hasDerivAt_cos _).comp e (rads_hasDerivAt 10 e)).const_mul _).sub_const oy)
  · have hsc : sin (rads (e - 10)) ^ 2 + cos (rads (e - 10)) ^ 2 = 1 := sin_sq_add_cos_sq _
    have a2 : (radius format n * (cos (rads (e - 10)) * (π / 180))) ^ 2
        + (radius format n * (-sin (rads (e - 10)) * (π / 180))) ^ 2 = (radius format n * (π / 180)) ^ 2 := by
      linear_combination radius format n ^ 2 * (π / 180) ^ 2 * hsc
    rw [a2, sqrt_sq (by positivity)]

/-- C53. On the sphere (formats before 5) the scale eastwards at latitude `n` is `(1 + sin 60°) / (1 + sin n)` times
the length of a degree on the sphere of radius 6370.04 km; in particular distances are true at 60 N. -/
theorem C53_scale {format dx dy : Int} {b : Int × Int} (h : HasGrid format dx dy b) (hf : format < 5) {n e : ℝ}
    (h1 : -90 < n) (h2 : n < 90) :
    ∃ xe ye : ℝ,
      HasDerivAt (fun t => kmRight format dx dy n t) xe e ∧ HasDerivAt (fun t => kmDown format dx dy n t) ye e ∧
      √(xe ^ 2 + ye ^ 2) = (1 + sin (rads 60)) / (1 + sin (rads n)) * (6370.04 * cos (rads n) * (π / 180)) := by
  obtain ⟨xe, ye, d1, d2, d3⟩ := east_scale h (e := e) h1 h2
  refine ⟨xe, ye, d1, d2, ?_⟩
  have hb := sin_bounds (rads_mem h1 h2)
  rw [d3]
  unfold radius polar
  rw [if_neg (by omega)]
  have : 1 + sin (rads n) ≠ 0 := by linarith
  field_simp
  norm_num
  ring

/-- C53. On the WGS84 ellipsoid (format 5 and later, semi-major axis 6378.137 km) distances are true at 60 N, to one
part in 10^9: a degree of longitude there spans `N cos 60°` times `π / 180`, `N = a / √(1 - ε² sin² 60°)`. -/
theorem C53_scale_wgs84 {format dx dy : Int} {b : Int × Int} (h : HasGrid format dx dy b) (hf : 5 ≤ format) {e : ℝ} :
    ∃ xe ye : ℝ,
      HasDerivAt (fun t => kmRight format dx dy 60 t) xe e ∧ HasDerivAt (fun t => kmDown format dx dy 60 t) ye e ∧
      |√(xe ^ 2 + ye ^ 2) / (6378.137 / √(1 - eccentricity format ^ 2 * sin (rads 60) ^ 2) * cos (rads 60) * (π / 180)) - 1|
        ≤ 1 / 10 ^ 9 := by
  have h1 : (-90 : ℝ) < 60 := by norm_num
  have h2 : (60 : ℝ) < 90 := by norm_num
  obtain ⟨xe, ye, d1, d2, d3⟩ := east_scale h (e := e) h1 h2
  refine ⟨xe, ye, d1, d2, ?_⟩
  have hs60 : sin (rads 60) = √3 / 2 := by
    rw [show rads 60 = π / 3 by unfold rads; ring, sin_pi_div_three]
  have hc60 : cos (rads 60) = 1 / 2 := by
    rw [show rads 60 = π / 3 by unfold rads; ring, cos_pi_div_three]
  have he : eccentricity format = ecc84 := by unfold eccentricity ecc84; rw [if_pos hf]; norm_num
  have h3 : √3 ^ 2 = (3 : ℝ) := Real.sq_sqrt (by norm_num)
  have k1 : (17320508075688770 : ℝ) / 10 ^ 16 < √3 := by
    apply Real.lt_sqrt_of_sq_lt; norm_num
  have k2 : √3 < (17320508075688774 : ℝ) / 10 ^ 16 := by
    rw [Real.sqrt_lt' (by norm_num)]; norm_num
  have hw : 1 - ecc84 ^ 2 * sin (rads 60) ^ 2 = 1 - ecc84 ^ 2 * (3 / 4) := by
    rw [hs60]; linear_combination -ecc84 ^ 2 / 4 * h3
  rw [d3, he, hw, hc60]
  set w := √(1 - ecc84 ^ 2 * (3 / 4)) with hwdef
  have w1 : (9974864485331 : ℝ) / 10 ^ 13 < w := by
    apply Real.lt_sqrt_of_sq_lt; unfold ecc84; norm_num
  have w2 : w < (9974864485334 : ℝ) / 10 ^ 13 := by
    rw [hwdef, Real.sqrt_lt' (by norm_num)]; unfold ecc84; norm_num
  have hG := Num.ellFactor_near (n := 60) (sn := 8660254037844386 / 10 ^ 16) (y0 := 70857497786796 / 10 ^ 15)
    (v0 := 5807235140545 / 10 ^ 15) (g0 := 1005824129818490 / 10 ^ 15) ⟨h1, h2⟩
    (Num.sin60_near.trans (by norm_num)) (by norm_num)
    (by unfold ecc84; rw [abs_le]; constructor <;> norm_num) (by norm_num)
    (by unfold ecc84 Num.logP; rw [abs_le]; constructor <;> norm_num) (by norm_num)
    (by unfold Num.expP; rw [abs_le]; constructor <;> norm_num)
  have hp : |polar (rads 60) - 2679491924311227 / 10 ^ 16| ≤ 1 / 10 ^ 14 := by
    unfold polar
    rw [hs60, hc60]
    have e1 : (1 / 2 : ℝ) / (1 + √3 / 2) = 2 - √3 := by
      have : (1 + √3 / 2) ≠ 0 := by positivity
      rw [div_eq_iff this]; linear_combination h3 / 2
    rw [e1, abs_le]
    constructor <;> norm_num at k1 k2 ⊢ <;> linarith
  have hr : radius format 60 = 11862667042661695 / 10 ^ 9 / 1000 * (polar (rads 60) * (ellFactor ecc84 (rads 60))⁻¹) := by
    unfold radius ellPolar; rw [if_pos hf, div_eq_mul_inv (polar (rads 60))]
  have hpi := pi_pos
  have w0 : 0 < w := lt_trans (by norm_num) w1
  have e2 : radius format 60 * (π / 180) / (6378.137 / w * (1 / 2) * (π / 180)) =
      11862667042661695 / 10 ^ 9 / 1000 * 2 / 6378.137 * (polar (rads 60) * (ellFactor ecc84 (rads 60))⁻¹) * w := by
    rw [hr]; field_simp
  rw [e2]
  have m1 := Num.mul_bound (A := 1) (B := 2) (t := 1 / 10 ^ 12) hp hG (by norm_num) (by norm_num) (by norm_num)
  have hk : |(11862667042661695 : ℝ) / 10 ^ 9 / 1000 * 2 / 6378.137 - 11862667042661695 / 10 ^ 9 / 1000 * 2 / 6378.137| ≤ 0 := by
    simp
  have m2 := Num.mul_bound (A := 4) (B := 1) (t := 1 / 10 ^ 11) hk m1 (by norm_num) (by norm_num) (by norm_num)
  have hw' : |w - 9974864485332 / 10 ^ 13| ≤ 1 / 10 ^ 12 := by
    rw [abs_le]; constructor <;> norm_num at w1 w2 ⊢ <;> linarith
  have m3 := Num.mul_bound (A := 2) (B := 1) (t := 1 / 10 ^ 10) m2 hw' (by norm_num) (by norm_num) (by norm_num)
  refine (abs_sub_le _ _ _).trans ((add_le_add m3 (_root_.le_refl _)).trans ?_)
  norm_num

/-- the hypotheses are met at Hamburg on the national grid; there the two directions are scaled alike -/
example : ∃ xn yn xe ye : ℝ,
    HasDerivAt (fun t => kmRight 3 900 900 t 10) xn 53.55 ∧ HasDerivAt (fun t => kmDown 3 900 900 t 10) yn 53.55 ∧
    HasDerivAt (fun t => kmRight 3 900 900 53.55 t) xe 10 ∧ HasDerivAt (fun t => kmDown 3 900 900 53.55 t) ye 10 ∧
    √(xn ^ 2 + yn ^ 2) * cos (rads 53.55) = √(xe ^ 2 + ye ^ 2) := by
  obtain ⟨xn, yn, xe, ye, d1, d2, d3, d4, _, _, d5⟩ := C53_conformal (format := 3) (dx := 900) (dy := 900) (b := (225, 225))
    ⟨by decide, ⟨2, rfl, rfl⟩, Or.inl (by decide)⟩ (n := 53.55) (e := 10) (by norm_num) (by norm_num)
  refine ⟨xn, yn, xe, ye, d1, d2, d3, d4, ?_⟩
  have e0 : eccentricity 3 = 0 := by unfold eccentricity; norm_num
  rw [e0] at d5
  simpa using d5

end Props
