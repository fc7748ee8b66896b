/-
C91: distances measured on the picture.
-/
import Verif.Props.MeshMap
import Verif.Props.Plane
import Verif.Props.Fusion
import Mathlib.Analysis.Convex.SpecificFunctions.Deriv

namespace Props
open Go Radolan Spec Spec.Fusion Real

/-- kilometres between two pixel coordinates of a composite whose pixels measure `rx` by `ry` kilometres -/
noncomputable def kmApart (rx ry : F64) (x y x' y' : F64) : ℝ :=
  √((((x'.val : ℝ) - x.val) * rx.val) ^ 2 + (((y'.val : ℝ) - y.val) * ry.val) ^ 2)

theorem sqrt_close {a b c d s t : ℝ} (h1 : |a - c| ≤ s) (h2 : |b - d| ≤ t) : |√(a ^ 2 + b ^ 2) - √(c ^ 2 + d ^ 2)| ≤ s + t := by
  have e : ∀ u v : ℝ, √(u ^ 2 + v ^ 2) = ‖(⟨u, v⟩ : ℂ)‖ := by
    intro u v
    rw [Complex.norm_def, Complex.normSq_apply]
    congr 1
    ring
  rw [e, e]
  refine (abs_norm_sub_norm_le _ _).trans ((Complex.norm_le_abs_re_add_abs_im _).trans ?_)
  simpa using add_le_add h1 h2

/-- one axis: pixel difference times pixel size, all with their errors -/
theorem axis_close {u u' v v' r s d D : ℝ} (hr : 0 < r) (h1 : |u - v| ≤ d) (h2 : |u' - v'| ≤ d) (h3 : |s - r| ≤ 5 / 10 ^ 12 * r)
    (h4 : d * r ≤ 16 / 10 ^ 7) (h5 : |(v' - v) * r| ≤ D) (h6 : D ≤ 50000) :
    |(u' - u) * s - (v' - v) * r| ≤ 5 / 10 ^ 6 := by
  have e : (u' - u) * s - (v' - v) * r = (u' - v') * r - (u - v) * r + ((u' - v') - (u - v)) * (s - r) + (v' - v) * (s - r) := by ring
  have d0 : 0 ≤ d := (abs_nonneg _).trans h1
  have a1 : |(u' - v') * r| ≤ d * r := by
    rw [abs_mul, abs_of_pos hr]; exact mul_le_mul_of_nonneg_right h2 hr.le
  have a2 : |(u - v) * r| ≤ d * r := by
    rw [abs_mul, abs_of_pos hr]; exact mul_le_mul_of_nonneg_right h1 hr.le
  have a3 : |((u' - v') - (u - v)) * (s - r)| ≤ (d + d) * (5 / 10 ^ 12 * r) := by
    rw [abs_mul]
    exact mul_le_mul ((abs_sub _ _).trans (add_le_add h2 h1)) h3 (abs_nonneg _) (by linarith)
  have a4 : |(v' - v) * (s - r)| ≤ 5 / 10 ^ 12 * D := by
    rw [abs_mul]
    calc |v' - v| * |s - r| ≤ |v' - v| * (5 / 10 ^ 12 * r) := mul_le_mul_of_nonneg_left h3 (abs_nonneg _)
      _ = 5 / 10 ^ 12 * |(v' - v) * r| := by rw [abs_mul, abs_of_pos hr]; ring
      _ ≤ _ := mul_le_mul_of_nonneg_left h5 (by norm_num)
  rw [e]
  have b1 := abs_add_le ((u' - v') * r - (u - v) * r + ((u' - v') - (u - v)) * (s - r)) ((v' - v) * (s - r))
  have b2 := abs_add_le ((u' - v') * r - (u - v) * r) (((u' - v') - (u - v)) * (s - r))
  have b3 := abs_sub ((u' - v') * r) ((u - v) * r)
  rw [show (5 : ℝ) / 10 ^ 12 = 1 / 200000000000 by norm_num] at a3 a4
  rw [show (16 : ℝ) / 10 ^ 7 = 1 / 625000 by norm_num] at h4
  rw [show (5 : ℝ) / 10 ^ 6 = 1 / 200000 by norm_num]
  linarith

theorem plane_bound (format : Int) {n e : ℝ} (h0 : 0 ≤ n) (h1 : n < 90) {n' e' : ℝ} (h0' : 0 ≤ n') (h1' : n' < 90) :
    |(planeXY realArith format n' e').1 - (planeXY realArith format n e).1| ≤ 50000 ∧
    |(planeXY realArith format n' e').2 - (planeXY realArith format n e).2| ≤ 50000 := by
  rw [planeXY_real format (by linarith) h1, planeXY_real format (by linarith) h1']
  have r1 := radius_le format h0 h1
  have r2 := radius_le format h0' h1'
  have r3 := radius_pos format (by linarith : -90 < n) h1
  have r4 := radius_pos format (by linarith : -90 < n') h1'
  have key : ∀ {r s : ℝ}, 0 < r → r ≤ 25000 → |s| ≤ 1 → |r * s| ≤ 25000 := by
    intro r s a b c
    rw [abs_mul, abs_of_pos a]
    calc r * |s| ≤ r * 1 := mul_le_mul_of_nonneg_left c a.le
      _ ≤ _ := by linarith
  simp only [add_sub_add_left_eq_sub]
  constructor
  · have := abs_sub (radius format n' * sin (rads (e' - 10))) (radius format n * sin (rads (e - 10)))
    linarith [key r3 r1 (abs_sin_le_one (rads (e - 10))), key r4 r2 (abs_sin_le_one (rads (e' - 10)))]
  · have := abs_sub (radius format n' * cos (rads (e' - 10))) (radius format n * cos (rads (e - 10)))
    linarith [key r3 r1 (abs_cos_le_one (rads (e - 10))), key r4 r2 (abs_cos_le_one (rads (e' - 10)))]

/-- The displacement in kilometres a program measures between two places of the northern hemisphere is exact to 5
millimetres along each axis. -/
theorem displacement {E : Env} (hM : AccurateMath E.math) {c : Composite} {b : Int × Int} (hg : HasGrid c.format c.dx c.dy b)
    (hdx : c.dx < 2 ^ 63) (hdy : c.dy < 2 ^ 63) {n e n' e' : F64} (hp : OnMap n e) (hp' : OnMap n' e')
    (h0 : 0 ≤ n.val ∧ n.val < 90) (h0' : 0 ≤ n'.val ∧ n'.val < 90) {rx ry x y x' y' : F64}
    (hrx : Observable (permittedCalib E c).rx rx) (hry : Observable (permittedCalib E c).ry ry)
    (hx : Observable (permittedProject E c n e).1 x) (hy : Observable (permittedProject E c n e).2 y)
    (hx' : Observable (permittedProject E c n' e').1 x') (hy' : Observable (permittedProject E c n' e').2 y') :
    |((x'.val : ℝ) - x.val) * rx.val - (kmBetween c.format c.dx c.dy n.val e.val n'.val e'.val).1| ≤ 5 / 10 ^ 6 ∧
    |((y'.val : ℝ) - y.val) * ry.val - (kmBetween c.format c.dx c.dy n.val e.val n'.val e'.val).2| ≤ 5 / 10 ^ 6 := by
  obtain ⟨c1, c2⟩ := C67_resolution hM hg hdx hdy
  obtain ⟨o1, o2⟩ := C67_project hM hg hdx hdy hp
  obtain ⟨o1', o2'⟩ := C67_project hM hg hdx hdy hp'
  obtain ⟨n1, n2⟩ := C52_nominal_resolution hg
  obtain ⟨v1, v2, v3, v4⟩ := extent_range hg.1
  obtain ⟨q1, q2⟩ := hasGrid_pos hg
  have g1 : (0 : ℝ) < c.dx := by exact_mod_cast q1
  have g2 : (0 : ℝ) < c.dy := by exact_mod_cast q2
  obtain ⟨p1, p2⟩ := C37_resolution_positive hg
  have hk := kmBetween_eq hg n.val e.val n'.val e'.val
  have z1 : (0 : ℝ) ≤ n.val := by exact_mod_cast h0.1
  have z2 : (n.val : ℝ) < 90 := by exact_mod_cast h0.2
  have z3 : (0 : ℝ) ≤ n'.val := by exact_mod_cast h0'.1
  have z4 : (n'.val : ℝ) < 90 := by exact_mod_cast h0'.2
  obtain ⟨w1, w2⟩ := plane_bound c.format (e := e.val) z1 z2 (e' := e'.val) z3 z4
  have k1 : |(kmBetween c.format c.dx c.dy n.val e.val n'.val e'.val).1| ≤ 50000 := by rw [hk]; exact w1
  have k2 : |(kmBetween c.format c.dx c.dy n.val e.val n'.val e'.val).2| ≤ 50000 := by rw [hk]; exact w2
  have small : ∀ {d : ℝ} {r X : ℝ}, 0 < d → X ≤ 1500 → |r - X / d| ≤ X / d / 10 ^ 5 → d / 10 ^ 9 * r ≤ 16 / 10 ^ 7 := by
    intro d r X hd hX hr
    have a := (abs_le.mp hr).2
    have : r * d ≤ X + X / 10 ^ 5 := by
      have : r ≤ X / d + X / d / 10 ^ 5 := by linarith
      calc r * d ≤ (X / d + X / d / 10 ^ 5) * d := mul_le_mul_of_nonneg_right this hd.le
        _ = _ := by field_simp
    norm_num at this ⊢
    linarith
  unfold kmBetween
  exact ⟨axis_close p1 (o1 x hx).2 (o1' x' hx').2 (c1 rx hrx).2 (small g1 (v2.trans (by norm_num)) n1) k1 le_rfl,
    axis_close p2 (o2 y hy).2 (o2' y' hy').2 (c2 ry hry).2 (small g2 v4 n2) k2 le_rfl⟩

/-- C91. On the spherical grids the distance a program measures on the picture, from the pixel coordinates and the pixel
size it reads, is to a centimetre the straight-line distance on the sphere of radius 6370.04 km times the geometric mean of
the map scales at both ends; whatever operations the compiler fuses. -/
theorem C91_distance {E : Env} (hM : AccurateMath E.math) {c : Composite} {b : Int × Int} (hg : HasGrid c.format c.dx c.dy b)
    (hf : c.format < 5) (hdx : c.dx < 2 ^ 63) (hdy : c.dy < 2 ^ 63) {n e n' e' : F64} (hp : OnMap n e) (hp' : OnMap n' e')
    (h0 : 0 ≤ n.val ∧ n.val < 90) (h0' : 0 ≤ n'.val ∧ n'.val < 90) {rx ry x y x' y' : F64}
    (hrx : Observable (permittedCalib E c).rx rx) (hry : Observable (permittedCalib E c).ry ry)
    (hx : Observable (permittedProject E c n e).1 x) (hy : Observable (permittedProject E c n e).2 y)
    (hx' : Observable (permittedProject E c n' e').1 x') (hy' : Observable (permittedProject E c n' e').2 y') :
    |kmApart rx ry x y x' y' - √(scaleAt n.val * scaleAt n'.val) * √(chordSq n.val e.val n'.val e'.val)| ≤ 1 / 10 ^ 5 := by
  obtain ⟨a1, a2⟩ := displacement hM hg hdx hdy hp hp' h0 h0' hrx hry hx hy hx' hy'
  have z1 : (0 : ℝ) ≤ n.val := by exact_mod_cast h0.1
  have z2 : (n.val : ℝ) < 90 := by exact_mod_cast h0.2
  have z3 : (0 : ℝ) ≤ n'.val := by exact_mod_cast h0'.1
  have z4 : (n'.val : ℝ) < 90 := by exact_mod_cast h0'.2
  have key := C58_distances hg hf (e := (e.val : ℝ)) (e' := (e'.val : ℝ)) ⟨by linarith, z2⟩ ⟨by linarith, z4⟩
  have s1 : ∀ {m : ℝ}, -90 < m → m < 90 → 0 ≤ scaleAt m := by
    intro m h1 h2
    have b1 := sin_bounds (rads_mem h1 h2)
    have b2 := sin_bounds (rads_mem (by norm_num : (-90 : ℝ) < 60) (by norm_num))
    exact div_nonneg (by linarith) (by linarith)
  have := sqrt_close a1 a2
  rw [key, sqrt_mul (mul_nonneg (s1 (by linarith) z2) (s1 (by linarith) z4))] at this
  unfold kmApart
  norm_num at this ⊢
  exact this

theorem sin40 : (638 : ℝ) / 1000 ≤ sin (rads 40) := by
  have hc := strictConcaveOn_sin_Icc.concaveOn
  have := hc.2 (show π / 6 ∈ Set.Icc 0 π from ⟨by positivity, by linarith [pi_pos]⟩)
    (show π / 4 ∈ Set.Icc 0 π from ⟨by positivity, by linarith [pi_pos]⟩)
    (show (0 : ℝ) ≤ 1 / 3 by norm_num) (show (0 : ℝ) ≤ 2 / 3 by norm_num) (by norm_num)
  rw [sin_pi_div_six, sin_pi_div_four] at this
  simp only [smul_eq_mul] at this
  rw [show rads 40 = 1 / 3 * (π / 6) + 2 / 3 * (π / 4) by unfold rads; ring]
  have h2 : (14142 : ℝ) / 10000 < √2 := by apply lt_sqrt_of_sq_lt; norm_num
  linarith

/-- between 40 N and 60 N the map scale is at least 1 and at most 1.14 -/
theorem scale_range {n : ℝ} (h1 : 40 ≤ n) (h2 : n ≤ 60) : 1 ≤ scaleAt n ∧ scaleAt n ≤ 114 / 100 := by
  have hpi := pi_pos
  have m1 : sin (rads 40) ≤ sin (rads n) := by
    apply sin_le_sin_of_le_of_le_pi_div_two <;> unfold rads <;> nlinarith
  have m2 : sin (rads n) ≤ sin (rads 60) := by
    apply sin_le_sin_of_le_of_le_pi_div_two <;> unfold rads <;> nlinarith
  have s60 : sin (rads 60) = √3 / 2 := by
    rw [show rads 60 = π / 3 by unfold rads; ring, sin_pi_div_three]
  have k2 : √3 < (173206 : ℝ) / 10 ^ 5 := by
    rw [Real.sqrt_lt' (by norm_num)]; norm_num
  have := sin40
  norm_num at k2
  unfold scaleAt
  constructor
  · rw [le_div_iff₀ (by linarith)]; linarith
  · rw [div_le_iff₀ (by linarith)]; linarith

/-- C91. Between 40 N and 60 N, where all grids lie, a distance measured on the picture of a spherical grid is never
shorter than the straight-line distance and at most 14 percent longer (up to the centimetre of rounding). -/
theorem C91_stretch {E : Env} (hM : AccurateMath E.math) {c : Composite} {b : Int × Int} (hg : HasGrid c.format c.dx c.dy b)
    (hf : c.format < 5) (hdx : c.dx < 2 ^ 63) (hdy : c.dy < 2 ^ 63) {n e n' e' : F64} (hp : OnMap n e) (hp' : OnMap n' e')
    (h0 : 40 ≤ n.val ∧ n.val ≤ 60) (h0' : 40 ≤ n'.val ∧ n'.val ≤ 60) {rx ry x y x' y' : F64}
    (hrx : Observable (permittedCalib E c).rx rx) (hry : Observable (permittedCalib E c).ry ry)
    (hx : Observable (permittedProject E c n e).1 x) (hy : Observable (permittedProject E c n e).2 y)
    (hx' : Observable (permittedProject E c n' e').1 x') (hy' : Observable (permittedProject E c n' e').2 y') :
    √(chordSq n.val e.val n'.val e'.val) - 1 / 10 ^ 5 ≤ kmApart rx ry x y x' y' ∧
    kmApart rx ry x y x' y' ≤ 114 / 100 * √(chordSq n.val e.val n'.val e'.val) + 1 / 10 ^ 5 := by
  have key := C91_distance hM hg hf hdx hdy hp hp' ⟨by linarith [h0.1], by linarith [h0.2]⟩ ⟨by linarith [h0'.1], by linarith [h0'.2]⟩
    hrx hry hx hy hx' hy'
  have z1 : (40 : ℝ) ≤ n.val := by exact_mod_cast h0.1
  have z2 : (n.val : ℝ) ≤ 60 := by exact_mod_cast h0.2
  have z3 : (40 : ℝ) ≤ n'.val := by exact_mod_cast h0'.1
  have z4 : (n'.val : ℝ) ≤ 60 := by exact_mod_cast h0'.2
  obtain ⟨s1, s2⟩ := scale_range z1 z2
  obtain ⟨s3, s4⟩ := scale_range z3 z4
  have t1 : 1 ≤ √(scaleAt n.val * scaleAt n'.val) := by
    rw [one_le_sqrt]; nlinarith
  have t2 : √(scaleAt n.val * scaleAt n'.val) ≤ 114 / 100 := by
    rw [sqrt_le_iff]
    refine ⟨by norm_num, ?_⟩
    rw [sq]
    exact mul_le_mul s2 s4 (by linarith) (by norm_num)
  obtain ⟨k1, k2⟩ := abs_le.mp key
  have q := sqrt_nonneg (chordSq (n.val : ℝ) e.val n'.val e'.val)
  have u1 := mul_le_mul_of_nonneg_right t1 q
  have u2 := mul_le_mul_of_nonneg_right t2 q
  constructor <;> linarith

/-! ### all earth models: nearby places -/

theorem ellFactor_ge98 {φ : ℝ} (h : φ ∈ Set.Ioo (-(π / 2)) (π / 2)) (h0 : 0 ≤ φ) : 98 / 100 ≤ ellFactor ecc84 φ := by
  have hs : 0 ≤ sin φ := sin_nonneg_of_nonneg_of_le_pi h0 (by have := h.2; linarith [pi_pos])
  have hs1 := sin_le_one φ
  have e0 : (0 : ℝ) < ecc84 := by unfold ecc84; norm_num
  have e1 : ecc84 ≤ 82 / 1000 := by unfold ecc84; norm_num
  unfold ellFactor
  have d1 : 0 < 1 + ecc84 * sin φ := by nlinarith
  have d2 : 0 < 1 - ecc84 * sin φ := by nlinarith
  have d3 : (1 - ecc84 * sin φ) / (1 + ecc84 * sin φ) ≤ 1 := by
    rw [div_le_one d1]; nlinarith
  have d4 : ((98 : ℝ) / 100) ^ (16 : ℕ) ≤ (1 - ecc84 * sin φ) / (1 + ecc84 * sin φ) := by
    rw [le_div_iff₀ d1]
    have : ecc84 * sin φ ≤ 82 / 1000 := by nlinarith
    norm_num
    linarith
  have a1 := rpow_le_rpow_of_exponent_ge (div_pos d2 d1) d3 (show 1 / 2 * ecc84 ≤ 1 / 16 by linarith)
  refine le_trans ?_ a1
  have a2 := rpow_le_rpow (by positivity) d4 (show (0 : ℝ) ≤ 1 / 16 by norm_num)
  refine le_trans (le_of_eq ?_) a2
  rw [← rpow_natCast, ← rpow_mul (by norm_num)]
  norm_num

/-- between 40 N and 60 N the radius is at most 7420 km times the cosine of the latitude -/
theorem radius_cos (format : Int) {n : ℝ} (h1 : 40 ≤ n) (h2 : n ≤ 60) : radius format n ≤ 7420 * cos (rads n) := by
  have hpi := pi_pos
  have hm := rads_mem (by linarith : -90 < n) (by linarith : n < 90)
  have h0 : 0 ≤ rads n := mul_nonneg (by linarith) (by positivity)
  have m1 : sin (rads 40) ≤ sin (rads n) := by
    apply sin_le_sin_of_le_of_le_pi_div_two <;> unfold rads <;> nlinarith
  have hs := sin40
  have hc : 0 < cos (rads n) := cos_pos_of_mem_Ioo hm
  have hp : polar (rads n) ≤ 1000 / 1638 * cos (rads n) := by
    unfold polar
    rw [div_le_iff₀ (by linarith)]
    nlinarith
  unfold radius
  split
  · have hf := ellFactor_ge98 hm h0
    have : ellPolar ecc84 (rads n) ≤ 100 / 98 * (1000 / 1638 * cos (rads n)) := by
      unfold ellPolar
      rw [div_le_iff₀ (by linarith)]
      nlinarith
    norm_num
    linarith
  · have s60 : sin (rads 60) = √3 / 2 := by
      rw [show rads 60 = π / 3 by unfold rads; ring, sin_pi_div_three]
    have k2 : √3 < (173206 : ℝ) / 10 ^ 5 := by
      rw [Real.sqrt_lt' (by norm_num)]; norm_num
    norm_num at k2
    have k3 : 1 + sin (rads 60) ≤ 18661 / 10000 := by linarith
    have k4 : 0 ≤ 1 + sin (rads 60) := by linarith [neg_one_le_sin (rads 60)]
    calc 637004 / 100 * (1 + sin (rads 60)) * polar (rads n)
        ≤ 637004 / 100 * (18661 / 10000) * (1000 / 1638 * cos (rads n)) :=
          mul_le_mul (by linarith) hp (polar_pos hm).le (by norm_num)
      _ ≤ _ := by norm_num; linarith

theorem cos40 {n : ℝ} (h1 : 40 ≤ n) (h2 : n ≤ 60) : 1 / 2 ≤ cos (rads n) ∧ cos (rads n) ≤ 77005 / 100000 := by
  have hpi := pi_pos
  constructor
  · rw [← cos_pi_div_three]
    apply cos_le_cos_of_nonneg_of_le_pi
    · exact mul_nonneg (by linarith) (by positivity)
    · linarith
    · unfold rads; nlinarith
  · have m1 : sin (rads 40) ≤ sin (rads n) := by
      apply sin_le_sin_of_le_of_le_pi_div_two <;> unfold rads <;> nlinarith
    have := sin40
    have := sin_sq_add_cos_sq (rads n)
    apply le_of_sq_le_sq _ (by norm_num)
    nlinarith

/-- between 40 N and 60 N the radius changes by at most 130 km per degree -/
theorem radius_lipschitz40 (format : Int) {n m : ℝ} (hn : n ∈ Set.Icc (40 : ℝ) 60) (hm : m ∈ Set.Icc (40 : ℝ) 60) :
    |radius format n - radius format m| ≤ 130 * |n - m| := by
  have key := Convex.norm_image_sub_le_of_norm_hasDerivWithin_le (f := radius format) (s := Set.Icc (40 : ℝ) 60) (C := 130)
    (f' := fun n => radius format n * (-(1 - eccentricity format ^ 2) /
      ((1 - eccentricity format ^ 2 * sin (rads n) ^ 2) * cos (rads n)) * (π / 180)))
    (fun x hx => (radius_hasDerivAt format (by linarith [hx.1] : -90 < x) (by linarith [hx.2] : x < 90)).hasDerivWithinAt)
    (fun x hx => ?_) (convex_Icc 40 60) hm hn
  · simpa [Real.norm_eq_abs] using key
  · have r0 := radius_pos format (by linarith [hx.1] : -90 < x) (by linarith [hx.2] : x < 90)
    have r1 := radius_cos format hx.1 hx.2
    obtain ⟨c1, _⟩ := cos40 hx.1 hx.2
    obtain ⟨ec0, ec1⟩ := ecc_bounds format
    set ε := eccentricity format
    have hq : 0 < 1 - ε ^ 2 := by nlinarith
    have hs : sin (rads x) ^ 2 ≤ 1 := sin_sq_le_one _
    have hD : 1 - ε ^ 2 ≤ 1 - ε ^ 2 * sin (rads x) ^ 2 := by nlinarith [sq_nonneg ε]
    have hD0 : 0 < 1 - ε ^ 2 * sin (rads x) ^ 2 := by linarith
    have hk : (1 - ε ^ 2) / (1 - ε ^ 2 * sin (rads x) ^ 2) ≤ 1 := by
      rw [div_le_one hD0]; exact hD
    have hk0 : 0 ≤ (1 - ε ^ 2) / (1 - ε ^ 2 * sin (rads x) ^ 2) := by positivity
    have hpi : π / 180 ≤ 17454 / 10 ^ 6 := by have := pi_lt_d4; norm_num at this ⊢; linarith
    have hpi0 := pi_pos
    have hc : 0 < cos (rads x) := by linarith
    have e : radius format x * (-(1 - ε ^ 2) / ((1 - ε ^ 2 * sin (rads x) ^ 2) * cos (rads x)) * (π / 180)) =
        -(radius format x / cos (rads x) * ((1 - ε ^ 2) / (1 - ε ^ 2 * sin (rads x) ^ 2)) * (π / 180)) := by
      field_simp
    have q1 : radius format x / cos (rads x) ≤ 7420 := by rw [div_le_iff₀ hc]; exact r1
    have q0 : 0 ≤ radius format x / cos (rads x) := by positivity
    rw [Real.norm_eq_abs, e, abs_neg, abs_of_nonneg (by positivity)]
    calc _ ≤ 7420 * 1 * (17454 / 10 ^ 6) :=
          mul_le_mul (mul_le_mul q1 hk hk0 (by norm_num)) hpi (by positivity) (by norm_num)
      _ ≤ 130 := by norm_num

/-- places between 40 N and 60 N: 130 km on the picture per degree of latitude, 100 km per degree of longitude -/
theorem km_lipschitz {format dx dy : Int} {b : Int × Int} (h : HasGrid format dx dy b) {n m e f : ℝ}
    (hn : n ∈ Set.Icc (40 : ℝ) 60) (hm : m ∈ Set.Icc (40 : ℝ) 60) :
    |(kmBetween format dx dy n e m f).1| ≤ 130 * |m - n| + 100 * |f - e| ∧
    |(kmBetween format dx dy n e m f).2| ≤ 130 * |m - n| + 100 * |f - e| := by
  rw [kmBetween_eq h, planeXY_real format (north := n) (by linarith [hn.1]) (by linarith [hn.2]),
    planeXY_real format (north := m) (by linarith [hm.1]) (by linarith [hm.2])]
  simp only [add_sub_add_left_eq_sub]
  have r0 := radius_pos format (by linarith [hm.1] : -90 < m) (by linarith [hm.2] : m < 90)
  have hr : |radius format m| ≤ 5714 := by
    rw [abs_of_pos r0]
    linarith [radius_cos format hm.1 hm.2, (cos40 hm.1 hm.2).2]
  have hl := radius_lipschitz40 format hm hn
  have hrad : |rads (f - 10) - rads (e - 10)| ≤ 1746 / 10 ^ 5 * |f - e| := by
    unfold rads
    rw [← sub_mul, abs_mul, abs_of_pos (by have := pi_pos; positivity : 0 < π / 180), mul_comm,
      show f - 10 - (e - 10) = f - e by ring]
    refine mul_le_mul_of_nonneg_right ?_ (abs_nonneg _)
    have := pi_lt_d4; norm_num at this ⊢; linarith
  have hsin := abs_sin_sub_sin_le (rads (f - 10)) (rads (e - 10))
  have hcos := abs_cos_sub_cos_le (rads (f - 10)) (rads (e - 10))
  have a1 := product_lipschitz (b := radius format n) (s := sin (rads (f - 10))) hr (abs_sin_le_one (rads (e - 10)))
  have a2 := product_lipschitz (b := radius format n) (s := cos (rads (f - 10))) hr (abs_cos_le_one (rads (e - 10)))
  have p := abs_nonneg (f - e)
  have b1 := mul_le_mul_of_nonneg_left (hsin.trans hrad) (show (0 : ℝ) ≤ 5714 by norm_num)
  have b2 := mul_le_mul_of_nonneg_left (hcos.trans hrad) (show (0 : ℝ) ≤ 5714 by norm_num)
  have b3 : 5714 * (1746 / 10 ^ 5 * |f - e|) ≤ 100 * |f - e| := by
    rw [← mul_assoc]
    exact mul_le_mul_of_nonneg_right (by norm_num) p
  constructor <;> linarith

/-- C91. Nearby places are shown nearby, on every grid and for both earth models: between 40 N and 60 N a program that
moves by `a` degrees of latitude and `b` degrees of longitude moves by at most `130 a + 100 b` kilometres along each axis
of the picture (up to 5 millimetres of rounding). -/
theorem C91_nearby {E : Env} (hM : AccurateMath E.math) {c : Composite} {b : Int × Int} (hg : HasGrid c.format c.dx c.dy b)
    (hdx : c.dx < 2 ^ 63) (hdy : c.dy < 2 ^ 63) {n e n' e' : F64} (hp : OnMap n e) (hp' : OnMap n' e')
    (h0 : 40 ≤ n.val ∧ n.val ≤ 60) (h0' : 40 ≤ n'.val ∧ n'.val ≤ 60) {rx ry x y x' y' : F64}
    (hrx : Observable (permittedCalib E c).rx rx) (hry : Observable (permittedCalib E c).ry ry)
    (hx : Observable (permittedProject E c n e).1 x) (hy : Observable (permittedProject E c n e).2 y)
    (hx' : Observable (permittedProject E c n' e').1 x') (hy' : Observable (permittedProject E c n' e').2 y') :
    |((x'.val : ℝ) - x.val) * rx.val| ≤ 130 * |(n'.val : ℝ) - n.val| + 100 * |(e'.val : ℝ) - e.val| + 5 / 10 ^ 6 ∧
    |((y'.val : ℝ) - y.val) * ry.val| ≤ 130 * |(n'.val : ℝ) - n.val| + 100 * |(e'.val : ℝ) - e.val| + 5 / 10 ^ 6 := by
  obtain ⟨a1, a2⟩ := displacement hM hg hdx hdy hp hp' ⟨by linarith [h0.1], by linarith [h0.2]⟩
    ⟨by linarith [h0'.1], by linarith [h0'.2]⟩ hrx hry hx hy hx' hy'
  have z1 : (40 : ℝ) ≤ n.val := by exact_mod_cast h0.1
  have z2 : (n.val : ℝ) ≤ 60 := by exact_mod_cast h0.2
  have z3 : (40 : ℝ) ≤ n'.val := by exact_mod_cast h0'.1
  have z4 : (n'.val : ℝ) ≤ 60 := by exact_mod_cast h0'.2
  obtain ⟨b1, b2⟩ := km_lipschitz hg (e := (e.val : ℝ)) (f := (e'.val : ℝ)) ⟨z1, z2⟩ ⟨z3, z4⟩
  constructor
  · have := abs_sub_abs_le_abs_sub (((x'.val : ℝ) - x.val) * rx.val) (kmBetween c.format c.dx c.dy n.val e.val n'.val e'.val).1
    linarith
  · have := abs_sub_abs_le_abs_sub (((y'.val : ℝ) - y.val) * ry.val) (kmBetween c.format c.dx c.dy n.val e.val n'.val e'.val).2
    linarith

/-- The hypotheses are met, by places whose distance is not trivial: 55 N 10 E and 45 N 10 E on a picture of 900 x 900
pixels, with the pixel coordinates and the pixel size of a program that rounds every operation. -/
example : ∃ c : Composite, ∃ rx ry x y x' y' : F64, HasGrid c.format c.dx c.dy (225, 225) ∧ c.format < 5 ∧
    rx = c.rx ∧ ry = c.ry ∧ (x, y) = c.Project envExact (Fl.lit f64 55) (Fl.lit f64 10) ∧
    (x', y') = c.Project envExact (Fl.lit f64 45) (Fl.lit f64 10) ∧
    √(chordSq (Fl.lit f64 55).val (Fl.lit f64 10).val (Fl.lit f64 45).val (Fl.lit f64 10).val) - 1 / 10 ^ 5 ≤ kmApart rx ry x y x' y' ∧
    kmApart rx ry x y x' y' ≤
      114 / 100 * √(chordSq (Fl.lit f64 55).val (Fl.lit f64 10).val (Fl.lit f64 45).val (Fl.lit f64 10).val) + 1 / 10 ^ 5 := by
  have hg : HasGrid (NewDummy envExact [] 3 900 900).format (NewDummy envExact [] 3 900 900).dx
      (NewDummy envExact [] 3 900 900).dy (225, 225) := ⟨by decide, ⟨2, rfl, rfl⟩, Or.inl (by decide)⟩
  have r := Ready.dummy (E := envExact) [] 3 900 900
  have o1 : OnMap (Fl.lit f64 55) (Fl.lit f64 10) := by unfold OnMap; decide +kernel
  have o2 : OnMap (Fl.lit f64 45) (Fl.lit f64 10) := by unfold OnMap; decide +kernel
  obtain ⟨a1, a2, a3, a4⟩ := C67_separate_rounding r (Fl.lit f64 55) (Fl.lit f64 10)
  obtain ⟨_, _, a5, a6⟩ := C67_separate_rounding r (Fl.lit f64 45) (Fl.lit f64 10)
  exact ⟨_, _, _, _, _, _, _, hg, by decide, rfl, rfl, rfl, rfl,
    C91_stretch exactMath_accurate hg (by decide) (by decide) (by decide) o1 o2 (by decide +kernel) (by decide +kernel) a1 a2 a3 a4 a5 a6⟩

/-- C91_nearby, for the ellipsoid of format version 5. -/
example : ∃ c : Composite, ∃ x y x' y' : F64, HasGrid c.format c.dx c.dy (275, 300) ∧ c.format = 5 ∧
    (x, y) = c.Project envExact (Fl.lit f64 50) (Fl.lit f64 10) ∧ (x', y') = c.Project envExact (Fl.lit f64 50) (Fl.lit f64 11) ∧
    |((x'.val : ℝ) - x.val) * c.rx.val| ≤ 130 * |((Fl.lit f64 50).val : ℝ) - (Fl.lit f64 50).val| +
      100 * |((Fl.lit f64 11).val : ℝ) - (Fl.lit f64 10).val| + 5 / 10 ^ 6 := by
  have hg : HasGrid (NewDummy envExact [] 5 1100 1200).format (NewDummy envExact [] 5 1100 1200).dx
      (NewDummy envExact [] 5 1100 1200).dy (275, 300) := ⟨by decide, ⟨2, rfl, rfl⟩, Or.inr rfl⟩
  have r := Ready.dummy (E := envExact) [] 5 1100 1200
  have o1 : OnMap (Fl.lit f64 50) (Fl.lit f64 10) := by unfold OnMap; decide +kernel
  have o2 : OnMap (Fl.lit f64 50) (Fl.lit f64 11) := by unfold OnMap; decide +kernel
  obtain ⟨a1, a2, a3, a4⟩ := C67_separate_rounding r (Fl.lit f64 50) (Fl.lit f64 10)
  obtain ⟨_, _, a5, a6⟩ := C67_separate_rounding r (Fl.lit f64 50) (Fl.lit f64 11)
  exact ⟨_, _, _, _, _, hg, by decide, rfl, rfl,
    (C91_nearby exactMath_accurate hg (by decide) (by decide) o1 o2 (by decide +kernel) (by decide +kernel) a1 a2 a3 a4 a5 a6).1⟩

end Props
