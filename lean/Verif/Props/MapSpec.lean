/-
C92: the map is the documented polar stereographic projection.
-/
import Verif.Spec.Stereographic
import Verif.Props.MapLines
import Verif.Props.Conformal
import Verif.Props.Fusion

namespace Props
open Go Radolan Spec Spec.Fusion Real

theorem deg_eq (d : ℝ) : Map.deg d = rads d := rfl

theorem ecc_eq : Map.ecc = ecc84 := by unfold Map.ecc ecc84; norm_num

theorem half_eq {n : ℝ} (h1 : -90 < n) (h2 : n ≤ 90) : Map.half n = ellPolar ecc84 (rads n) := by
  unfold Map.half ellPolar ellFactor
  rw [ecc_eq, deg_eq, show π / 4 - rads n / 2 = 1 / 2 * (π / 2 - rads n) by ring, show ecc84 / 2 = 1 / 2 * ecc84 by ring]
  congr 1
  rcases lt_or_eq_of_le h2 with h | rfl
  · exact tan_half (rads_mem h1 h)
  · rw [show rads 90 = π / 2 by unfold rads; ring]
    unfold polar
    simp

/-- factor between the documented map and the constants of the code: exactly 1 on the sphere -/
noncomputable def mapFactor (format : Int) : ℝ :=
  if 5 ≤ format then 6378.137 * (cos (rads 60) / √(1 - ecc84 ^ 2 * sin (rads 60) ^ 2)) / radius format 60 else 1

theorem ecc_w : 0 < 1 - ecc84 ^ 2 * sin (rads 60) ^ 2 := by
  have : sin (rads 60) ^ 2 ≤ 1 := sin_sq_le_one _
  have e0 : ecc84 ^ 2 ≤ 1 / 2 := by unfold ecc84; norm_num
  nlinarith [sq_nonneg ecc84]

theorem mapFactor_pos (format : Int) : 0 < mapFactor format := by
  unfold mapFactor
  split
  · have r := radius_pos format (by norm_num : (-90 : ℝ) < 60) (by norm_num)
    have c : 0 < cos (rads 60) := cos_pos_of_mem_Ioo (rads_mem (by norm_num) (by norm_num))
    have w := sqrt_pos.mpr ecc_w
    positivity
  · norm_num

theorem rho_eq (format : Int) {n : ℝ} (h1 : -90 < n) (h2 : n ≤ 90) :
    (if decide (5 ≤ format) then Map.rhoEllipsoid n else Map.rhoSphere n) = mapFactor format * radius format n := by
  have h60 : ellPolar ecc84 (rads 60) ≠ 0 :=
    (ellPolar_pos (e := ecc84) (by unfold ecc84; norm_num) (by unfold ecc84; norm_num)
      (rads_mem (by norm_num : (-90 : ℝ) < 60) (by norm_num))).ne'
  unfold mapFactor
  by_cases h : 5 ≤ format
  · simp only [h, decide_true, if_true]
    unfold Map.rhoEllipsoid
    rw [half_eq h1 h2, half_eq (by norm_num) (by norm_num), deg_eq, ecc_eq]
    unfold radius
    rw [if_pos h, if_pos h]
    have w := (sqrt_pos.mpr ecc_w).ne'
    field_simp
  · simp only [h, decide_false, Bool.false_eq_true, if_false, one_mul]
    unfold Map.rhoSphere radius polar
    rw [if_neg h, deg_eq, deg_eq]
    norm_num
    ring

theorem plane_eq (format : Int) {n : ℝ} (h1 : -90 < n) (h2 : n ≤ 90) (e : ℝ) :
    Map.plane (decide (5 ≤ format)) n e =
      (mapFactor format * ((planeXY realArith format n e).1 - (pole format).1),
       mapFactor format * ((planeXY realArith format n e).2 - (pole format).2)) := by
  unfold Map.plane
  rw [rho_eq format h1 h2, planeXY_polar format h1 h2]
  ext
  · simp only [deg_eq]; ring
  · simp only [deg_eq]; ring

theorem corner_lat {b : Int × Int} {format : Int} {ot ol eb er : ℚ} (hc : corners b format = some (ot, ol, eb, er)) :
    -90 < (ot : ℝ) ∧ (ot : ℝ) ≤ 90 ∧ -90 < (eb : ℝ) ∧ (eb : ℝ) ≤ 90 := by
  obtain ⟨f1, f2, f3, _⟩ := corners_facts hc
  have g1 : (-90 : ℝ) < eb := by exact_mod_cast f1
  have g2 : (eb : ℝ) < ot := by exact_mod_cast f2
  have g3 : (ot : ℝ) < 90 := by exact_mod_cast f3
  exact ⟨by linarith, by linarith, by linarith, by linarith⟩

/-- C92. What the projection of a composite computes, without rounding, is the documented map: the pixel coordinates are the
position on the polar stereographic map relative to the corners of the grid. -/
theorem C92_exact {format dx dy : Int} {b : Int × Int} (h : HasGrid format dx dy b) {ot ol eb er : ℚ}
    (hc : corners b format = some (ot, ol, eb, er)) {n : ℝ} (h1 : -90 < n) (h2 : n ≤ 90) (e : ℝ) :
    realProject format dx dy n e = Map.pixel (decide (5 ≤ format)) ot ol eb er dx dy n e := by
  obtain ⟨e1, e2, e3⟩ := realCalib_eq h hc
  obtain ⟨p1, p2⟩ := C37_resolution_positive h
  obtain ⟨q1, q2⟩ := hasGrid_pos h
  have g1 : (0 : ℝ) < dx := by exact_mod_cast q1
  have g2 : (0 : ℝ) < dy := by exact_mod_cast q2
  obtain ⟨o1, o2, o3, o4⟩ := corner_lat hc
  have k := (mapFactor_pos format).ne'
  unfold Map.pixel
  rw [e3, plane_eq format h1 h2, plane_eq format o1 o2, plane_eq format o3 o4, e1, e2]
  rw [e1] at p1
  rw [e2] at p2
  have d1 := (div_pos_iff_of_pos_right g1).mp p1
  have d2 := (div_pos_iff_of_pos_right g2).mp p2
  simp only [← mul_sub, sub_sub_sub_cancel_right]
  ext
  · simp only; rw [mul_div_mul_left _ _ k]; field_simp
  · simp only; rw [mul_div_mul_left _ _ k]; field_simp

/-- C92. The pixel coordinates a program gets from Project are those of the documented map, to a billionth of the picture,
whatever operations the compiler fuses. -/
theorem C92_project {E : Env} (hM : AccurateMath E.math) {c : Composite} {b : Int × Int}
    (hg : HasGrid c.format c.dx c.dy b) (hdx : c.dx < 2 ^ 63) (hdy : c.dy < 2 ^ 63) {ot ol eb er : ℚ}
    (hc : corners b c.format = some (ot, ol, eb, er)) {north east : F64} (hp : OnMap north east) {x y : F64}
    (hx : Observable (permittedProject E c north east).1 x) (hy : Observable (permittedProject E c north east).2 y) :
    let r := Map.pixel (decide (5 ≤ c.format)) ot ol eb er c.dx c.dy north.val east.val
    x.isFin = true ∧ |(x.val : ℝ) - r.1| ≤ c.dx / 10 ^ 9 ∧ y.isFin = true ∧ |(y.val : ℝ) - r.2| ≤ c.dy / 10 ^ 9 := by
  intro r
  obtain ⟨o1, o2⟩ := C67_project hM hg hdx hdy hp
  obtain ⟨_, h2, h3, _⟩ := id hp
  have z1 : -90 < (north.val : ℝ) := by
    have : (-45 : ℝ) ≤ north.val := by exact_mod_cast h2
    linarith
  have z2 : (north.val : ℝ) ≤ 90 := by exact_mod_cast h3
  have hr : realProject c.format c.dx c.dy north.val east.val = r := C92_exact hg hc z1 z2 _
  rw [hr] at o1 o2
  exact ⟨(o1 x hx).1, (o1 x hx).2, (o2 y hy).1, (o2 y hy).2⟩

/-- C92, for a program that rounds every operation: every parsed composite and every dummy. -/
theorem C92_project_rounded {E : Env} (hM : AccurateMath E.math) {c : Composite} (h : Ready E c) {b : Int × Int}
    (hg : HasGrid c.format c.dx c.dy b) (hdx : c.dx < 2 ^ 63) (hdy : c.dy < 2 ^ 63) {ot ol eb er : ℚ}
    (hc : corners b c.format = some (ot, ol, eb, er)) {north east : F64} (hp : OnMap north east) :
    let q := c.Project E north east
    let r := Map.pixel (decide (5 ≤ c.format)) ot ol eb er c.dx c.dy north.val east.val
    q.1.isFin = true ∧ |(q.1.val : ℝ) - r.1| ≤ c.dx / 10 ^ 9 ∧ q.2.isFin = true ∧ |(q.2.val : ℝ) - r.2| ≤ c.dy / 10 ^ 9 := by
  obtain ⟨_, _, a1, a2⟩ := C67_separate_rounding h north east
  exact C92_project hM hg hdx hdy hc hp a1 a2

/-- the scale constant in the code is that of the ellipsoid, to one part in 10^9 -/
theorem mapFactor_close {format dx dy : Int} {b : Int × Int} (h : HasGrid format dx dy b) : |1 / mapFactor format - 1| ≤ 1 / 10 ^ 9 := by
  by_cases hf : 5 ≤ format
  · obtain ⟨xe, ye, d1, d2, d3⟩ := C53_scale_wgs84 h hf (e := 0)
    obtain ⟨xe', ye', f1, f2, f3⟩ := east_scale h (e := 0) (by norm_num : (-90 : ℝ) < 60) (by norm_num)
    have he : eccentricity format = ecc84 := by unfold eccentricity ecc84; rw [if_pos hf]; norm_num
    rw [d1.unique f1, d2.unique f2, f3, he] at d3
    have e : radius format 60 * (π / 180) / (6378.137 / √(1 - ecc84 ^ 2 * sin (rads 60) ^ 2) * cos (rads 60) * (π / 180)) =
        1 / mapFactor format := by
      unfold mapFactor
      rw [if_pos hf]
      have w := (sqrt_pos.mpr ecc_w).ne'
      have c : cos (rads 60) ≠ 0 := (cos_pos_of_mem_Ioo (rads_mem (by norm_num) (by norm_num))).ne'
      have p := pi_pos.ne'
      field_simp
    rwa [e] at d3
  · unfold mapFactor
    rw [if_neg hf]
    norm_num

/-- C92. The pixel size a program reads is the extent of the grid on the documented map divided by the number of pixels,
to two parts in 10^9. -/
theorem C92_resolution {E : Env} (hM : AccurateMath E.math) {c : Composite} {b : Int × Int}
    (hg : HasGrid c.format c.dx c.dy b) (hdx : c.dx < 2 ^ 63) (hdy : c.dy < 2 ^ 63) {ot ol eb er : ℚ}
    (hc : corners b c.format = some (ot, ol, eb, er)) {rx ry : F64}
    (hrx : Observable (permittedCalib E c).rx rx) (hry : Observable (permittedCalib E c).ry ry) :
    let o := Map.plane (decide (5 ≤ c.format)) ot ol
    let q := Map.plane (decide (5 ≤ c.format)) eb er
    |(rx.val : ℝ) - (q.1 - o.1) / c.dx| ≤ 2 / 10 ^ 9 * ((q.1 - o.1) / c.dx) ∧
    |(ry.val : ℝ) - (q.2 - o.2) / c.dy| ≤ 2 / 10 ^ 9 * ((q.2 - o.2) / c.dy) := by
  intro o q
  obtain ⟨c1, c2⟩ := C67_resolution hM hg hdx hdy
  obtain ⟨e1, e2, _⟩ := realCalib_eq hg hc
  obtain ⟨p1, p2⟩ := C37_resolution_positive hg
  obtain ⟨o1, o2, o3, o4⟩ := corner_lat hc
  have k := mapFactor_pos c.format
  have kc := mapFactor_close hg
  have a1 : (q.1 - o.1) / c.dx = mapFactor c.format * (realCalib c.format c.dx c.dy).rx := by
    show ((Map.plane _ _ _).1 - (Map.plane _ _ _).1) / _ = _
    rw [plane_eq c.format o1 o2, plane_eq c.format o3 o4, e1]
    ring
  have a2 : (q.2 - o.2) / c.dy = mapFactor c.format * (realCalib c.format c.dx c.dy).ry := by
    show ((Map.plane _ _ _).2 - (Map.plane _ _ _).2) / _ = _
    rw [plane_eq c.format o1 o2, plane_eq c.format o3 o4, e2]
    ring
  have key : ∀ {r s K : ℝ}, 0 < r → 0 < K → |1 / K - 1| ≤ 1 / 10 ^ 9 → |s - r| ≤ 5 / 10 ^ 12 * r → |s - K * r| ≤ 2 / 10 ^ 9 * (K * r) := by
    intro r s K hr hK h1 h2
    have h3 : |1 - K| ≤ 1 / 10 ^ 9 * K := by
      have : 1 - K = (1 / K - 1) * K := by field_simp
      rw [this, abs_mul, abs_of_pos hK]
      exact mul_le_mul_of_nonneg_right h1 hK.le
    have h4 : |r - K * r| ≤ 1 / 10 ^ 9 * (K * r) := by
      have : r - K * r = (1 - K) * r := by ring
      rw [this, abs_mul, abs_of_pos hr, ← mul_assoc]
      exact mul_le_mul_of_nonneg_right h3 hr.le
    have h5 : r ≤ 2 * (K * r) := by
      have := (abs_le.mp h4).2
      norm_num at this
      have : 0 < K * r := by positivity
      linarith
    have := abs_sub_le s r (K * r)
    norm_num at h2 h4 ⊢
    linarith
  rw [a1, a2]
  exact ⟨key p1 k kc (c1 rx hrx).2, key p2 k kc (c2 ry hry).2⟩

/-- The eccentricity above is that of the semi-axes of WGS84, 6378137 m and 6356752.3142451802 m. -/
theorem C92_eccentricity : |Map.ecc ^ 2 - (1 - (6356752.3142451802 / 6378137) ^ 2)| ≤ 1 / 10 ^ 15 := by
  unfold Map.ecc
  rw [abs_le]
  constructor <;> norm_num

/-- The hypotheses are met: 50.5 N 12 E on the ellipsoidal grid of format version 5, 1100 x 1200 pixels. -/
example : let c := NewDummy envExact [] 5 1100 1200
    let q := c.Project envExact (Fl.lit f64 50.5) (Fl.lit f64 12)
    let r := Map.pixel true (55.86208711 : ℚ) (1.463301510 : ℚ) (45.68460578 : ℚ) (16.58086935 : ℚ) (1100 : Int) (1200 : Int)
      (Fl.lit f64 50.5).val (Fl.lit f64 12).val
    q.1.isFin = true ∧ |(q.1.val : ℝ) - r.1| ≤ (1100 : Int) / 10 ^ 9 ∧ q.2.isFin = true ∧ |(q.2.val : ℝ) - r.2| ≤ (1200 : Int) / 10 ^ 9 := by
  intro c q r
  have hg : HasGrid c.format c.dx c.dy (275, 300) := ⟨by decide, ⟨2, rfl, rfl⟩, Or.inr rfl⟩
  have hc : corners (275, 300) c.format = some (55.86208711, 1.463301510, 45.68460578, 16.58086935) := by
    show corners (275, 300) 5 = _
    unfold corners
    rfl
  have o : OnMap (Fl.lit f64 50.5) (Fl.lit f64 12) := by unfold OnMap; decide +kernel
  exact C92_project_rounded exactMath_accurate (Ready.dummy [] 5 1100 1200) hg (by decide) (by decide) hc o

/-- and on a spherical grid: the pixel size of the 900 x 900 km grid -/
example : let c := NewDummy envExact [] 3 900 900
    let o := Map.plane false (54.5877 : ℚ) (2.0715 : ℚ)
    let q := Map.plane false (47.0705 : ℚ) (14.6209 : ℚ)
    |(c.rx.val : ℝ) - (q.1 - o.1) / (900 : Int)| ≤ 2 / 10 ^ 9 * ((q.1 - o.1) / (900 : Int)) := by
  intro c o q
  have hg : HasGrid c.format c.dx c.dy (225, 225) := ⟨by decide, ⟨2, rfl, rfl⟩, Or.inl (by decide)⟩
  have hc : corners (225, 225) c.format = some (54.5877, 2.0715, 47.0705, 14.6209) := rfl
  obtain ⟨a1, a2, _⟩ := C67_separate_rounding (Ready.dummy (E := envExact) [] 3 900 900) .nan .nan
  exact (C92_resolution exactMath_accurate hg (by decide) (by decide) hc a1 a2).1

end Props
