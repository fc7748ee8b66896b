/-
C89: meridians, parallels and the pole on the picture.
-/
import Verif.Props.FloatProjection
import Verif.Props.Plane

namespace Props
open Go Radolan Spec Real

theorem radius_pole (format : Int) : radius format 90 = 0 := by
  have h : rads 90 = π / 2 := by unfold rads; ring
  unfold radius ellPolar polar
  rw [h, cos_pi_div_two]
  split <;> simp

/-- the pole has one image, whatever the longitude -/
theorem planeXY_pole (format : Int) (east : ℝ) : planeXY realArith format 90 east = pole format := by
  unfold planeXY pole
  split
  · have hhalf : (((1 / 2 : ℚ)) : ℝ) * (π * ((1 / 2 : ℚ) : ℝ) - 90 * (π * ((2 / 360 : ℚ) : ℝ))) = 0 := by push_cast; ring
    simp only [wgs84XY, projDE1200, realArith, degToRad, hhalf, tan_zero, mul_zero, zero_div, zero_mul, add_zero, sub_zero]
    ext
    · simp only [Rat.mkRat_eq_div]; push_cast; ring
    · simp only [Rat.mkRat_eq_div]; push_cast; ring
  · have hlat : (90 : ℝ) * (π * ((1 / 180 : ℚ) : ℝ)) = π / 2 := by push_cast; ring
    simp only [sphereXY, realArith, rad, earthRadius, junctionEast, junctionNorth, hlat, cos_pi_div_two, mul_zero, zero_mul]

/-- plane coordinates around the pole, the pole included -/
theorem planeXY_polar (format : Int) {north : ℝ} (h1 : -90 < north) (h2 : north ≤ 90) (east : ℝ) :
    planeXY realArith format north east =
      ((pole format).1 + radius format north * sin (rads (east - 10)),
       (pole format).2 + radius format north * cos (rads (east - 10))) := by
  rcases lt_or_eq_of_le h2 with h | rfl
  · exact planeXY_real format h1 h east
  · rw [planeXY_pole, radius_pole]; simp

/-- distances from the pole on the map: a positive function of the latitude, zero at the pole only, falling northwards -/
structure Polar (r : ℝ → ℝ) : Prop where
  pole : r 90 = 0
  falls : ∀ n n' : ℝ, -90 < n → n < n' → n' ≤ 90 → r n' < r n

theorem radius_polar (format : Int) : Polar (radius format) where
  pole := radius_pole format
  falls := by
    intro n n' h1 h h2
    rcases lt_or_eq_of_le h2 with h2 | rfl
    · exact radius_anti format h1 h h2
    · rw [radius_pole]; exact radius_pos format h1 h

/-- 10° E passes between the corners -/
theorem meridian_inside {format : Int} {b : Int × Int} {ot ol eb er : ℚ} (hc : corners b format = some (ot, ol, eb, er)) :
    (planeXY realArith format ot ol).1 < (pole format).1 ∧ (pole format).1 < (planeXY realArith format eb er).1 := by
  obtain ⟨f1, f2, f3, f4, f5, f6, f7, f8⟩ := corners_facts hc
  have g1 : (-90 : ℝ) < eb := by exact_mod_cast f1
  have g2 : (eb : ℝ) < ot := by exact_mod_cast f2
  have g3 : (ot : ℝ) < 90 := by exact_mod_cast f3
  have g4 : (-80 : ℝ) < ol := by exact_mod_cast f4
  have g5 : (ol : ℝ) < 10 := by exact_mod_cast f5
  have g6 : (10 : ℝ) < er := by exact_mod_cast f6
  have g7 : (er : ℝ) < 100 := by exact_mod_cast f7
  have hpi := pi_pos
  rw [planeXY_real format (by linarith) g3, planeXY_real format g1 (by linarith)]
  have r1 := radius_pos format (by linarith : (-90 : ℝ) < ot) g3
  have r2 := radius_pos format g1 (by linarith : (eb : ℝ) < 90)
  have s1 : sin (rads ((ol : ℝ) - 10)) < 0 := by
    have := sin_pos_of_pos_of_lt_pi (x := rads (10 - ol)) (by unfold rads; apply mul_pos <;> linarith)
      (by unfold rads; nlinarith)
    have e : rads ((ol : ℝ) - 10) = -rads (10 - ol) := by unfold rads; ring
    rw [e, sin_neg]; linarith
  have s2 : 0 < sin (rads ((er : ℝ) - 10)) :=
    sin_pos_of_pos_of_lt_pi (by unfold rads; apply mul_pos <;> linarith) (by unfold rads; nlinarith)
  constructor
  · simp only; linarith [mul_neg_of_pos_of_neg r1 s1]
  · simp only; linarith [mul_pos r2 s2]

/-- C89. On the picture the point at latitude n and longitude e lies, seen from the place of the pole, in the direction e - 10°
(clockwise seen from below, that is: counted from the bottom to the right), at a distance that depends on the latitude only: meridians are
straight lines from the pole, parallels are circles around it (in kilometres, a pixel being sx wide and sy high). The pole
lies above the picture, the meridian 10° E crosses it. -/
theorem C89_polar_form {E : Env} (hM : AccurateMath E.math) {c : Composite} (h : Ready E c) {b : Int × Int}
    (hg : HasGrid c.format c.dx c.dy b) (hdx : c.dx < 2 ^ 63) (hdy : c.dy < 2 ^ 63) :
    ∃ (px py sx sy : ℝ) (r : ℝ → ℝ), Polar r ∧ 0 < px ∧ px < c.dx ∧ py < 0 ∧
      |sx - (extentKm b).1 / c.dx| ≤ (extentKm b).1 / c.dx / 10 ^ 5 ∧
      |sy - (extentKm b).2 / c.dy| ≤ (extentKm b).2 / c.dy / 10 ^ 5 ∧
      ∀ north east : F64, OnMap north east →
        let q := c.Project E north east
        q.1.isFin = true ∧ |(q.1.val : ℝ) - (px + r north.val * sin ((east.val - 10) * (π / 180)) / sx)| ≤ c.dx / 10 ^ 9 ∧
        q.2.isFin = true ∧ |(q.2.val : ℝ) - (py + r north.val * cos ((east.val - 10) * (π / 180)) / sy)| ≤ c.dy / 10 ^ 9 := by
  obtain ⟨ot, ol, eb, er, hc⟩ := corners_isSome hg
  obtain ⟨e1, e2, e3⟩ := realCalib_eq hg hc
  obtain ⟨n1, n2⟩ := C52_nominal_resolution hg
  set sx := (realCalib c.format c.dx c.dy).rx with hsx
  set sy := (realCalib c.format c.dx c.dy).ry with hsy
  obtain ⟨s1, s2⟩ := C37_resolution_positive hg
  rw [← hsx] at s1
  rw [← hsy] at s2
  have d0 : (0 : ℝ) < c.dx := by exact_mod_cast (hasGrid_pos hg).1
  obtain ⟨o1, o2⟩ := meridian_inside hc
  refine ⟨((pole c.format).1 - (planeXY realArith c.format ot ol).1) / sx,
    ((pole c.format).2 - (planeXY realArith c.format ot ol).2) / sy, sx, sy, radius c.format, radius_polar _, ?_, ?_, ?_, n1, n2, ?_⟩
  · exact div_pos (by linarith) s1
  · rw [div_lt_iff₀ s1, e1, mul_div_cancel₀ _ d0.ne']
    linarith
  · exact div_neg_of_neg_of_pos (by linarith [origin_below_pole hg hc]) s2
  intro north east hp q
  obtain ⟨p1, p2, p3, p4⟩ := C54_project hM h hg hdx hdy hp
  obtain ⟨_, hn1, hn2, _, _⟩ := hp
  have hn1' : (-90 : ℝ) < north.val := by
    have : ((-45 : ℚ) : ℝ) ≤ north.val := by exact_mod_cast hn1
    push_cast at this; linarith
  have hn2' : (north.val : ℝ) ≤ 90 := by exact_mod_cast hn2
  rw [e3, planeXY_polar c.format hn1' hn2'] at p2 p4
  refine ⟨p1, ?_, p3, ?_⟩
  · refine le_trans (le_of_eq ?_) p2
    congr 1
    simp only [rads]
    ring
  · refine le_trans (le_of_eq ?_) p4
    congr 1
    simp only [rads]
    ring

/-- C89. Points at the same latitude at equal distances east and west of 10° E mirror each other at a vertical line, the same for
all of them, on which the points at 10° E and the pole lie. -/
theorem C89_mirror {E : Env} (hM : AccurateMath E.math) {c : Composite} (h : Ready E c) {b : Int × Int}
    (hg : HasGrid c.format c.dx c.dy b) (hdx : c.dx < 2 ^ 63) (hdy : c.dy < 2 ^ 63) :
    ∃ px : ℝ, ∀ north east east' : F64, OnMap north east → OnMap north east' → east.val + east'.val = 20 →
      |((c.Project E north east).2.val : ℝ) - (c.Project E north east').2.val| ≤ 2 * c.dy / 10 ^ 9 ∧
      |((c.Project E north east).1.val + (c.Project E north east').1.val : ℝ) / 2 - px| ≤ c.dx / 10 ^ 9 := by
  obtain ⟨px, py, sx, sy, r, _, _, _, _, _, _, hq⟩ := C89_polar_form hM h hg hdx hdy
  refine ⟨px, fun north east east' h1 h2 hs => ?_⟩
  obtain ⟨_, a1, _, a2⟩ := hq north east h1
  obtain ⟨_, b1, _, b2⟩ := hq north east' h2
  have hs' : (east'.val : ℝ) - 10 = -(east.val - 10) := by
    have : (east.val : ℝ) + east'.val = 20 := by exact_mod_cast hs
    linarith
  rw [hs', neg_mul, sin_neg] at b1
  rw [hs', neg_mul, cos_neg] at b2
  rw [mul_neg, neg_div] at b1
  set S := r north.val * sin ((east.val - 10) * (π / 180)) / sx
  set C := r north.val * cos ((east.val - 10) * (π / 180)) / sy
  rw [abs_le] at a1 a2 b1 b2
  constructor <;> rw [abs_le] <;> constructor <;> linarith [a1.1, a1.2, a2.1, a2.2, b1.1, b1.2, b2.1, b2.2]

/-- C89. A full turn of longitude changes nothing. -/
theorem C89_turn {E : Env} (hM : AccurateMath E.math) {c : Composite} (h : Ready E c) {b : Int × Int}
    (hg : HasGrid c.format c.dx c.dy b) (hdx : c.dx < 2 ^ 63) (hdy : c.dy < 2 ^ 63) {north east east' : F64}
    (h1 : OnMap north east) (h2 : OnMap north east') (ht : east'.val = east.val + 360) :
    |((c.Project E north east).1.val : ℝ) - (c.Project E north east').1.val| ≤ 2 * c.dx / 10 ^ 9 ∧
    |((c.Project E north east).2.val : ℝ) - (c.Project E north east').2.val| ≤ 2 * c.dy / 10 ^ 9 := by
  obtain ⟨px, py, sx, sy, r, _, _, _, _, _, _, hq⟩ := C89_polar_form hM h hg hdx hdy
  obtain ⟨_, a1, _, a2⟩ := hq north east h1
  obtain ⟨_, b1, _, b2⟩ := hq north east' h2
  have hs' : ((east'.val : ℝ) - 10) * (π / 180) = (east.val - 10) * (π / 180) + 2 * π := by
    have : (east'.val : ℝ) = east.val + 360 := by exact_mod_cast ht
    rw [this]; ring
  rw [hs', sin_add_two_pi] at b1
  rw [hs', cos_add_two_pi] at b2
  rw [abs_le] at a1 a2 b1 b2
  constructor <;> rw [abs_le] <;> constructor <;> linarith [a1.1, a1.2, a2.1, a2.2, b1.1, b1.2, b2.1, b2.2]

/-- C89. The pole has one place on the picture, at whatever longitude it is given. -/
theorem C89_pole {E : Env} (hM : AccurateMath E.math) {c : Composite} (h : Ready E c) {b : Int × Int}
    (hg : HasGrid c.format c.dx c.dy b) (hdx : c.dx < 2 ^ 63) (hdy : c.dy < 2 ^ 63) {north east east' : F64}
    (h1 : OnMap north east) (h2 : OnMap north east') (hn : north.val = 90) :
    |((c.Project E north east).1.val : ℝ) - (c.Project E north east').1.val| ≤ 2 * c.dx / 10 ^ 9 ∧
    |((c.Project E north east).2.val : ℝ) - (c.Project E north east').2.val| ≤ 2 * c.dy / 10 ^ 9 := by
  obtain ⟨px, py, sx, sy, r, hr, _, _, _, _, _, hq⟩ := C89_polar_form hM h hg hdx hdy
  obtain ⟨_, a1, _, a2⟩ := hq north east h1
  obtain ⟨_, b1, _, b2⟩ := hq north east' h2
  have hn' : (north.val : ℝ) = 90 := by rw [hn]; norm_num
  rw [hn', hr.pole, zero_mul, zero_div, add_zero] at a1 a2 b1 b2
  rw [abs_le] at a1 a2 b1 b2
  constructor <;> rw [abs_le] <;> constructor <;> linarith [a1.1, a1.2, a2.1, a2.2, b1.1, b1.2, b2.1, b2.2]

/-- 51° N 5° E and 51° N 15° E lie on the same line of the picture of a national composite -/
example : let c := NewDummy envExact (str "RW") 3 900 900
    |((c.Project envExact (Fl.lit f64 51) (Fl.lit f64 5)).2.val : ℝ) -
      (c.Project envExact (Fl.lit f64 51) (Fl.lit f64 15)).2.val| ≤ 2 * 900 / 10 ^ 9 := by
  obtain ⟨px, hp⟩ := C89_mirror (E := envExact) exactMath_accurate (c := NewDummy envExact (str "RW") 3 900 900)
    (Ready.dummy (E := envExact) _ _ _ _) (b := (225, 225)) ⟨by decide, ⟨2, rfl, rfl⟩, Or.inl (show (3 : Int) < 5 by decide)⟩
    (show (900 : Int) < 2 ^ 63 by decide) (show (900 : Int) < 2 ^ 63 by decide)
  have := (hp (Fl.lit f64 51) (Fl.lit f64 5) (Fl.lit f64 15) (by unfold OnMap; decide +kernel)
    (by unfold OnMap; decide +kernel) (by decide +kernel)).1
  have hd : (NewDummy envExact (str "RW") 3 900 900).dy = 900 := rfl
  rw [hd] at this
  push_cast at this
  exact this

end Props
