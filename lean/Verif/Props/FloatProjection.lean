/-
C54: the projection as computed, in float64 with a math library of the accuracy of Spec/MathLib.lean, is the exact one
up to a billionth of the grid; C34, C35 and C36 then hold without conditions on the calibrated resolutions.
-/
import Verif.Lemmas.FloatPlane
import Verif.Props.Projection
import Verif.Props.Reference

namespace Props
open Go Radolan Spec Real Go.Fl

/-- one coordinate -/
theorem axis_ap {xe xo d : F64} {pe po : ℝ} {dx : Int} (he : Ap xe pe (2 / 10 ^ 9)) (ho : Ap xo po (2 / 10 ^ 9))
    (hD : 899 ≤ pe - po ∧ pe - po ≤ 1501) (hd : d.isFin = true ∧ d.val = (dx : ℚ)) (h1 : 1 ≤ dx) (h2 : dx < 2 ^ 63) :
    Ap (Fl.div (Fl.sub xe xo) d) ((pe - po) / dx) (42 / 10 ^ 10 / dx) ∧
    ∀ {xp : F64} {pp : ℝ}, Ap xp pp (2 / 10 ^ 9) → |pp| ≤ 65000 → |po| ≤ 65000 →
      Ap (Fl.div (Fl.sub xp xo) (Fl.div (Fl.sub xe xo) d)) ((pp - po) / ((pe - po) / dx)) (dx / 10 ^ 9) := by
  have g1 : (1 : ℝ) ≤ dx := by exact_mod_cast h1
  have g2 : (dx : ℝ) ≤ 10 ^ 19 := by
    have : dx ≤ 10 ^ 19 := by omega
    exact_mod_cast this
  have g0 : (0 : ℝ) < dx := by linarith
  have hdv : Ap d (dx : ℝ) 0 := ⟨hd.1, by rw [hd.2]; simp⟩
  have hs : Ap (Fl.sub xe xo) (pe - po) (41 / 10 ^ 10) :=
    sub_ap (M := 1502) he ho (by rw [abs_of_nonneg (by linarith)]; norm_num; linarith) (by norm_num) (by norm_num) (by norm_num)
  have hr : Ap (Fl.div (Fl.sub xe xo) d) ((pe - po) / dx) (42 / 10 ^ 10 / dx) := by
    refine div_ap (m := dx) (q := 1501 / dx) (e := 41 / 10 ^ 10 / dx) hs hdv g0 (by rw [abs_of_pos g0]; linarith) ?_ ?_ ?_ ?_ ?_
    · rw [abs_of_pos g0, div_mul_cancel₀ _ g0.ne', abs_of_nonneg (by linarith)]; exact hD.2
    · simp
    · rw [← add_div, le_div_iff₀ g0]; norm_num at g2 ⊢; linarith
    · rw [← add_div, div_le_iff₀ g0]; norm_num; linarith
    · rw [← add_div, div_mul_eq_mul_div, ← add_div]
      exact div_le_div_of_nonneg_right (by norm_num) g0.le
  refine ⟨hr, ?_⟩
  intro xp pp hp b1 b2
  have hsub : |pp - po| ≤ 130000 := (abs_sub _ _).trans (by linarith)
  have hps : Ap (Fl.sub xp xo) (pp - po) (41 / 10 ^ 10) :=
    sub_ap (M := 130001) hp ho (by norm_num; linarith) (by norm_num) (by norm_num) (by norm_num)
  have hpos : 0 < (pe - po) / dx := div_pos (by linarith) g0
  refine div_ap (m := 898 / dx) (q := 145 * dx) (e := dx * (9 / 10 ^ 10)) hps hr (by positivity) ?_ ?_ ?_ ?_ ?_ ?_
  · rw [abs_of_pos hpos, ← add_div]
    exact div_le_div_of_nonneg_right (by norm_num; linarith) g0.le
  · rw [abs_of_pos hpos, mul_assoc, mul_div_cancel₀ _ g0.ne']
    linarith
  · rw [show 145 * (dx : ℝ) * (42 / 10 ^ 10 / dx) = 145 * (42 / 10 ^ 10) by field_simp, div_div_eq_mul_div]
    rw [div_le_iff₀ (by norm_num)]
    norm_num; linarith
  · norm_num; linarith
  · norm_num at g2 ⊢; linarith
  · norm_num; linarith

/-- the domain of C54: a finite latitude between 45 S and the pole and a finite longitude within two turns -/
def OnMap (north east : F64) : Prop :=
  north.isFin = true ∧ -45 ≤ north.val ∧ north.val ≤ 90 ∧ east.isFin = true ∧ |east.val| ≤ 360

theorem OnMap.pointAp {north east : F64} (h : OnMap north east) : PointAp north east north.val east.val := by
  obtain ⟨h1, h2, h3, h4, h5⟩ := h
  refine ⟨(Ap.exact h1).mono (by norm_num), (Ap.exact h4).mono (by norm_num), ⟨?_, ?_⟩, ?_⟩
  · exact_mod_cast h2
  · exact_mod_cast h3
  · exact_mod_cast h5

theorem lit_deg {q : ℚ} (h : |q| ≤ 60) : Ap (Fl.lit f64 q) q (75 / 10 ^ 16) := by
  have h' : |(q : ℝ)| ≤ 60 := by exact_mod_cast h
  exact lit_ap (ε := 0) (M := 60) (by simp) (by linarith) (by norm_num) (by norm_num) (by norm_num)

theorem lit_pointAp {n e : ℚ} (h1 : 0 ≤ n ∧ n ≤ 60) (h2 : |e| ≤ 60) :
    PointAp (Fl.lit f64 n) (Fl.lit f64 e) n e := by
  refine ⟨lit_deg (by rw [abs_of_nonneg h1.1]; exact h1.2), lit_deg h2, ⟨?_, ?_⟩, ?_⟩
  · have : (0 : ℝ) ≤ n := by exact_mod_cast h1.1
    linarith
  · have : (n : ℝ) ≤ 60 := by exact_mod_cast h1.2
    linarith
  · have : |(e : ℝ)| ≤ 60 := by exact_mod_cast h2
    linarith

theorem corner_range {b : Int × Int} {format : Int} {ot ol eb er : ℚ} (hc : corners b format = some (ot, ol, eb, er)) :
    (0 ≤ ot ∧ ot ≤ 60) ∧ |ol| ≤ 60 ∧ (0 ≤ eb ∧ eb ≤ 60) ∧ |er| ≤ 60 := by
  unfold corners at hc
  repeat' split at hc
  all_goals first
    | (simp at hc; done)
    | (simp at hc; obtain ⟨rfl, rfl, rfl, rfl⟩ := hc; norm_num [abs_le])

theorem extent_range {b : Int × Int} (hb : b ∈ baseGrids) :
    (900 : ℝ) ≤ (extentKm b).1 ∧ ((extentKm b).1 : ℝ) ≤ 1400 ∧ (900 : ℝ) ≤ (extentKm b).2 ∧ ((extentKm b).2 : ℝ) ≤ 1500 := by
  simp only [baseGrids, List.mem_cons, List.not_mem_nil, or_false] at hb
  rcases hb with rfl | rfl | rfl | rfl | rfl <;> norm_num [extentKm]

/-- the calibrated resolution and the projected point, for float inputs standing for the point (n, e) -/
theorem float_projection {E : Env} (hM : AccurateMath E.math) {c : Composite} (h : Ready E c) {b : Int × Int}
    (hg : HasGrid c.format c.dx c.dy b) (hdx : c.dx < 2 ^ 63) (hdy : c.dy < 2 ^ 63) :
    (Ap c.rx (realCalib c.format c.dx c.dy).rx (42 / 10 ^ 10 / c.dx) ∧
      Ap c.ry (realCalib c.format c.dx c.dy).ry (42 / 10 ^ 10 / c.dy)) ∧
    ∀ {xn xe : F64} {n e : ℝ}, PointAp xn xe n e →
      Ap (c.Project E xn xe).1 (realProject c.format c.dx c.dy n e).1 (c.dx / 10 ^ 9) ∧
      Ap (c.Project E xn xe).2 (realProject c.format c.dx c.dy n e).2 (c.dy / 10 ^ 9) := by
  obtain ⟨ot, ol, eb, er, hc⟩ := corners_isSome hg
  have hp : c.hasProjection = true := (C31_has_projection_iff h).mpr ⟨b, hg.1, hg.2.1, hg.2.2⟩
  obtain ⟨h1, h2, h3⟩ := ready_projection h hp hg.1 hg.2.1 hc
  obtain ⟨e1, e2, e3⟩ := realCalib_eq hg hc
  obtain ⟨x1, x2⟩ := plane_extent hg hc
  obtain ⟨r1, r2, r3, r4⟩ := corner_range hc
  obtain ⟨v1, v2, v3, v4⟩ := extent_range hg.1
  obtain ⟨po1, po2, bo1, bo2⟩ := plane_ap hM c.format (lit_pointAp r1 r2)
  obtain ⟨pe1, pe2, be1, be2⟩ := plane_ap hM c.format (lit_pointAp r3 r4)
  obtain ⟨q1, q2⟩ := hasGrid_pos hg
  obtain ⟨p1, p2, p3, p4⟩ := base_pos hg.1
  obtain ⟨k, s1, s2⟩ := hg.2.1
  have lx := Fl.lit_scaled (b := b.1) (k := k) p1 (by omega) (by rw [← s1]; exact hdx)
  have ly := Fl.lit_scaled (b := b.2) (k := k) p3 (by omega) (by rw [← s2]; exact hdy)
  rw [← s1] at lx
  rw [← s2] at ly
  have hx := abs_le.mp x1
  have hy := abs_le.mp x2
  obtain ⟨ax, bx⟩ := axis_ap pe1 po1 ⟨by linarith [hx.1], by linarith [hx.2]⟩ lx (by omega) hdx
  obtain ⟨ay, by'⟩ := axis_ap pe2 po2 ⟨by linarith [hy.1], by linarith [hy.2]⟩ ly (by omega) hdy
  refine ⟨⟨by rw [h1, e1]; exact ax, by rw [h2, e2]; exact ay⟩, ?_⟩
  intro xn xe n e hpt
  obtain ⟨pp1, pp2, bp1, bp2⟩ := plane_ap hM c.format hpt
  rw [h3, e3, h1, h2, e1, e2]
  exact ⟨bx pp1 bp1 bo1, by' pp2 bp2 bo2⟩

theorem ap_resolution {x : F64} {r : ℝ} {E : ℝ} {d : Int} (h : Ap x r (42 / 10 ^ 10 / d)) (hr : |r - E / d| ≤ E / d / 10 ^ 5)
    (hE : 900 ≤ E) (h1 : 0 < d) (h2 : d < 2 ^ 63) : PosFin x ∧ pow2 (-1021) ≤ |x.val| := by
  obtain ⟨hf, ha⟩ := h
  have g0 : (0 : ℝ) < d := by exact_mod_cast h1
  have g2 : (d : ℝ) ≤ 2 ^ 63 := by exact_mod_cast h2.le
  have key : 1 / 2 ^ 63 ≤ (x.val : ℝ) := by
    have a1 := (abs_le.mp ha).1
    have a2 := (abs_le.mp hr).1
    have a3 : 1 / (d : ℝ) ≤ E / d - E / d / 10 ^ 5 - 42 / 10 ^ 10 / d := by
      rw [div_right_comm, ← sub_div, ← sub_div]
      exact div_le_div_of_nonneg_right (by norm_num; linarith) g0.le
    have a4 : 1 / (2 : ℝ) ^ 63 ≤ 1 / d := one_div_le_one_div_of_le g0 g2
    linarith
  have key' : 1 / 2 ^ 63 ≤ x.val := by
    have : (((1 / 2 ^ 63 : ℚ)) : ℝ) ≤ x.val := by push_cast; exact key
    exact_mod_cast this
  have hpos : 0 < x.val := lt_of_lt_of_le (by norm_num) key'
  refine ⟨⟨hf, hpos⟩, ?_⟩
  rw [abs_of_pos hpos]
  refine _root_.le_trans (?_ : _ ≤ pow2 (-63)) (_root_.le_trans (le_of_eq ?_) key')
  · exact pow2_le.mpr (by decide)
  · rw [pow2_eq]; norm_num

/-- C54. The calibrated resolutions Rx and Ry, as computed in float64, are finite, positive and within five parts in
a trillion of the ones in exact arithmetic. -/
theorem C54_resolution {E : Env} (hM : AccurateMath E.math) {c : Composite} (h : Ready E c) {b : Int × Int}
    (hg : HasGrid c.format c.dx c.dy b) (hdx : c.dx < 2 ^ 63) (hdy : c.dy < 2 ^ 63) :
    PosFin c.rx ∧ |(c.rx.val : ℝ) - (realCalib c.format c.dx c.dy).rx| ≤ 5 / 10 ^ 12 * (realCalib c.format c.dx c.dy).rx ∧
    PosFin c.ry ∧ |(c.ry.val : ℝ) - (realCalib c.format c.dx c.dy).ry| ≤ 5 / 10 ^ 12 * (realCalib c.format c.dx c.dy).ry := by
  obtain ⟨⟨h1, h2⟩, _⟩ := float_projection hM h hg hdx hdy
  obtain ⟨n1, n2⟩ := C52_nominal_resolution hg
  obtain ⟨v1, _, v3, _⟩ := extent_range hg.1
  obtain ⟨q1, q2⟩ := hasGrid_pos hg
  have g1 : (0 : ℝ) < c.dx := by exact_mod_cast q1
  have g2 : (0 : ℝ) < c.dy := by exact_mod_cast q2
  have rel : ∀ {r X : ℝ} {d : Int}, (0 : ℝ) < d → 900 ≤ X → |r - X / d| ≤ X / d / 10 ^ 5 → 42 / 10 ^ 10 / (d : ℝ) ≤ 5 / 10 ^ 12 * r := by
    intro r X d hd hX hr
    have a2 := (abs_le.mp hr).1
    have a3 : 42 / 10 ^ 10 / (d : ℝ) ≤ 5 / 10 ^ 12 * (X / d - X / d / 10 ^ 5) := by
      rw [div_right_comm X, ← sub_div, ← mul_div_assoc]
      exact div_le_div_of_nonneg_right (by norm_num; linarith) hd.le
    nlinarith
  exact ⟨(ap_resolution h1 n1 v1 q1 hdx).1, h1.2.trans (rel g1 v1 n1), (ap_resolution h2 n2 v3 q2 hdy).1,
    h2.2.trans (rel g2 v3 n2)⟩

/-- C54. For every grid with a projection at every resolution, and every point from 45 S to the north pole, Project
returns finite numbers that differ from the exact projection of that point by at most a billionth of the number of
pixels along the edge (about one millimetre on the ground). -/
theorem C54_project {E : Env} (hM : AccurateMath E.math) {c : Composite} (h : Ready E c) {b : Int × Int}
    (hg : HasGrid c.format c.dx c.dy b) (hdx : c.dx < 2 ^ 63) (hdy : c.dy < 2 ^ 63)
    {north east : F64} (hp : OnMap north east) :
    let q := c.Project E north east
    let r := realProject c.format c.dx c.dy north.val east.val
    q.1.isFin = true ∧ |(q.1.val : ℝ) - r.1| ≤ c.dx / 10 ^ 9 ∧
    q.2.isFin = true ∧ |(q.2.val : ℝ) - r.2| ≤ c.dy / 10 ^ 9 := by
  obtain ⟨_, h3⟩ := float_projection hM h hg hdx hdy
  obtain ⟨h4, h5⟩ := h3 hp.pointAp
  exact ⟨h4.1, h4.2, h5.1, h5.2⟩

theorem refPoints_range {b : Int × Int} {format : Int} {n e kx ky : ℚ} (hp : (n, e, kx, ky) ∈ refPoints b format) :
    (0 ≤ n ∧ n ≤ 60) ∧ |e| ≤ 60 := by
  unfold refPoints at hp
  repeat' split at hp
  all_goals
    simp only [List.mem_cons, List.not_mem_nil, or_false, Prod.mk.injEq] at hp
    first
    | (rcases hp with ⟨rfl, rfl, -, -⟩ | ⟨rfl, rfl, -, -⟩ | ⟨rfl, rfl, -, -⟩ | ⟨rfl, rfl, -, -⟩ | ⟨rfl, rfl, -, -⟩ <;>
        (norm_num [abs_le]; done))
    | (rcases hp with ⟨rfl, rfl, -, -⟩ | ⟨rfl, rfl, -, -⟩ | ⟨rfl, rfl, -, -⟩ | ⟨rfl, rfl, -, -⟩ <;>
        (norm_num [abs_le]; done))

theorem to_km {x : F64} {r X t : ℝ} {k : ℚ} {d : Int} (h : Ap x r (d / 10 ^ 9)) (hd : 0 < d) (hX : 0 ≤ X)
    (hr : |r * (X / d) - k| ≤ t) : |(x.val : ℝ) * (X / d) - k| ≤ t + X / 10 ^ 9 := by
  have g : (0 : ℝ) < d := by exact_mod_cast hd
  have e : (x.val : ℝ) * (X / d) - k = (r * (X / d) - k) + ((x.val : ℝ) - r) * (X / d) := by ring
  rw [e]
  refine (abs_add_le _ _).trans (add_le_add hr ?_)
  rw [abs_mul, abs_of_nonneg (div_nonneg hX g.le)]
  refine (mul_le_mul_of_nonneg_right h.2 (div_nonneg hX g.le)).trans (le_of_eq ?_)
  field_simp

/-- C54. The documented reference points, given as float64 literals, are projected in float64 to their documented
places, to the documented accuracy plus two millimetres. -/
theorem C54_reference_points {E : Env} (hM : AccurateMath E.math) {c : Composite} (h : Ready E c) {b : Int × Int}
    (hg : HasGrid c.format c.dx c.dy b) (hdx : c.dx < 2 ^ 63) (hdy : c.dy < 2 ^ 63)
    {n e kx ky : ℚ} (hp : (n, e, kx, ky) ∈ refPoints b c.format) :
    let q := c.Project E (Fl.lit f64 n) (Fl.lit f64 e)
    q.1.isFin = true ∧ |(q.1.val : ℝ) * ((extentKm b).1 / c.dx) - kx| ≤ refTolerance b + 2 / 10 ^ 6 ∧
    q.2.isFin = true ∧ |(q.2.val : ℝ) * ((extentKm b).2 / c.dy) - ky| ≤ refTolerance b + 2 / 10 ^ 6 := by
  obtain ⟨_, h3⟩ := float_projection hM h hg hdx hdy
  obtain ⟨r1, r2⟩ := refPoints_range hp
  obtain ⟨h4, h5⟩ := h3 (lit_pointAp r1 r2)
  obtain ⟨t1, t2⟩ := C52_reference_points hg hp
  obtain ⟨v1, v2, v3, v4⟩ := extent_range hg.1
  obtain ⟨q1, q2⟩ := hasGrid_pos hg
  refine ⟨h4.1, (to_km h4 q1 (by linarith) t1).trans ?_, h5.1, (to_km h5 q2 (by linarith) t2).trans ?_⟩
  · norm_num at v2 ⊢; linarith
  · norm_num at v4 ⊢; linarith

/-- C34 without conditions on the resolution: the top left corner is projected to exactly (0, 0). -/
theorem C34_origin_accurate {E : Env} (hM : AccurateMath E.math) {c : Composite} (h : Ready E c) {b : Int × Int}
    (hg : HasGrid c.format c.dx c.dy b) (hdx : c.dx < 2 ^ 63) (hdy : c.dy < 2 ^ 63) {ot ol eb er : ℚ}
    (hc : corners b c.format = some (ot, ol, eb, er)) :
    c.Project E (Fl.lit f64 ot) (Fl.lit f64 ol) = (Fl.zero, Fl.zero) := by
  obtain ⟨h1, _, h2, _⟩ := C54_resolution hM h hg hdx hdy
  exact C34_origin h ((C31_has_projection_iff h).mpr ⟨b, hg.1, hg.2.1, hg.2.2⟩) hg.1 hg.2.1 hc h1 h2

theorem resolution_normal {E : Env} (hM : AccurateMath E.math) {c : Composite} (h : Ready E c) {b : Int × Int}
    (hg : HasGrid c.format c.dx c.dy b) (hdx : c.dx < 2 ^ 63) (hdy : c.dy < 2 ^ 63) :
    (c.rx.isFin = true ∧ pow2 (-1021) ≤ |c.rx.val|) ∧ (c.ry.isFin = true ∧ pow2 (-1021) ≤ |c.ry.val|) := by
  obtain ⟨⟨h1, h2⟩, _⟩ := float_projection hM h hg hdx hdy
  obtain ⟨n1, n2⟩ := C52_nominal_resolution hg
  obtain ⟨v1, _, v3, _⟩ := extent_range hg.1
  obtain ⟨q1, q2⟩ := hasGrid_pos hg
  have a := ap_resolution h1 n1 v1 q1 hdx
  have b := ap_resolution h2 n2 v3 q2 hdy
  exact ⟨⟨a.1.1, a.2⟩, ⟨b.1.1, b.2⟩⟩

/-- C35 without conditions on the resolution: the bottom right corner is projected to (Dx, Dy), to `2^-51`. -/
theorem C35_edge_accurate {E : Env} (hM : AccurateMath E.math) {c : Composite} (h : Ready E c) {b : Int × Int}
    (hg : HasGrid c.format c.dx c.dy b) (hdx : c.dx < 2 ^ 63) (hdy : c.dy < 2 ^ 63) {ot ol eb er : ℚ}
    (hc : corners b c.format = some (ot, ol, eb, er)) :
    let q := c.Project E (Fl.lit f64 eb) (Fl.lit f64 er)
    q.1.isFin = true ∧ |q.1.val - c.dx| ≤ c.dx * pow2 (-51) ∧
    q.2.isFin = true ∧ |q.2.val - c.dy| ≤ c.dy * pow2 (-51) := by
  obtain ⟨h1, h2⟩ := resolution_normal hM h hg hdx hdy
  exact C35_edge h ((C31_has_projection_iff h).mpr ⟨b, hg.1, hg.2.1, hg.2.2⟩) hg.1 hg.2.1 hc hdx hdy h1 h2

/-- C36 without conditions on the resolution. -/
theorem C36_resolution_scaling_accurate {E : Env} (hM : AccurateMath E.math) {c c' : Composite} (h : Ready E c)
    (h' : Ready E c') {b : Int × Int} (hg : HasGrid c.format c.dx c.dy b) (hf : c'.format = c.format) (k : Nat)
    (hx : c'.dx = c.dx * 2 ^ k) (hy : c'.dy = c.dy * 2 ^ k) (hdx : c'.dx < 2 ^ 63) (hdy : c'.dy < 2 ^ 63) :
    c'.hasProjection = true ∧ c.rx.val = 2 ^ k * c'.rx.val ∧ c.ry.val = 2 ^ k * c'.ry.val ∧
    ∀ north east, OnMap north east →
      let p := c.Project E north east
      let p' := c'.Project E north east
      (pow2 (-1021) ≤ |p.1.val| → p'.1.val = 2 ^ k * p.1.val) ∧
      (pow2 (-1021) ≤ |p.2.val| → p'.2.val = 2 ^ k * p.2.val) := by
  obtain ⟨q1, q2⟩ := hasGrid_pos hg
  have hpow : (1 : Int) ≤ 2 ^ k := one_le_pow₀ (by norm_num)
  have hg' : HasGrid c'.format c'.dx c'.dy b := by
    obtain ⟨g1, ⟨l, s1, s2⟩, g3⟩ := hg
    exact ⟨g1, ⟨l + k, by rw [hx, s1]; ring, by rw [hy, s2]; ring⟩, by rw [hf]; exact g3⟩
  have ldx : c.dx < 2 ^ 63 := by nlinarith
  have ldy : c.dy < 2 ^ 63 := by nlinarith
  obtain ⟨r1, r2⟩ := resolution_normal hM h hg ldx ldy
  obtain ⟨r1', r2'⟩ := resolution_normal hM h' hg' hdx hdy
  obtain ⟨a1, a2, a3, a4⟩ := C36_resolution_scaling h h' ((C31_has_projection_iff h).mpr ⟨b, hg.1, hg.2.1, hg.2.2⟩) hf k hx hy
    hdx hdy r1.1 r2.1 r1' r2'
  refine ⟨a1, a2, a3, ?_⟩
  intro north east hp p p'
  obtain ⟨b1, _, b2, _⟩ := C54_project hM h hg ldx ldy hp
  obtain ⟨b1', _, b2', _⟩ := C54_project hM h' hg' hdx hdy hp
  obtain ⟨a5, a6⟩ := a4 north east
  exact ⟨a5 b1 b1', a6 b2 b2'⟩

/-! ### the contract can be met, and a sample -/

/-- a rational within `10^-20` of a real number -/
noncomputable def ratNear (r : ℝ) : ℚ := Classical.choose (exists_rat_near r (by norm_num : (0 : ℝ) < 1 / 10 ^ 20))

theorem ratNear_spec (r : ℝ) : |(ratNear r : ℝ) - r| ≤ 1 / 10 ^ 20 := by
  have := Classical.choose_spec (exists_rat_near r (by norm_num : (0 : ℝ) < 1 / 10 ^ 20))
  rw [abs_sub_comm]; exact this.le

/-- a math library that rounds (nearly) exact values -/
noncomputable def exactMath : MathLib where
  sin x := Fl.lit f64 (ratNear (sin x.val))
  cos x := Fl.lit f64 (ratNear (cos x.val))
  tan x := Fl.lit f64 (ratNear (tan x.val))
  pow x y := Fl.lit f64 (ratNear ((x.val : ℝ) ^ (y.val : ℝ)))
  log10 x := Fl.lit f64 (ratNear (logb 10 x.val))
  log x := Fl.lit f64 (ratNear (log x.val))

theorem ratNear_ap {r : ℝ} (h : |r| ≤ 4) : Ap (Fl.lit f64 (ratNear r)) r (1 / 10 ^ 15) :=
  lit_ap (M := 5) (ratNear_spec r) (by norm_num; linarith) (by norm_num) (by norm_num) (by norm_num)

theorem exactMath_accurate : AccurateMath exactMath where
  sin x _ _ := ratNear_ap ((abs_sin_le_one _).trans (by norm_num))
  cos x _ _ := ratNear_ap ((abs_cos_le_one _).trans (by norm_num))
  tan x _ hx := by
    refine (ratNear_ap ?_).mono (by norm_num)
    have h1 := Real.one_sub_sq_div_two_le_cos (x := (x.val : ℝ))
    have h2 : (x.val : ℝ) ^ 2 ≤ (6 / 5) ^ 2 := by rw [← sq_abs]; exact pow_le_pow_left₀ (abs_nonneg _) hx 2
    have h3 : 28 / 100 ≤ cos (x.val : ℝ) := by norm_num at h2; linarith
    rw [tan_eq_sin_div_cos, abs_div, abs_of_pos (by linarith : 0 < cos (x.val : ℝ)), div_le_iff₀ (by linarith)]
    linarith [abs_sin_le_one (x.val : ℝ)]
  pow x y _ _ hx hy := by
    refine (ratNear_ap ?_).mono (by norm_num)
    rw [abs_of_nonneg (rpow_nonneg (by linarith [hx.1]) _)]
    refine (rpow_le_rpow (by linarith [hx.1]) hx.2 hy.1).trans ?_
    refine (rpow_le_rpow_of_exponent_le (by norm_num) (hy.2.trans (by norm_num : (1 / 10 : ℝ) ≤ 1))).trans ?_
    norm_num

noncomputable def envExact : Env := { env0 with math := exactMath }

/-- 51 N 9 E in a national composite -/
example : let q := (NewDummy envExact (str "RW") 3 900 900).Project envExact (Fl.lit f64 51) (Fl.lit f64 9)
    q.1.isFin = true ∧ |(q.1.val : ℝ) - 450| ≤ 26 / 1000 := by
  have := C54_reference_points (E := envExact) exactMath_accurate (c := NewDummy envExact (str "RW") 3 900 900)
    (Ready.dummy (E := envExact) _ _ _ _) (b := (225, 225)) ⟨by decide, ⟨2, rfl, rfl⟩, Or.inl (show (3 : Int) < 5 by decide)⟩
    (show (900 : Int) < 2 ^ 63 by decide) (show (900 : Int) < 2 ^ 63 by decide) (n := 51) (e := 9) (kx := 450) (ky := 450)
    (by simp [refPoints])
  refine ⟨this.1, ?_⟩
  have h2 := this.2.1
  have hd : (NewDummy envExact (str "RW") 3 900 900).dx = 900 := rfl
  rw [hd] at h2
  norm_num [extentKm, refTolerance] at h2 ⊢
  linarith

end Props
