/-
C67: the accuracy of the projection does not depend on how a compiler fuses floating point operations. The same code,
evaluated to the set of all results the Go specification permits (Spec/Fusion.lean), stays within the bounds of C54.
-/
import Verif.Lemmas.Fusion
import Verif.Props.FloatProjection

namespace Props
open Go Radolan Spec Real Go.Fl Spec.Fusion

section
variable {α : Type} {A : Arith α} {P : α → ℝ → ℝ → Prop} (hT : Tracks A P)
include hT

theorem sub_zero_div_one_tr {x : α} {p ε M t : ℝ} (h : P x p ε) (h0 : 0 ≤ ε) (h3 : ε ≤ 1 / 100) (hM : |p| + 2 * ε ≤ M) (h1 : 1 ≤ M) (h2 : M ≤ 10 ^ 50)
    (ht : ε + M * (25 / 10 ^ 17) ≤ t) : P (A.div (A.sub x (A.lit 0)) (A.lit 1)) p t := by
  have a := hT.sub (M := M) (t := ε + M * (12 / 10 ^ 17)) h hT.lit_zero (by simp only [sub_zero, add_zero]; linarith)
    (by norm_num at h1 ⊢; linarith) (by norm_num at h2 ⊢; linarith) (by simp)
  rw [sub_zero] at a
  have b := hT.div (m := 1) (q := M) (e := ε + M * (12 / 10 ^ 17)) (t := t) a hT.lit_one (by norm_num) (by norm_num)
    (by rw [abs_one, mul_one]; linarith) (by simp) (by norm_num at h1 ⊢; linarith) (by norm_num at h2 hM ⊢; linarith [abs_nonneg p])
    ?_
  · rwa [div_one] at b
  · have := abs_nonneg p
    norm_num at ht h2 h3 hM ⊢
    linarith

theorem div_one_tr {x : α} {p ε M t : ℝ} (h : P x p ε) (h0 : 0 ≤ ε) (hM : |p| ≤ M) (h1 : 1 ≤ M) (h2 : M + ε ≤ 10 ^ 60)
    (ht : ε + (M + ε) * (12 / 10 ^ 17) ≤ t) : P (A.div x (A.lit 1)) p t := by
  have b := hT.div (m := 1) (q := M) (e := ε) (t := t) h hT.lit_one (by norm_num) (by norm_num)
    (by rw [abs_one, mul_one]; linarith) (by simp) (by norm_num at h1 ⊢; linarith) h2 ht
  rwa [div_one] at b

/-- one coordinate -/
theorem axis_tr {xe xo d : α} {pe po : ℝ} {dx : Int} (he : P xe pe (2 / 10 ^ 9)) (ho : P xo po (2 / 10 ^ 9))
    (b2 : |po| ≤ 65000) (hD : 899 ≤ pe - po ∧ pe - po ≤ 1501) (hdv : P d (dx : ℝ) 0) (h1 : 1 ≤ dx) (h2 : dx < 2 ^ 63) :
    let off := A.div (A.sub xo (A.lit 0)) (A.lit 1)
    let res := A.div (A.div (A.sub xe off) (A.lit 1)) d
    P off po (202 / 10 ^ 11) ∧ P res ((pe - po) / dx) (42 / 10 ^ 10 / dx) ∧
    ∀ {xp : α} {pp : ℝ}, P xp pp (2 / 10 ^ 9) → |pp| ≤ 65000 →
      P (A.div (A.sub xp off) res) ((pp - po) / ((pe - po) / dx)) (dx / 10 ^ 9) := by
  intro off res
  have g1 : (1 : ℝ) ≤ dx := by exact_mod_cast h1
  have g2 : (dx : ℝ) ≤ 10 ^ 19 := by
    have : dx ≤ 10 ^ 19 := by omega
    exact_mod_cast this
  have g0 : (0 : ℝ) < dx := by linarith
  have hoff : P off po (202 / 10 ^ 11) :=
    sub_zero_div_one_tr hT (M := 65001) ho (by norm_num) (by norm_num) (by norm_num at b2 ⊢; linarith) (by norm_num) (by norm_num) (by norm_num)
  have hs : P (A.sub xe off) (pe - po) (403 / 10 ^ 11) :=
    hT.sub (M := 1502) he hoff (by rw [abs_of_nonneg (by linarith)]; norm_num; linarith) (by norm_num) (by norm_num) (by norm_num)
  have hs1 : P (A.div (A.sub xe off) (A.lit 1)) (pe - po) (41 / 10 ^ 10) :=
    div_one_tr hT (M := 1502) hs (by norm_num) (by rw [abs_of_nonneg (by linarith)]; linarith) (by norm_num) (by norm_num) (by norm_num)
  have hr : P res ((pe - po) / dx) (42 / 10 ^ 10 / dx) := by
    refine hT.div (m := dx) (q := 1501 / dx) (e := 41 / 10 ^ 10 / dx) hs1 hdv g0 (by rw [abs_of_pos g0]; linarith) ?_ ?_ ?_ ?_ ?_
    · rw [abs_of_pos g0, div_mul_cancel₀ _ g0.ne', abs_of_nonneg (by linarith)]; exact hD.2
    · simp
    · rw [← add_div, le_div_iff₀ g0]; norm_num at g2 ⊢; linarith
    · rw [← add_div, div_le_iff₀ g0]; norm_num; linarith
    · rw [← add_div, div_mul_eq_mul_div, ← add_div]
      exact div_le_div_of_nonneg_right (by norm_num) g0.le
  refine ⟨hoff, hr, ?_⟩
  intro xp pp hp b1
  have hsub : |pp - po| ≤ 130000 := (abs_sub _ _).trans (by linarith)
  have hps : P (A.sub xp off) (pp - po) (41 / 10 ^ 10) :=
    hT.sub (M := 130001) hp hoff (by norm_num; linarith) (by norm_num) (by norm_num) (by norm_num)
  have hpos : 0 < (pe - po) / dx := div_pos (by linarith) g0
  refine hT.div (m := 898 / dx) (q := 145 * dx) (e := dx * (9 / 10 ^ 10)) hps hr (by positivity) ?_ ?_ ?_ ?_ ?_ ?_
  · rw [abs_of_pos hpos, ← add_div]
    exact div_le_div_of_nonneg_right (by norm_num; linarith) g0.le
  · rw [abs_of_pos hpos, mul_assoc, mul_div_cancel₀ _ g0.ne']
    linarith
  · rw [show 145 * (dx : ℝ) * (42 / 10 ^ 10 / dx) = 145 * (42 / 10 ^ 10) by field_simp, div_div_eq_mul_div]
    rw [div_le_iff₀ (by norm_num)]
    norm_num; linarith
  · norm_num; linarith
  · norm_num at g2 ⊢; linarith
  · norm_num; linarith

theorem lit_pointTracks {n e : ℚ} (h1 : 0 ≤ n ∧ n ≤ 60) (h2 : |e| ≤ 60) : PointTracks P (A.lit n) (A.lit e) n e := by
  have key : ∀ {q : ℚ}, |q| ≤ 60 → P (A.lit q) q (75 / 10 ^ 16) := by
    intro q h
    have h' : |(q : ℝ)| ≤ 60 := by exact_mod_cast h
    exact hT.lit (ε := 0) (M := 60) (by simp) (by linarith) (by norm_num) (by norm_num) (by norm_num)
  refine ⟨key (by rw [abs_of_nonneg h1.1]; exact h1.2), key h2, ⟨?_, ?_⟩, ?_⟩
  · have : (0 : ℝ) ≤ n := by exact_mod_cast h1.1
    linarith
  · have : (n : ℝ) ≤ 60 := by exact_mod_cast h1.2
    linarith
  · have : |(e : ℝ)| ≤ 60 := by exact_mod_cast h2
    linarith

/-- calibration and projection in an arithmetic that is exact up to rounding -/
theorem project_tr {format dx dy : Int} {b : Int × Int} (hg : HasGrid format dx dy b) (hdx : dx < 2 ^ 63) (hdy : dy < 2 ^ 63) :
    let c := calibrate A format dx dy
    (P c.rx (realCalib format dx dy).rx (42 / 10 ^ 10 / dx) ∧ P c.ry (realCalib format dx dy).ry (42 / 10 ^ 10 / dy)) ∧
    ∀ {xn xe : α} {n e : ℝ}, PointTracks P xn xe n e →
      P (project A c xn xe).1 (realProject format dx dy n e).1 (dx / 10 ^ 9) ∧
      P (project A c xn xe).2 (realProject format dx dy n e).2 (dy / 10 ^ 9) := by
  intro c
  obtain ⟨ot, ol, eb, er, hc⟩ := corners_isSome hg
  obtain ⟨hgr, hbg, hf⟩ := hasGrid_detect hg
  have hcorn := cornerPoints_spec A (format := format) hgr (by rw [hbg]; exact hc)
  have hcond : ¬ (5 ≤ format ∧ detectGrid dx dy ≠ .de1200) := by
    rintro ⟨h1, h2⟩
    rcases hf with h | h
    · omega
    · exact h2 h
  have hcal : c = ⟨A.div (A.div (A.sub (planeXY A format (A.lit eb) (A.lit er)).1
        (A.div (A.sub (planeXY A format (A.lit ot) (A.lit ol)).1 (A.lit 0)) (A.lit 1))) (A.lit 1)) (A.ofInt dx),
      A.div (A.div (A.sub (planeXY A format (A.lit eb) (A.lit er)).2
        (A.div (A.sub (planeXY A format (A.lit ot) (A.lit ol)).2 (A.lit 0)) (A.lit 1))) (A.lit 1)) (A.ofInt dy), true,
      A.div (A.sub (planeXY A format (A.lit ot) (A.lit ol)).1 (A.lit 0)) (A.lit 1),
      A.div (A.sub (planeXY A format (A.lit ot) (A.lit ol)).2 (A.lit 0)) (A.lit 1),
      if 5 ≤ format then some (projDE1200 A) else none⟩ := by
    show calibrate A format dx dy = _
    unfold calibrate
    simp only
    rw [hcorn]
    simp only [if_neg hcond, project_eq]
  obtain ⟨e1, e2, e3⟩ := realCalib_eq hg hc
  obtain ⟨x1, x2⟩ := plane_extent hg hc
  obtain ⟨r1, r2, r3, r4⟩ := corner_range hc
  obtain ⟨v1, v2, v3, v4⟩ := extent_range hg.1
  obtain ⟨po1, po2, bo1, bo2⟩ := plane_tr hT format (lit_pointTracks hT r1 r2)
  obtain ⟨pe1, pe2, be1, be2⟩ := plane_tr hT format (lit_pointTracks hT r3 r4)
  obtain ⟨q1, q2⟩ := hasGrid_pos hg
  obtain ⟨p1, p2, p3, p4⟩ := base_pos hg.1
  obtain ⟨k, s1, s2⟩ := hg.2.1
  have lx := hT.ofInt (b := b.1) (k := k) p1 (by omega) (by rw [← s1]; exact hdx)
  have ly := hT.ofInt (b := b.2) (k := k) p3 (by omega) (by rw [← s2]; exact hdy)
  rw [← s1] at lx
  rw [← s2] at ly
  have hx := abs_le.mp x1
  have hy := abs_le.mp x2
  obtain ⟨_, ax, bx⟩ := axis_tr hT pe1 po1 bo1 ⟨by linarith [hx.1], by linarith [hx.2]⟩ lx (by omega) hdx
  obtain ⟨_, ay, by'⟩ := axis_tr hT pe2 po2 bo2 ⟨by linarith [hy.1], by linarith [hy.2]⟩ ly (by omega) hdy
  refine ⟨⟨by rw [hcal, e1]; exact ax, by rw [hcal, e2]; exact ay⟩, ?_⟩
  intro xn xe n e hpt
  obtain ⟨pp1, pp2, bp1, bp2⟩ := plane_tr hT format hpt
  rw [hcal, project_eq, e3, e1, e2]
  exact ⟨bx pp1 bp1, by' pp2 bp2⟩

end

/-! ### the model is one of the permitted evaluations -/

/-- `S` refines `R` operation by operation -/
structure Covers {α : Type} (A : Arith α) (M : MathLib) (R : F64 → α → Prop) : Prop where
  add : ∀ {x y u v}, R x u → R y v → R (Fl.add x y) (A.add u v)
  sub : ∀ {x y u v}, R x u → R y v → R (Fl.sub x y) (A.sub u v)
  mul : ∀ {x y u v}, R x u → R y v → R (Fl.mul x y) (A.mul u v)
  div : ∀ {x y u v}, R x u → R y v → R (Fl.div x y) (A.div u v)
  pow : ∀ {x y u v}, R x u → R y v → R (M.pow x y) (A.pow u v)
  neg : ∀ {x u}, R x u → R (Fl.neg x) (A.neg u)
  sin : ∀ {x u}, R x u → R (M.sin x) (A.sin u)
  cos : ∀ {x u}, R x u → R (M.cos x) (A.cos u)
  tan : ∀ {x u}, R x u → R (M.tan x) (A.tan u)
  lit : ∀ q, R (Fl.lit f64 q) (A.lit q)
  piMul : ∀ q, R (Fl.lit f64 (goPi * q)) (A.piMul q)
  ofInt : ∀ n : Int, R (Fl.lit f64 (n : ℚ)) (A.ofInt n)
  nan : R .nan A.nan

theorem covers_permitted (M : MathLib) : Covers (permittedArith M) M (fun x a => a (.word x)) where
  add hx hy := ⟨_, _, hx, hy, .separate rfl rfl⟩
  sub hx hy := ⟨_, _, hx, hy, .separate rfl rfl⟩
  mul hx hy := ⟨_, _, hx, hy, .separate rfl rfl⟩
  div hx hy := ⟨_, _, hx, hy, .separate rfl rfl⟩
  pow hx hy := ⟨_, _, _, _, hx, hy, rfl, rfl, rfl⟩
  neg hx := ⟨_, hx, rfl⟩
  sin hx := ⟨_, _, hx, rfl, rfl⟩
  cos hx := ⟨_, _, hx, rfl, rfl⟩
  tan hx := ⟨_, _, hx, rfl, rfl⟩
  lit _ := rfl
  piMul _ := rfl
  ofInt _ := rfl
  nan := rfl

section
variable {α : Type} {A : Arith α} {M : MathLib} {R : F64 → α → Prop} (hC : Covers A M R)
include hC

theorem sphere_covers {n e : F64} {u v : α} (hn : R n u) (he : R e v) :
    R (sphereXY (f64Arith M) n e).1 (sphereXY A u v).1 ∧ R (sphereXY (f64Arith M) n e).2 (sphereXY A u v).2 := by
  have hrad : ∀ {x w}, R x w → R (rad (f64Arith M) x) (rad A w) := fun h => hC.mul h (hC.piMul _)
  have hj1 : R (junctionNorth (f64Arith M)) (junctionNorth A) := hC.lit _
  have hj2 : R (junctionEast (f64Arith M)) (junctionEast A) := hC.lit _
  have hr : R (earthRadius (f64Arith M)) (earthRadius A) := hC.lit _
  have hm := hC.div (hC.add (hC.lit 1) (hC.sin (hrad hj1))) (hC.add (hC.lit 1) (hC.sin (hrad hn)))
  have hrho := hC.mul (hC.mul hr hm) (hC.cos (hrad hn))
  have hd := hC.sub (hrad he) (hrad hj2)
  exact ⟨hC.mul hrho (hC.sin hd), hC.mul hrho (hC.cos hd)⟩

theorem wgs_covers {n e : F64} {u v : α} (hn : R n u) (he : R e v) :
    R (wgs84XY (f64Arith M) (projDE1200 (f64Arith M)) n e).1 (wgs84XY A (projDE1200 A) u v).1 ∧
    R (wgs84XY (f64Arith M) (projDE1200 (f64Arith M)) n e).2 (wgs84XY A (projDE1200 A) u v).2 := by
  have hdeg : R (degToRad (f64Arith M)) (degToRad A) := hC.piMul _
  have hlat := hC.mul hn hdeg
  have hlon := hC.mul he hdeg
  have hecc : R (projDE1200 (f64Arith M)).ecc (projDE1200 A).ecc := hC.lit _
  have hk : R (projDE1200 (f64Arith M)).k_0 (projDE1200 A).k_0 := hC.lit _
  have hx0 : R (projDE1200 (f64Arith M)).x_0 (projDE1200 A).x_0 := hC.lit _
  have hy0 : R (projDE1200 (f64Arith M)).y_0 (projDE1200 A).y_0 := hC.lit _
  have hsc : R (projDE1200 (f64Arith M)).scale (projDE1200 A).scale := hC.lit _
  have hl0 : R (projDE1200 (f64Arith M)).lon_0 (projDE1200 A).lon_0 := hC.piMul _
  have hes := hC.mul hecc (hC.sin hlat)
  have hs := hC.div (hC.mul hk (hC.tan (hC.mul (hC.lit (1 / 2)) (hC.sub (hC.piMul (1 / 2)) hlat))))
    (hC.pow (hC.div (hC.sub (hC.lit 1) hes) (hC.add (hC.lit 1) hes)) (hC.mul (hC.lit (1 / 2)) hecc))
  have hd := hC.sub hlon hl0
  exact ⟨hC.div (hC.add hx0 (hC.mul hs (hC.sin hd))) hsc, hC.div (hC.sub hy0 (hC.mul hs (hC.cos hd))) (hC.neg hsc)⟩

theorem plane_covers (format : Int) {n e : F64} {u v : α} (hn : R n u) (he : R e v) :
    R (planeXY (f64Arith M) format n e).1 (planeXY A format u v).1 ∧
    R (planeXY (f64Arith M) format n e).2 (planeXY A format u v).2 := by
  unfold planeXY
  split
  · exact wgs_covers hC hn he
  · exact sphere_covers hC hn he

/-- calibrations that agree field by field -/
structure CalibCovers (R : F64 → α → Prop) (A : Arith α) (M : MathLib) (format : Int) (c : Calib F64) (d : Calib α) : Prop where
  rx : R c.rx d.rx
  ry : R c.ry d.ry
  offx : R c.offx d.offx
  offy : R c.offy d.offy
  has : d.hasProjection = c.hasProjection
  wgs : c.hasProjection = true → c.wgs84 = (if 5 ≤ format then some (projDE1200 (f64Arith M)) else none) ∧
    d.wgs84 = (if 5 ≤ format then some (projDE1200 A) else none)

theorem project_covers {format : Int} {c : Calib F64} {d : Calib α} (h : CalibCovers R A M format c d) {n e : F64} {u v : α}
    (hn : R n u) (he : R e v) :
    R (project (f64Arith M) c n e).1 (project A d u v).1 ∧ R (project (f64Arith M) c n e).2 (project A d u v).2 := by
  by_cases hp : c.hasProjection = true
  · obtain ⟨w1, w2⟩ := h.wgs hp
    have hp' : d.hasProjection = true := by rw [h.has]; exact hp
    obtain ⟨p1, p2⟩ := plane_covers hC format hn he
    obtain ⟨rx, ry, hs, ox, oy, wg⟩ := c
    obtain ⟨rx', ry', hs', ox', oy', wg'⟩ := d
    simp only at hp hp' w1 w2
    subst hp hp' w1 w2
    rw [project_eq, project_eq]
    exact ⟨hC.div (hC.sub p1 h.offx) h.rx, hC.div (hC.sub p2 h.offy) h.ry⟩
  · have hp' : d.hasProjection = false := by rw [h.has]; simpa using hp
    have hp : c.hasProjection = false := by simpa using hp
    unfold project
    rw [hp, hp']
    exact ⟨hC.nan, hC.nan⟩

theorem calibrate_covers (format dx dy : Int) :
    CalibCovers R A M format (calibrate (f64Arith M) format dx dy) (calibrate A format dx dy) := by
  have hnone : CalibCovers R A M format ⟨(f64Arith M).nan, (f64Arith M).nan, false, (f64Arith M).nan, (f64Arith M).nan, none⟩
      ⟨A.nan, A.nan, false, A.nan, A.nan, none⟩ := ⟨hC.nan, hC.nan, hC.nan, hC.nan, rfl, by simp⟩
  by_cases hg : detectGrid dx dy = .unknown
  · unfold calibrate
    simp only [hg, cornerPoints]
    exact hnone
  · have hbase : ∃ ot ol eb er, corners (gridBase (detectGrid dx dy)) format = some (ot, ol, eb, er) := by
      cases hd : detectGrid dx dy <;> simp only [gridBase, corners] <;> first
        | exact absurd hd hg
        | simp
      split <;> simp
    obtain ⟨ot, ol, eb, er, hc⟩ := hbase
    have c1 := cornerPoints_spec (f64Arith M) hg hc
    have c2 := cornerPoints_spec A hg hc
    unfold calibrate
    simp only
    rw [c1, c2]
    simp only
    by_cases hcond : 5 ≤ format ∧ detectGrid dx dy ≠ .de1200
    · rw [if_pos hcond, if_pos hcond]
      exact hnone
    · rw [if_neg hcond, if_neg hcond]
      simp only [project_eq]
      obtain ⟨o1, o2⟩ := plane_covers hC format (hC.lit ot) (hC.lit ol)
      obtain ⟨e1, e2⟩ := plane_covers hC format (hC.lit eb) (hC.lit er)
      have f1 := hC.div (hC.sub o1 (hC.lit 0)) (hC.lit 1)
      have f2 := hC.div (hC.sub o2 (hC.lit 0)) (hC.lit 1)
      exact ⟨hC.div (hC.div (hC.sub e1 f1) (hC.lit 1)) (hC.ofInt dx), hC.div (hC.div (hC.sub e2 f2) (hC.lit 1)) (hC.ofInt dy),
        f1, f2, rfl, fun _ => ⟨rfl, rfl⟩⟩

end

/-! ### the property -/

/-- the resolution and offset a permitted evaluation computes when the composite is created -/
def permittedCalib (E : Env) (c : Composite) : Calib (Inter → Prop) := calibrate (permittedArith E.math) c.format c.dx c.dy

/-- what a permitted evaluation of `c.Project(north, east)` computes -/
def permittedProject (E : Env) (c : Composite) (north east : F64) : (Inter → Prop) × (Inter → Prop) :=
  project (permittedArith E.math) (permittedCalib E c) (just north) (just east)

/-- C67. The evaluation of the model, with every operation rounded, is one of the permitted ones, for all composites and
all arguments. -/
theorem C67_separate_rounding {E : Env} {c : Composite} (h : Ready E c) (north east : F64) :
    Observable (permittedCalib E c).rx c.rx ∧ Observable (permittedCalib E c).ry c.ry ∧
    Observable (permittedProject E c north east).1 (c.Project E north east).1 ∧
    Observable (permittedProject E c north east).2 (c.Project E north east).2 := by
  have hC := covers_permitted E.math
  have hc := calibrate_covers hC c.format c.dx c.dy
  have hcal := ready_calib h
  obtain ⟨p1, p2⟩ := project_covers hC hc (n := north) (e := east) (u := just north) (v := just east) rfl rfl
  rw [← hcal] at hc p1 p2
  exact ⟨⟨_, hc.rx, rfl⟩, ⟨_, hc.ry, rfl⟩, ⟨_, p1, rfl⟩, ⟨_, p2, rfl⟩⟩

/-- C67. A multiply-add with a single rounding is permitted, for both signs of an exact zero. -/
theorem C67_multiply_add {M : MathLib} {x y z : F64} (hx : x.isFin = true) (hy : y.isFin = true) (hz : z.isFin = true)
    (neg : Bool) :
    let A := permittedArith M
    Observable (A.add (A.mul (just x) (just y)) (just z)) (Fl.mk f64 neg (x.val * y.val + z.val)) ∧
    Observable (A.sub (just z) (A.mul (just x) (just y))) (Fl.mk f64 neg (z.val - x.val * y.val)) := by
  intro A
  have hm : A.mul (just x) (just y) (.exact (x.val * y.val)) :=
    ⟨_, _, rfl, rfl, .kept ⟨hx, rfl⟩ ⟨hy, rfl⟩ trivial⟩
  exact ⟨⟨_, ⟨_, _, hm, rfl, .fused neg rfl ⟨hz, rfl⟩ trivial⟩, rfl⟩, ⟨_, ⟨_, _, rfl, hm, .fused neg ⟨hz, rfl⟩ rfl trivial⟩, rfl⟩⟩

theorem observable_ap {a : Inter → Prop} {r ε : ℝ} (h : Fusion.SetAp a r ε) {x : F64} (hx : Observable a x) : Ap x r ε := by
  obtain ⟨u, hu, hr⟩ := hx
  exact (h u hu).rounds hr

/-- C67. Whatever operations are fused, the resolutions are positive and differ from the exact ones by a relative error of
at most `5·10^-12`. -/
theorem C67_resolution {E : Env} (hM : AccurateMath E.math) {c : Composite} {b : Int × Int}
    (hg : HasGrid c.format c.dx c.dy b) (hdx : c.dx < 2 ^ 63) (hdy : c.dy < 2 ^ 63) :
    (∀ x, Observable (permittedCalib E c).rx x →
      PosFin x ∧ |(x.val : ℝ) - (realCalib c.format c.dx c.dy).rx| ≤ 5 / 10 ^ 12 * (realCalib c.format c.dx c.dy).rx) ∧
    (∀ y, Observable (permittedCalib E c).ry y →
      PosFin y ∧ |(y.val : ℝ) - (realCalib c.format c.dx c.dy).ry| ≤ 5 / 10 ^ 12 * (realCalib c.format c.dx c.dy).ry) := by
  obtain ⟨⟨h1, h2⟩, _⟩ := project_tr (Fusion.tracks_permitted hM) hg hdx hdy
  obtain ⟨n1, n2⟩ := C52_nominal_resolution hg
  obtain ⟨v1, _, v3, _⟩ := extent_range hg.1
  obtain ⟨q1, q2⟩ := hasGrid_pos hg
  have g1 : (0 : ℝ) < c.dx := by exact_mod_cast q1
  have g2 : (0 : ℝ) < c.dy := by exact_mod_cast q2
  have rel : ∀ {r X : ℝ} {d : Int}, (0 : ℝ) < d → 900 ≤ X → |r - X / d| ≤ X / d / 10 ^ 5 → 42 / 10 ^ 10 / (d : ℝ) ≤ 5 / 10 ^ 12 * r := by
    intro r X d hd hX hr
    have a2 := (abs_le.mp hr).1
    have a3 : 42 / 10 ^ 10 / (d : ℝ) ≤ 5 / 10 ^ 12 * (X / d - X / d / 10 ^ 5) := by
      rw [div_right_comm X, ← sub_div, ← mul_div_assoc]
      exact div_le_div_of_nonneg_right (by norm_num; linarith) hd.le
    nlinarith
  refine ⟨fun x hx => ?_, fun y hy => ?_⟩
  · have a := observable_ap h1 hx
    exact ⟨(ap_resolution a n1 v1 q1 hdx).1, a.2.trans (rel g1 v1 n1)⟩
  · have a := observable_ap h2 hy
    exact ⟨(ap_resolution a n2 v3 q2 hdy).1, a.2.trans (rel g2 v3 n2)⟩

theorem OnMap.pointTracks {north east : F64} (h : OnMap north east) :
    PointTracks Fusion.SetAp (just north) (just east) north.val east.val :=
  ⟨Fusion.just_ap h.pointAp.north, Fusion.just_ap h.pointAp.east, h.pointAp.lat, h.pointAp.lon⟩

/-- C67. Whatever operations are fused, at calibration and in the call, Project returns finite numbers that differ from
the exact projection by at most a billionth of the number of pixels along the edge. -/
theorem C67_project {E : Env} (hM : AccurateMath E.math) {c : Composite} {b : Int × Int}
    (hg : HasGrid c.format c.dx c.dy b) (hdx : c.dx < 2 ^ 63) (hdy : c.dy < 2 ^ 63)
    {north east : F64} (hp : OnMap north east) :
    let r := realProject c.format c.dx c.dy north.val east.val
    (∀ x, Observable (permittedProject E c north east).1 x → x.isFin = true ∧ |(x.val : ℝ) - r.1| ≤ c.dx / 10 ^ 9) ∧
    (∀ y, Observable (permittedProject E c north east).2 y → y.isFin = true ∧ |(y.val : ℝ) - r.2| ≤ c.dy / 10 ^ 9) := by
  obtain ⟨_, h3⟩ := project_tr (Fusion.tracks_permitted hM) hg hdx hdy
  obtain ⟨h4, h5⟩ := h3 hp.pointTracks
  exact ⟨fun x hx => observable_ap h4 hx, fun y hy => observable_ap h5 hy⟩

/-- C67. Whatever operations are fused, the documented reference points are projected to their documented places. -/
theorem C67_reference_points {E : Env} (hM : AccurateMath E.math) {c : Composite} {b : Int × Int}
    (hg : HasGrid c.format c.dx c.dy b) (hdx : c.dx < 2 ^ 63) (hdy : c.dy < 2 ^ 63)
    {n e kx ky : ℚ} (hp : (n, e, kx, ky) ∈ refPoints b c.format) :
    let q := permittedProject E c (Fl.lit f64 n) (Fl.lit f64 e)
    (∀ x, Observable q.1 x → x.isFin = true ∧ |(x.val : ℝ) * ((extentKm b).1 / c.dx) - kx| ≤ refTolerance b + 2 / 10 ^ 6) ∧
    (∀ y, Observable q.2 y → y.isFin = true ∧ |(y.val : ℝ) * ((extentKm b).2 / c.dy) - ky| ≤ refTolerance b + 2 / 10 ^ 6) := by
  obtain ⟨_, h3⟩ := project_tr (Fusion.tracks_permitted hM) hg hdx hdy
  obtain ⟨r1, r2⟩ := refPoints_range hp
  obtain ⟨h4, h5⟩ := h3 (lit_pointTracks (Fusion.tracks_permitted hM) r1 r2)
  obtain ⟨t1, t2⟩ := C52_reference_points hg hp
  obtain ⟨v1, v2, v3, v4⟩ := extent_range hg.1
  obtain ⟨q1, q2⟩ := hasGrid_pos hg
  refine ⟨fun x hx => ?_, fun y hy => ?_⟩
  · have a := observable_ap h4 hx
    refine ⟨a.1, (to_km a q1 (by linarith) t1).trans ?_⟩
    norm_num at v2 ⊢; linarith
  · have a := observable_ap h5 hy
    refine ⟨a.1, (to_km a q2 (by linarith) t2).trans ?_⟩
    norm_num at v4 ⊢; linarith

/-- a sample: a DE1200 composite of format version 5, a point and the evaluation of the model -/
example : let c := NewDummy envExact (str "WN") 5 1100 1200
    (∀ x, Observable (permittedProject envExact c (Fl.lit f64 51) (Fl.lit f64 9)).1 x →
      x.isFin = true ∧ |(x.val : ℝ) - (realProject 5 1100 1200 (Fl.lit f64 51).val (Fl.lit f64 9).val).1| ≤ 1100 / 10 ^ 9) ∧
    Observable (permittedProject envExact c (Fl.lit f64 51) (Fl.lit f64 9)).1 (c.Project envExact (Fl.lit f64 51) (Fl.lit f64 9)).1 := by
  intro c
  have lv : ∀ n : ℚ, (hn : |n| ≤ 60) → (Fl.lit f64 n).isFin = true ∧ |(Fl.lit f64 n).val - n| ≤ 1 := by
    intro n hn
    have h := lit_deg hn
    refine ⟨h.1, ?_⟩
    have h2 : |(((Fl.lit f64 n).val - n : ℚ) : ℝ)| ≤ 1 := by push_cast; exact h.2.trans (by norm_num)
    exact_mod_cast h2
  obtain ⟨a1, a2⟩ := lv 51 (by norm_num [abs_le])
  obtain ⟨b1, b2⟩ := lv 9 (by norm_num [abs_le])
  have a3 := abs_le.mp a2
  have b3 := abs_le.mp b2
  have hon : OnMap (Fl.lit f64 51) (Fl.lit f64 9) :=
    ⟨a1, by linarith [a3.1], by linarith [a3.2], b1, abs_le.mpr ⟨by linarith [b3.1], by linarith [b3.2]⟩⟩
  have := C67_project (E := envExact) exactMath_accurate (c := c) (b := (275, 300))
    ⟨by decide, ⟨2, rfl, rfl⟩, Or.inr (by decide)⟩ (show (1100 : Int) < 2 ^ 63 by decide) (show (1200 : Int) < 2 ^ 63 by decide) hon
  rw [show c.format = 5 from rfl, show c.dx = 1100 from rfl, show c.dy = 1200 from rfl] at this
  exact ⟨fun x hx => by have := this.1 x hx; push_cast at this; exact this, (C67_separate_rounding (Ready.dummy (E := envExact) _ _ _ _) _ _).2.2.1⟩

end Props
