/-
C79: where the border of Germany is drawn.
-/
import Verif.Lemmas.Border
import Verif.Props.FloatProjection
import Verif.Props.Overlay

namespace Props
open Go Radolan Spec Real Radolan.Num Radolan.Vis

/-! ### from the plane to pixels -/

/-- one axis: a point at least 10 m inside both edges in the plane is projected between the edges -/
theorem axis_inside {q : F64} {r X p o f : ℝ} {d : Int} (hq : Go.Fl.Ap q r (d / 10 ^ 9)) (hd : 0 < d)
    (hX : 900 ≤ X ∧ X ≤ 1500) (hr : r * (X / d) = (p - o) / (f - o) * X) (he : |f - o - X| ≤ X / 10 ^ 5)
    (h1 : o + 1 / 100 ≤ p) (h2 : p ≤ f - 1 / 100) : q.isFin = true ∧ 0 ≤ q.val ∧ q.val < d := by
  have g : (0 : ℝ) < d := by exact_mod_cast hd
  obtain ⟨e1, e2⟩ := abs_le.mp he
  have hfo : 0 < f - o := by linarith
  have hr' : r = (p - o) / (f - o) * d := by
    have : r * (X / d) * (d / X) = (p - o) / (f - o) * X * (d / X) := by rw [hr]
    have hX0 : X ≠ 0 := by linarith
    have hd0 : (d : ℝ) ≠ 0 := g.ne'
    rw [show r * (X / d) * (d / X) = r by field_simp, show (p - o) / (f - o) * X * (d / X) = (p - o) / (f - o) * d by field_simp] at this
    exact this
  have l1 : 1 / 10 ^ 6 ≤ (p - o) / (f - o) := by rw [le_div_iff₀ hfo]; norm_num at e2 ⊢; linarith
  have l2 : (p - o) / (f - o) ≤ 1 - 1 / 10 ^ 6 := by rw [div_le_iff₀ hfo]; norm_num at e2 ⊢; linarith
  obtain ⟨a1, a2⟩ := abs_le.mp hq.2
  have b1 := mul_le_mul_of_nonneg_right l1 g.le
  have b2 := mul_le_mul_of_nonneg_right l2 g.le
  rw [← hr'] at b1 b2
  refine ⟨hq.1, ?_, ?_⟩
  · have : (0 : ℝ) ≤ q.val := by norm_num at a1 b1; linarith
    exact_mod_cast this
  · have : (q.val : ℝ) < d := by norm_num at a2 b2; linarith
    exact_mod_cast this

/-- the border stays at least 10 m inside the grids, except that the northern tip sticks out of the 900x900 km grid -/
theorem border_plane {format : Int} {b : Int × Int} (hb : b ∈ baseGrids) (hf : format < 5 ∨ b = (275, 300)) {ot ol eb er : ℚ}
    (hc : corners b format = some (ot, ol, eb, er)) {n e : ℝ} (h : Num.Near n e) (ht : b ≠ (225, 225) ∨ n ≤ 54.89) :
    ((planeXY realArith format ot ol).1 + 1 / 100 ≤ (planeXY realArith format n e).1 ∧
      (planeXY realArith format n e).1 ≤ (planeXY realArith format eb er).1 - 1 / 100) ∧
    ((planeXY realArith format ot ol).2 + 1 / 100 ≤ (planeXY realArith format n e).2 ∧
      (planeXY realArith format n e).2 ≤ (planeXY realArith format eb er).2 - 1 / 100) := by
  have hf' := fun hne => spherical_of hf hne
  simp only [baseGrids, List.mem_cons, List.not_mem_nil, or_false] at hb
  rcases hb with rfl | rfl | rfl | rfl | rfl
  · have hf := hf' (by decide)
    simp [corners] at hc
    obtain ⟨rfl, rfl, rfl, rfl⟩ := hc
    obtain ⟨x1, x2, y1, y2⟩ := Num.box_sphere hf h
    have x3 := Num.box_east hf h
    have y3 := Num.box_tip hf h (ht.resolve_left (by simp))
    have o1 := abs_le.mp (Num.pt_g900_0 hf).1
    have o2 := abs_le.mp (Num.pt_g900_0 hf).2
    have f1 := abs_le.mp (Num.pt_g900_4 hf).1
    have f2 := abs_le.mp (Num.pt_g900_4 hf).2
    push_cast
    norm_num at o1 o2 f1 f2 x1 x2 x3 y1 y2 y3 ⊢
    refine ⟨⟨?_, ?_⟩, ?_, ?_⟩ <;> linarith [o1.1, o1.2, o2.1, o2.2, f1.1, f1.2, f2.1, f2.2]
  · have hf := hf' (by decide)
    simp [corners] at hc
    obtain ⟨rfl, rfl, rfl, rfl⟩ := hc
    obtain ⟨x1, x2, y1, y2⟩ := Num.box_sphere hf h
    have x3 := Num.box_east hf h
    have y3 := Num.box_north hf h
    have o1 := abs_le.mp (Num.pt_g920_0 hf).1
    have o2 := abs_le.mp (Num.pt_g920_0 hf).2
    have f1 := abs_le.mp (Num.pt_g920_4 hf).1
    have f2 := abs_le.mp (Num.pt_g920_4 hf).2
    push_cast
    norm_num at o1 o2 f1 f2 x1 x2 x3 y1 y2 y3 ⊢
    refine ⟨⟨?_, ?_⟩, ?_, ?_⟩ <;> linarith [o1.1, o1.2, o2.1, o2.2, f1.1, f1.2, f2.1, f2.2]
  · have hf := hf' (by decide)
    simp [corners] at hc
    obtain ⟨rfl, rfl, rfl, rfl⟩ := hc
    obtain ⟨x1, x2, y1, y2⟩ := Num.box_sphere hf h
    have o1 := abs_le.mp (Num.pt_g1100_0 hf).1
    have o2 := abs_le.mp (Num.pt_g1100_0 hf).2
    have f1 := abs_le.mp (Num.pt_g1100_4 hf).1
    have f2 := abs_le.mp (Num.pt_g1100_4 hf).2
    push_cast
    norm_num at o1 o2 f1 f2 x1 x2 y1 y2 ⊢
    refine ⟨⟨?_, ?_⟩, ?_, ?_⟩ <;> linarith [o1.1, o1.2, o2.1, o2.2, f1.1, f1.2, f2.1, f2.2]
  · clear hf hf'
    by_cases hf : 5 ≤ format
    · simp [corners, hf] at hc
      obtain ⟨rfl, rfl, rfl, rfl⟩ := hc
      obtain ⟨x1, x2, y1, y2⟩ := Num.box_wgs hf h
      have o1 := abs_le.mp (Num.pt_g1200w_0 hf).1
      have o2 := abs_le.mp (Num.pt_g1200w_0 hf).2
      have f1 := abs_le.mp (Num.pt_g1200w_2 hf).1
      have f2 := abs_le.mp (Num.pt_g1200w_2 hf).2
      push_cast
      norm_num at o1 o2 f1 f2 x1 x2 y1 y2 ⊢
      refine ⟨⟨?_, ?_⟩, ?_, ?_⟩ <;> linarith [o1.1, o1.2, o2.1, o2.2, f1.1, f1.2, f2.1, f2.2]
    · simp [corners, hf] at hc
      obtain ⟨rfl, rfl, rfl, rfl⟩ := hc
      obtain ⟨x1, x2, y1, y2⟩ := Num.box_sphere hf h
      have o1 := abs_le.mp (Num.pt_g1200s_0 hf).1
      have o2 := abs_le.mp (Num.pt_g1200s_0 hf).2
      have f1 := abs_le.mp (Num.pt_g1200s_4 hf).1
      have f2 := abs_le.mp (Num.pt_g1200s_4 hf).2
      push_cast
      norm_num at o1 o2 f1 f2 x1 x2 y1 y2 ⊢
      refine ⟨⟨?_, ?_⟩, ?_, ?_⟩ <;> linarith [o1.1, o1.2, o2.1, o2.2, f1.1, f1.2, f2.1, f2.2]
  · have hf := hf' (by decide)
    simp [corners] at hc
    obtain ⟨rfl, rfl, rfl, rfl⟩ := hc
    obtain ⟨x1, x2, y1, y2⟩ := Num.box_sphere hf h
    have o1 := abs_le.mp (Num.pt_g1500_0 hf).1
    have o2 := abs_le.mp (Num.pt_g1500_0 hf).2
    have f1 := abs_le.mp (Num.pt_g1500_4 hf).1
    have f2 := abs_le.mp (Num.pt_g1500_4 hf).2
    push_cast
    norm_num at o1 o2 f1 f2 x1 x2 y1 y2 ⊢
    refine ⟨⟨?_, ?_⟩, ?_, ?_⟩ <;> linarith [o1.1, o1.2, o2.1, o2.2, f1.1, f1.2, f2.1, f2.2]

/-! ### the points of the table -/

/-- a point of the border as written and as float64 values -/
theorem border_mem {p : F64 × F64} (hp : p ∈ Cli.border) : ∃ a b : Nat, (a, b) ∈ Cli.borderTable ∧
    p = (Fl.lit f64 (mkRat a (10 ^ 6)), Fl.lit f64 (mkRat b (10 ^ 6))) := by
  unfold Cli.border at hp
  obtain ⟨⟨a, b⟩, h, rfl⟩ := List.mem_map.mp hp
  exact ⟨a, b, h, rfl⟩

theorem mkRat_real (a : Nat) : ((mkRat a (10 ^ 6) : ℚ) : ℝ) = (a : ℝ) / 10 ^ 6 := by
  rw [Rat.mkRat_eq_div]; push_cast; norm_num

theorem border_point {a b : Nat} (h : (a, b) ∈ Cli.borderTable) :
    PointAp (Fl.lit f64 (mkRat a (10 ^ 6))) (Fl.lit f64 (mkRat b (10 ^ 6))) ((a : ℝ) / 10 ^ 6) ((b : ℝ) / 10 ^ 6) := by
  have hn := Num.near_of_mem h
  have h1 := hn.hs; have h2 := hn.hn; have h3 := hn.hw; have h4 := hn.he
  norm_num at h1 h2 h3 h4
  have ha : (0 : ℚ) ≤ mkRat a (10 ^ 6) ∧ (mkRat a (10 ^ 6) : ℚ) ≤ 60 := by
    constructor
    · have : (0 : ℝ) ≤ ((mkRat a (10 ^ 6) : ℚ) : ℝ) := by rw [mkRat_real]; norm_num; linarith
      exact_mod_cast this
    · have : ((mkRat a (10 ^ 6) : ℚ) : ℝ) ≤ 60 := by rw [mkRat_real]; norm_num; linarith
      exact_mod_cast this
  have hb : |(mkRat b (10 ^ 6) : ℚ)| ≤ 60 := by
    have : |((mkRat b (10 ^ 6) : ℚ) : ℝ)| ≤ 60 := by
      rw [mkRat_real, abs_le]; norm_num; constructor <;> linarith
    exact_mod_cast this
  have := lit_pointAp ha hb
  rw [mkRat_real, mkRat_real] at this
  exact this

/-- the float64 value is within a tenth of a millionth of the literal -/
theorem border_value {a b : Nat} (h : (a, b) ∈ Cli.borderTable) :
    |((Fl.lit f64 (mkRat a (10 ^ 6))).val : ℝ) - (a : ℝ) / 10 ^ 6| ≤ 1 / 10 ^ 7 := by
  have := (border_point h).1.2
  refine this.trans ?_
  norm_num

/-- C79. For every grid with a projection at every resolution, Project maps every point of the border of Germany to a
place inside the grid; on the 900x900 km grid this holds for the points south of 54.89 N. -/
theorem C79_border_inside {E : Env} (hM : AccurateMath E.math) {c : Composite} (h : Ready E c) {b : Int × Int}
    (hg : HasGrid c.format c.dx c.dy b) (hdx : c.dx < 2 ^ 63) (hdy : c.dy < 2 ^ 63) {p : F64 × F64} (hp : p ∈ Cli.border)
    (ht : b ≠ (225, 225) ∨ p.1.val ≤ 54.89) :
    let q := c.Project E p.1 p.2
    (q.1.isFin = true ∧ 0 ≤ q.1.val ∧ q.1.val < c.dx) ∧ (q.2.isFin = true ∧ 0 ≤ q.2.val ∧ q.2.val < c.dy) := by
  obtain ⟨m, k, hm, rfl⟩ := border_mem hp
  obtain ⟨ot, ol, eb, er, hc⟩ := corners_isSome hg
  obtain ⟨_, h3⟩ := float_projection hM h hg hdx hdy
  obtain ⟨h4, h5⟩ := h3 (border_point hm)
  obtain ⟨q1, q2⟩ := hasGrid_pos hg
  obtain ⟨v1, v2, v3, v4⟩ := extent_range hg.1
  obtain ⟨e1, e2⟩ := position_eq hg hc ((m : ℝ) / 10 ^ 6) ((k : ℝ) / 10 ^ 6)
  obtain ⟨x1, x2⟩ := plane_extent hg hc
  have ht' : b ≠ (225, 225) ∨ (m : ℝ) / 10 ^ 6 ≤ 54.89 := by
    refine ht.imp id fun ht => ?_
    have hv := (abs_le.mp (border_value hm)).1
    have ht2 : ((Fl.lit f64 (mkRat m (10 ^ 6))).val : ℝ) ≤ 54.89 := by
      have := (Rat.cast_le (K := ℝ)).mpr ht; push_cast at this; exact this
    generalize ((Fl.lit f64 (mkRat m (10 ^ 6))).val : ℝ) = v at hv ht2
    have : (m : ℝ) < 54890001 := by
      norm_num at hv ht2
      linarith
    have : m < 54890001 := by exact_mod_cast this
    have : (m : ℝ) ≤ 54890000 := by exact_mod_cast (by omega : m ≤ 54890000)
    norm_num; linarith
  obtain ⟨⟨p1, p2⟩, p3, p4⟩ := border_plane hg.1 hg.2.2 hc (Num.near_of_mem hm) ht'
  exact ⟨axis_inside h4 q1 ⟨v1, v2.trans (by norm_num)⟩ e1 x1 p1 p2, axis_inside h5 q2 ⟨v3, v4⟩ e2 x2 p3 p4⟩

/-- one axis: a point at least 10 m before the first edge in the plane -/
theorem axis_before {q : F64} {r X p o f : ℝ} {d : Int} (hq : Go.Fl.Ap q r (d / 10 ^ 9)) (hd : 0 < d)
    (hX : 900 ≤ X ∧ X ≤ 1500) (hr : r * (X / d) = (p - o) / (f - o) * X) (he : |f - o - X| ≤ X / 10 ^ 5)
    (h1 : p ≤ o - 1 / 100) : q.isFin = true ∧ q.val < 0 := by
  have g : (0 : ℝ) < d := by exact_mod_cast hd
  obtain ⟨e1, e2⟩ := abs_le.mp he
  have hfo : 0 < f - o := by linarith
  have hr' : r = (p - o) / (f - o) * d := by
    have : r * (X / d) * (d / X) = (p - o) / (f - o) * X * (d / X) := by rw [hr]
    have hX0 : X ≠ 0 := by linarith
    have hd0 : (d : ℝ) ≠ 0 := g.ne'
    rw [show r * (X / d) * (d / X) = r by field_simp, show (p - o) / (f - o) * X * (d / X) = (p - o) / (f - o) * d by field_simp] at this
    exact this
  have l2 : (p - o) / (f - o) ≤ -(1 / 10 ^ 6) := by rw [div_le_iff₀ hfo]; norm_num at e2 ⊢; linarith
  obtain ⟨a1, a2⟩ := abs_le.mp hq.2
  have b2 := mul_le_mul_of_nonneg_right l2 g.le
  rw [← hr'] at b2
  refine ⟨hq.1, ?_⟩
  have : (q.val : ℝ) < 0 := by norm_num at a2 b2; linarith
  exact_mod_cast this

/-- C79 (finding). The 900x900 km grid cuts off the northern tip of Germany: at every resolution, border points north
of 54.91 N are projected above the picture. -/
theorem C79_national_cut {E : Env} (hM : AccurateMath E.math) {c : Composite} (h : Ready E c)
    (hg : HasGrid c.format c.dx c.dy (225, 225)) (hdx : c.dx < 2 ^ 63) (hdy : c.dy < 2 ^ 63) {p : F64 × F64}
    (hp : p ∈ Cli.border) (ht : 54.91 ≤ p.1.val) :
    (c.Project E p.1 p.2).2.isFin = true ∧ (c.Project E p.1 p.2).2.val < 0 := by
  obtain ⟨m, k, hm, rfl⟩ := border_mem hp
  obtain ⟨ot, ol, eb, er, hc⟩ := corners_isSome hg
  obtain ⟨_, h3⟩ := float_projection hM h hg hdx hdy
  obtain ⟨h4, h5⟩ := h3 (border_point hm)
  obtain ⟨q1, q2⟩ := hasGrid_pos hg
  obtain ⟨v1, v2, v3, v4⟩ := extent_range hg.1
  obtain ⟨e1, e2⟩ := position_eq hg hc ((m : ℝ) / 10 ^ 6) ((k : ℝ) / 10 ^ 6)
  obtain ⟨x1, x2⟩ := plane_extent hg hc
  have ht' : 54.91 ≤ (m : ℝ) / 10 ^ 6 := by
    have hv := (abs_le.mp (border_value hm)).2
    have ht2 : 54.91 ≤ ((Fl.lit f64 (mkRat m (10 ^ 6))).val : ℝ) := by
      have := (Rat.cast_le (K := ℝ)).mpr ht; push_cast at this; exact this
    generalize ((Fl.lit f64 (mkRat m (10 ^ 6))).val : ℝ) = v at hv ht2
    have : 54909999 < (m : ℝ) := by
      norm_num at hv ht2
      linarith
    have : 54909999 < m := by exact_mod_cast this
    have : 54910000 ≤ (m : ℝ) := by exact_mod_cast (by omega : 54910000 ≤ m)
    norm_num; linarith
  refine axis_before h5 q2 ⟨v3, v4⟩ e2 x2 ?_
  have hn := Num.near_of_mem hm
  have hf := spherical_of hg.2.2 (by decide)
  have hy := Num.y_le c.format (e := (k : ℝ) / 10 ^ 6) (by norm_num) ht' (by linarith [hn.hn])
  refine hy.trans ?_
  simp [corners] at hc
  obtain ⟨rfl, rfl, rfl, rfl⟩ := hc
  have o2 := abs_le.mp (Num.pt_g900_0 hf).2
  have k2 := abs_le.mp (Num.bs_out hf).2
  push_cast
  norm_num at o2 k2 ⊢
  linarith [o2.1, k2.2]

/-- such points exist -/
example : ∃ p ∈ Cli.border, 54.91 ≤ p.1.val := by
  refine ⟨(Fl.lit f64 (mkRat 54911210 (10 ^ 6)), Fl.lit f64 (mkRat 8638322 (10 ^ 6))), ?_, by decide +kernel⟩
  exact List.mem_map.mpr ⟨(54911210, 8638322), by decide +kernel, rfl⟩

/-- int(x) of a nonnegative number below 2^63 is its floor -/
theorem toInt_floor (i : F64 → Int) {x : F64} {d : Int} (hx : x.isFin = true) (h0 : 0 ≤ x.val) (h1 : x.val < d) (hd : d < 2 ^ 63) :
    ∃ k : Nat, Fl.toInt i x = k ∧ (k : ℚ) ≤ x.val ∧ x.val < k + 1 ∧ (k : Int) < d := by
  obtain ⟨k1, k2⟩ := Fl.ratTrunc_nonneg_bounds h0
  have a : (-1 : ℚ) < Fl.ratTrunc x.val := by linarith
  have b : (Fl.ratTrunc x.val : ℚ) < d := by linarith
  have a : -1 < Fl.ratTrunc x.val := by exact_mod_cast a
  have b : Fl.ratTrunc x.val < d := by exact_mod_cast b
  refine ⟨(Fl.ratTrunc x.val).toNat, ?_, ?_, ?_, by omega⟩
  · unfold Fl.toInt
    rw [if_pos hx, if_pos (by omega)]
    omega
  · have : (((Fl.ratTrunc x.val).toNat : Int) : ℚ) = Fl.ratTrunc x.val := by rw [Int.toNat_of_nonneg (by omega)]
    push_cast at this; linarith
  · have : (((Fl.ratTrunc x.val).toNat : Int) : ℚ) = Fl.ratTrunc x.val := by rw [Int.toNat_of_nonneg (by omega)]
    push_cast at this; linarith

/-- C79. radolan2png draws the border: for every accepted file on a grid with a projection, every point of the border of
Germany (south of 54.89 N on the 900x900 km grid) lies on a pixel of the picture, and that pixel has the colour of the
border, or of the mesh. -/
theorem C79_border_drawn {E : Env} (hM : AccurateMath E.math) (I : Vis.Impl) {input : Bytes} {c : Composite}
    (h : NewComposite E input = .ret c none) {b : Int × Int} (hg : HasGrid c.format c.dx c.dy b) (hsz : 4 * (c.dx * c.dy) ≤ 2 ^ 48)
    {p : F64 × F64} (hp : p ∈ Cli.border) (ht : b ≠ (225, 225) ∨ p.1.val ≤ 54.89) :
    ∃ (img : Img) (x y : Nat), Cli.convert E I Cli.border input = .image img ∧ (img.w : Int) = c.dx ∧ (img.h : Int) = c.dy ∧
      (x : Int) < c.dx ∧ (y : Int) < c.dy ∧
      (x ≤ (c.Project E p.1 p.2).1.val ∧ (c.Project E p.1 p.2).1.val < x + 1) ∧
      (y ≤ (c.Project E p.1 p.2).2.val ∧ (c.Project E p.1 p.2).2.val < y + 1) ∧
      (img.at x y = some ⟨0xFF, 0xFF, 0x00, 0xFF⟩ ∨ img.at x y = some ⟨0x33, 0xFF, 0x22, 0xFF⟩) := by
  obtain ⟨g1, g2⟩ := hasGrid_pos hg
  have hdx : c.dx < 2 ^ 63 := by nlinarith
  have hdy : c.dy < 2 ^ 63 := by nlinarith
  have hr : Ready E c := .parsed _ _ (Or.inl h)
  obtain ⟨⟨f1, a1, b1⟩, f2, a2, b2⟩ := C79_border_inside hM hr hg hdx hdy hp ht
  obtain ⟨x, tx, x1, x2, x3⟩ := toInt_floor I.int f1 a1 b1 hdx
  obtain ⟨y, ty, y1, y2, y3⟩ := toInt_floor I.int f2 a2 b2 hdy
  obtain ⟨img, fn, mesh, i1, _, _, i2, i3, i4⟩ := (C50_drawing E I Cli.border input).2 c h hsz
  refine ⟨img, x, y, i1, i2, i3, x3, y3, ⟨x1, x2⟩, ⟨y1, y2⟩, ?_⟩
  obtain ⟨v, _, _, i5⟩ := i4 x y x3 y3
  obtain ⟨j1, j2, _⟩ := i5 ((C31_has_projection_iff hr).mpr ⟨b, hg.1, hg.2.1, hg.2.2⟩)
  by_cases hmesh : Hits E I c mesh x y
  · exact Or.inr (j1 hmesh)
  · exact Or.inl (j2 hmesh ⟨p, hp, tx, ty⟩)

/-- C79 (finding). The conversion to a pixel truncates toward zero, so that points up to a pixel above (or left of) the
picture are drawn on its first row (or column): on the 900x900 composite the border point 54.900917 N 8.707681 E lies
0.45 pixels above the picture but is drawn on pixel (438, 0). -/
theorem C79_smeared {E : Env} (hM : AccurateMath E.math) (I : Vis.Impl) {c : Composite} (h : Ready E c) (hf : c.format < 5)
    (hx : c.dx = 900) (hy : c.dy = 900) :
    ∃ p ∈ Cli.border, -1 < (c.Project E p.1 p.2).2.val ∧ (c.Project E p.1 p.2).2.val < -(45 / 100) ∧
      Fl.toInt I.int (c.Project E p.1 p.2).1 = 438 ∧ Fl.toInt I.int (c.Project E p.1 p.2).2 = 0 := by
  have hm : (54900917, 8707681) ∈ Cli.borderTable := by decide +kernel
  have hg : HasGrid c.format c.dx c.dy (225, 225) := ⟨by decide, ⟨2, by rw [hx]; rfl, by rw [hy]; rfl⟩, Or.inl hf⟩
  refine ⟨_, List.mem_map.mpr ⟨_, hm, rfl⟩, ?_⟩
  obtain ⟨_, h3⟩ := float_projection hM h hg (by rw [hx]; norm_num) (by rw [hy]; norm_num)
  obtain ⟨h4, h5⟩ := h3 (border_point hm)
  obtain ⟨ot, ol, eb, er, hc⟩ := corners_isSome hg
  obtain ⟨e1, e2⟩ := position_eq hg hc ((54900917 : Nat) / 10 ^ 6 : ℝ) ((8707681 : Nat) / 10 ^ 6 : ℝ)
  simp only
  generalize c.Project E (Fl.lit f64 (mkRat (54900917 : Nat) (10 ^ 6))) (Fl.lit f64 (mkRat (8707681 : Nat) (10 ^ 6))) = q at *
  generalize realProject c.format c.dx c.dy ((54900917 : Nat) / 10 ^ 6 : ℝ) ((8707681 : Nat) / 10 ^ 6 : ℝ) = r at *
  have hf := spherical_of hg.2.2 (by decide)
  simp [corners] at hc
  obtain ⟨rfl, rfl, rfl, rfl⟩ := hc
  have o1 := abs_le.mp (Num.pt_g900_0 hf).1
  have o2 := abs_le.mp (Num.pt_g900_0 hf).2
  have f1 := abs_le.mp (Num.pt_g900_4 hf).1
  have f2 := abs_le.mp (Num.pt_g900_4 hf).2
  have p1 := abs_le.mp (Num.bs_edge hf).1
  have p2 := abs_le.mp (Num.bs_edge hf).2
  simp [extentKm, hx] at e1
  simp [extentKm, hy] at e2
  norm_num at e1 e2 o1 o2 f1 f2 p1 p2
  obtain ⟨a1, a2⟩ := abs_le.mp h4.2
  obtain ⟨a3, a4⟩ := abs_le.mp h5.2
  rw [hx] at a1 a2
  rw [hy] at a3 a4
  push_cast at a1 a2 a3 a4
  rw [div_mul_eq_mul_div] at e1 e2
  have b1 : 438 + 1 / 10 ≤ r.1 := by
    rw [e1, le_div_iff₀ (by linarith [o1.2, f1.1])]; linarith [o1.1, o1.2, f1.1, f1.2, p1.1, p1.2]
  have b2 : r.1 ≤ 438 + 9 / 10 := by
    rw [e1, div_le_iff₀ (by linarith [o1.2, f1.1])]; linarith [o1.1, o1.2, f1.1, f1.2, p1.1, p1.2]
  have b3 : -(1 / 2) ≤ r.2 := by
    rw [e2, le_div_iff₀ (by linarith [o2.2, f2.1])]; linarith [o2.1, o2.2, f2.1, f2.2, p2.1, p2.2]
  have b4 : r.2 ≤ -(451 / 1000) := by
    rw [e2, div_le_iff₀ (by linarith [o2.2, f2.1])]; linarith [o2.1, o2.2, f2.1, f2.2, p2.1, p2.2]
  have c1 : (438 : ℝ) ≤ q.1.val := by norm_num at a1; linarith
  have c2 : (q.1.val : ℝ) < 439 := by norm_num at a2; linarith
  have c3 : (-1 : ℝ) < q.2.val := by norm_num at a3; linarith
  have c4 : (q.2.val : ℝ) < -(45 / 100) := by norm_num at a4 ⊢; linarith
  have c1 : (438 : ℚ) ≤ q.1.val := by exact_mod_cast c1
  have c2 : q.1.val < 439 := by exact_mod_cast c2
  have c3 : -1 < q.2.val := by exact_mod_cast c3
  have c4 : q.2.val < -(45 / 100) := by
    have : ((q.2.val : ℚ) : ℝ) < ((-(45 / 100) : ℚ) : ℝ) := by push_cast; exact c4
    exact_mod_cast this
  refine ⟨c3, c4, ?_, ?_⟩
  · obtain ⟨k, t1, t2, t3, _⟩ := toInt_floor I.int h4.1 (by linarith) (d := 439) (by push_cast; exact c2) (by norm_num)
    rw [t1]
    have u1 : (k : ℚ) < 439 := by linarith
    have u2 : (437 : ℚ) < k := by linarith
    have u1 : k < 439 := by exact_mod_cast u1
    have u2 : 437 < k := by exact_mod_cast u2
    omega
  · obtain ⟨t1, t2⟩ := Fl.ratTrunc_neg_bounds (a := q.2.val) (by linarith)
    have u1 : (-1 : ℚ) < Fl.ratTrunc q.2.val := by linarith
    have u2 : (Fl.ratTrunc q.2.val : ℚ) < 1 := by linarith
    have u1 : -1 < Fl.ratTrunc q.2.val := by exact_mod_cast u1
    have u2 : Fl.ratTrunc q.2.val < 1 := by exact_mod_cast u2
    unfold Fl.toInt
    rw [if_pos h5.1, if_pos (by omega)]
    omega

/-- the hypotheses: a 900x900 placeholder composite at 1 km resolution -/
example (E : Env) : Ready E (NewDummy E (str "RX") 3 900 900) ∧
    HasGrid (NewDummy E (str "RX") 3 900 900).format (NewDummy E (str "RX") 3 900 900).dx (NewDummy E (str "RX") 3 900 900).dy (225, 225) :=
  ⟨.dummy .., by decide, ⟨2, rfl, rfl⟩, Or.inl (by show (3 : Int) < 5; decide)⟩

/-- 12492 points are drawn, among them points south of 54.89 N -/
example : Cli.border.length = 12492 ∧ ∃ p ∈ Cli.border, p.1.val ≤ 54.89 := by
  refine ⟨by unfold Cli.border; rw [List.length_map]; exact Num.table_length, ?_⟩
  exact ⟨_, List.mem_map.mpr ⟨(47420887, 11155234), by decide +kernel, rfl⟩, by decide +kernel⟩

end Props
