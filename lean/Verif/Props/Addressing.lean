/-
C80: every pixel can be addressed by a coordinate.
-/
import Verif.Props.Plane
import Verif.Props.FloatProjection

namespace Props
open Go Radolan Spec Real

/-! ### where the grids lie relative to the pole -/

/-- the grids lie between 3508 and 5009 km below the pole and within 727 km of its meridian -/
theorem corner_box {format dx dy : Int} {b : Int × Int} (h : HasGrid format dx dy b) {ot ol eb er : ℚ}
    (hc : corners b format = some (ot, ol, eb, er)) :
    (-727 ≤ (planeXY realArith format ot ol).1 - (pole format).1 ∧ (planeXY realArith format eb er).1 - (pole format).1 ≤ 727) ∧
    (3508 ≤ (planeXY realArith format ot ol).2 - (pole format).2 ∧ (planeXY realArith format eb er).2 - (pole format).2 ≤ 5009) := by
  obtain ⟨hb, _, hf⟩ := h
  have hf' := fun hne => spherical_of hf hne
  simp only [baseGrids, List.mem_cons, List.not_mem_nil, or_false] at hb
  unfold pole
  rcases hb with rfl | rfl | rfl | rfl | rfl
  · have hf := hf' (by decide)
    simp [corners] at hc
    obtain ⟨rfl, rfl, rfl, rfl⟩ := hc
    have o1 := abs_le.mp (Num.pt_g900_0 hf).1
    have o2 := abs_le.mp (Num.pt_g900_0 hf).2
    have f1 := abs_le.mp (Num.pt_g900_4 hf).1
    have f2 := abs_le.mp (Num.pt_g900_4 hf).2
    rw [if_neg hf]
    norm_num at o1 o2 f1 f2 ⊢
    refine ⟨⟨?_, ?_⟩, ?_, ?_⟩ <;> linarith [o1.1, o1.2, o2.1, o2.2, f1.1, f1.2, f2.1, f2.2]
  · have hf := hf' (by decide)
    simp [corners] at hc
    obtain ⟨rfl, rfl, rfl, rfl⟩ := hc
    have o1 := abs_le.mp (Num.pt_g920_0 hf).1
    have o2 := abs_le.mp (Num.pt_g920_0 hf).2
    have f1 := abs_le.mp (Num.pt_g920_4 hf).1
    have f2 := abs_le.mp (Num.pt_g920_4 hf).2
    rw [if_neg hf]
    norm_num at o1 o2 f1 f2 ⊢
    refine ⟨⟨?_, ?_⟩, ?_, ?_⟩ <;> linarith [o1.1, o1.2, o2.1, o2.2, f1.1, f1.2, f2.1, f2.2]
  · have hf := hf' (by decide)
    simp [corners] at hc
    obtain ⟨rfl, rfl, rfl, rfl⟩ := hc
    have o1 := abs_le.mp (Num.pt_g1100_0 hf).1
    have o2 := abs_le.mp (Num.pt_g1100_0 hf).2
    have f1 := abs_le.mp (Num.pt_g1100_4 hf).1
    have f2 := abs_le.mp (Num.pt_g1100_4 hf).2
    rw [if_neg hf]
    norm_num at o1 o2 f1 f2 ⊢
    refine ⟨⟨?_, ?_⟩, ?_, ?_⟩ <;> linarith [o1.1, o1.2, o2.1, o2.2, f1.1, f1.2, f2.1, f2.2]
  · clear hf hf'
    by_cases hf : 5 ≤ format
    · simp [corners, hf] at hc
      obtain ⟨rfl, rfl, rfl, rfl⟩ := hc
      have o1 := abs_le.mp (Num.pt_g1200w_0 hf).1
      have o2 := abs_le.mp (Num.pt_g1200w_0 hf).2
      have f1 := abs_le.mp (Num.pt_g1200w_2 hf).1
      have f2 := abs_le.mp (Num.pt_g1200w_2 hf).2
      rw [if_pos hf]
      norm_num at o1 o2 f1 f2 ⊢
      refine ⟨⟨?_, ?_⟩, ?_, ?_⟩ <;> linarith [o1.1, o1.2, o2.1, o2.2, f1.1, f1.2, f2.1, f2.2]
    · simp [corners, hf] at hc
      obtain ⟨rfl, rfl, rfl, rfl⟩ := hc
      have o1 := abs_le.mp (Num.pt_g1200s_0 hf).1
      have o2 := abs_le.mp (Num.pt_g1200s_0 hf).2
      have f1 := abs_le.mp (Num.pt_g1200s_4 hf).1
      have f2 := abs_le.mp (Num.pt_g1200s_4 hf).2
      rw [if_neg hf]
      norm_num at o1 o2 f1 f2 ⊢
      refine ⟨⟨?_, ?_⟩, ?_, ?_⟩ <;> linarith [o1.1, o1.2, o2.1, o2.2, f1.1, f1.2, f2.1, f2.2]
  · have hf := hf' (by decide)
    simp [corners] at hc
    obtain ⟨rfl, rfl, rfl, rfl⟩ := hc
    have o1 := abs_le.mp (Num.pt_g1500_0 hf).1
    have o2 := abs_le.mp (Num.pt_g1500_0 hf).2
    have f1 := abs_le.mp (Num.pt_g1500_4 hf).1
    have f2 := abs_le.mp (Num.pt_g1500_4 hf).2
    rw [if_neg hf]
    norm_num at o1 o2 f1 f2 ⊢
    refine ⟨⟨?_, ?_⟩, ?_, ?_⟩ <;> linarith [o1.1, o1.2, o2.1, o2.2, f1.1, f1.2, f2.1, f2.2]

/-- the equator is more than 6000 km from the pole on the map, 60 N less than 3500 km -/
theorem radius_marks (format : Int) : 6000 ≤ radius format 0 ∧ radius format 60 ≤ 3500 := by
  have s60 : sin (rads 60) = √3 / 2 := by
    rw [show rads 60 = π / 3 by unfold rads; ring, sin_pi_div_three]
  have c60 : cos (rads 60) = 1 / 2 := by
    rw [show rads 60 = π / 3 by unfold rads; ring, cos_pi_div_three]
  have q3 : 1.732 ≤ √3 := Real.le_sqrt_of_sq_le (by norm_num)
  have p0 : polar (rads 0) = 1 := by unfold polar rads; simp
  have hp : polar (rads 60) ≤ 0.268 := by
    unfold polar
    rw [s60, c60, div_le_iff₀ (by linarith)]; norm_num at q3 ⊢; linarith
  unfold radius
  by_cases hf : 5 ≤ format
  · rw [if_pos hf, if_pos hf]
    have f0 : ellFactor ecc84 (rads 0) = 1 := by unfold ellFactor rads; simp
    constructor
    · unfold ellPolar; rw [p0, f0]; norm_num
    · have hr := (ellFactor_range (e := ecc84) (by unfold ecc84; norm_num) (by unfold ecc84; norm_num)
        (rads_mem (d := 60) (by norm_num) (by norm_num))).1
      have h1 : (0.95 : ℝ) ≤ ((1 - ecc84) / (1 + ecc84)) ^ (1 / 2 * ecc84) := by
        have a : ((0.95 : ℝ) ^ 4) ≤ (1 - ecc84) / (1 + ecc84) := by unfold ecc84; norm_num
        have b : ((0.95 : ℝ) ^ 4) ^ ((4 : ℕ) : ℝ)⁻¹ = 0.95 := Real.pow_rpow_inv_natCast (by norm_num) (by norm_num)
        have c := Real.rpow_le_rpow (z := ((4 : ℕ) : ℝ)⁻¹) (by norm_num) a (by norm_num)
        have d := Real.rpow_le_rpow_of_exponent_ge (x := (1 - ecc84) / (1 + ecc84)) (y := ((4 : ℕ) : ℝ)⁻¹) (z := 1 / 2 * ecc84)
          (by unfold ecc84; norm_num) (by unfold ecc84; norm_num) (by unfold ecc84; norm_num)
        rw [b] at c
        exact c.trans d
      have h2 := h1.trans hr
      have h3 : ellPolar ecc84 (rads 60) ≤ 0.2825 := by
        unfold ellPolar
        rw [div_le_iff₀ (by linarith)]
        norm_num at hp h2 ⊢; linarith
      norm_num at h3 ⊢; linarith
  · rw [if_neg hf, if_neg hf, p0, s60]
    constructor
    · linarith
    · unfold polar
      rw [s60, c60]
      have : 1 + √3 / 2 ≠ 0 := by linarith
      field_simp
      norm_num

/-- the cosine of an angle of at least 45 degrees -/
theorem cos_far {a : ℝ} (h : 45 ≤ |a|) (h' : |a| ≤ 180) : cos (rads a) ≤ √2 / 2 := by
  rw [← cos_pi_div_four]
  have ea : |rads a| = rads |a| := by
    unfold rads; rw [abs_mul, abs_of_pos (by positivity : (0 : ℝ) < π / 180)]
  rw [← cos_abs (rads a), ea]
  have hp := pi_pos
  have q1 := mul_le_mul_of_nonneg_right h (by positivity : 0 ≤ π / 180)
  have q2 := mul_le_mul_of_nonneg_right h' (by positivity : 0 ≤ π / 180)
  apply cos_le_cos_of_nonneg_of_le_pi
  · positivity
  · unfold rads; linarith
  · unfold rads; linarith

/-- the geographic point of a place of a grid: between the equator and 60 N, within 45 degrees of the central meridian -/
theorem place_point {format dx dy : Int} {b : Int × Int} (h : HasGrid format dx dy b) {x y : ℝ} (hx : 0 ≤ x ∧ x ≤ dx)
    (hy : 0 ≤ y ∧ y ≤ dy) : ∃ n e, 0 ≤ n ∧ n ≤ 60 ∧ |e - 10| ≤ 45 ∧ realProject format dx dy n e = (x, y) := by
  obtain ⟨ot, ol, eb, er, hc⟩ := corners_isSome h
  obtain ⟨e1, e2, e3⟩ := realCalib_eq h hc
  obtain ⟨p1, p2⟩ := C37_resolution_positive h
  obtain ⟨n, e, ⟨hn1, hn2, he1, he2, him⟩, _⟩ := C59_every_place h x y hy.1
  obtain ⟨⟨b1, b2⟩, b3, b4⟩ := corner_box h hc
  obtain ⟨m1, m2⟩ := radius_marks format
  have gx : (0 : ℝ) < dx := by exact_mod_cast (hasGrid_pos h).1
  have gy : (0 : ℝ) < dy := by exact_mod_cast (hasGrid_pos h).2
  have him' := him
  rw [e3, planeXY_real format hn1 hn2] at him
  simp only [Prod.mk.injEq] at him
  obtain ⟨hX, hY⟩ := him
  rw [div_eq_iff p1.ne'] at hX
  rw [div_eq_iff p2.ne'] at hY
  have fx : (dx : ℝ) * (realCalib format dx dy).rx = (planeXY realArith format eb er).1 - (planeXY realArith format ot ol).1 := by
    rw [e1]; field_simp
  have fy : (dy : ℝ) * (realCalib format dx dy).ry = (planeXY realArith format eb er).2 - (planeXY realArith format ot ol).2 := by
    rw [e2]; field_simp
  have x0 := mul_nonneg hx.1 p1.le
  have x1 := mul_le_mul_of_nonneg_right hx.2 p1.le
  have y0 := mul_nonneg hy.1 p2.le
  have y1 := mul_le_mul_of_nonneg_right hy.2 p2.le
  rw [fx] at x1
  rw [fy] at y1
  have r0 := radius_pos format hn1 hn2
  have sc := sin_sq_add_cos_sq (rads (e - 10))
  set r := radius format n with hr
  set s := r * sin (rads (e - 10)) with hs
  set k := r * cos (rads (e - 10)) with hk
  have s1 : -727 ≤ s := by linarith
  have s2 : s ≤ 727 := by linarith
  have k1 : 3508 ≤ k := by linarith
  have k2 : k ≤ 5009 := by linarith
  have rr : r ^ 2 = s ^ 2 + k ^ 2 := by rw [hs, hk]; linear_combination (-r ^ 2) * sc
  have ss : s ^ 2 ≤ 727 ^ 2 := sq_le_sq' (by linarith) (by linarith)
  have kk : k ^ 2 ≤ 5009 ^ 2 := sq_le_sq' (by linarith) (by linarith)
  have kk' : 3508 ^ 2 ≤ k ^ 2 := sq_le_sq' (by linarith) (by linarith)
  have r1 : 3500 < r := by
    by_contra hle
    have : r ^ 2 ≤ 3500 ^ 2 := sq_le_sq' (by linarith) (by linarith)
    have := sq_nonneg s
    linarith
  have r2 : r < 6000 := by
    by_contra hle
    have : 6000 ^ 2 ≤ r ^ 2 := sq_le_sq' (by linarith) (by linarith)
    linarith
  refine ⟨n, e, ?_, ?_, ?_, him'⟩
  · by_contra hlt
    have := radius_anti format hn1 (not_le.mp hlt) (by norm_num)
    linarith
  · by_contra hlt
    have := radius_anti format (by norm_num) (not_le.mp hlt) hn2
    linarith
  · by_contra hlt
    have hlt := not_le.mp hlt
    have hc := cos_far (a := e - 10) hlt.le (by rw [abs_le]; constructor <;> linarith)
    have hk2 : k ≤ r * (√2 / 2) := mul_le_mul_of_nonneg_left hc r0.le
    have q2 : √2 ^ 2 = (2 : ℝ) := Real.sq_sqrt (by norm_num)
    have : k ^ 2 ≤ r ^ 2 / 2 := by
      calc k ^ 2 ≤ (r * (√2 / 2)) ^ 2 := by apply pow_le_pow_left₀ (by linarith) hk2
        _ = r ^ 2 / 2 := by linear_combination (r ^ 2 / 4) * q2
    have : k ^ 2 ≤ s ^ 2 := by linarith
    linarith

/-- every real number of at most 60 in size is a float64 number, up to `75 / 10^16` -/
theorem near_float {r : ℝ} (h : |r| ≤ 60) : ∃ x : F64, Go.Fl.Ap x r (75 / 10 ^ 16) := by
  obtain ⟨q, h1, h2⟩ := exists_rat_btwn (show r < r + 1 / 10 ^ 30 by norm_num)
  refine ⟨Fl.lit f64 q, Go.Fl.lit_ap (ε := 1 / 10 ^ 30) (M := 61) ?_ ?_ (by norm_num) (by norm_num) (by norm_num)⟩
  · rw [abs_le]; constructor <;> linarith
  · norm_num; linarith

/-- C80. On every grid with a projection (up to a hundred million pixels along each edge) every pixel can be addressed:
there is a float64 latitude and longitude that Project maps into that pixel. -/
theorem C80_every_pixel {E : Env} (hM : AccurateMath E.math) {c : Composite} (h : Ready E c) {b : Int × Int}
    (hg : HasGrid c.format c.dx c.dy b) (hdx : c.dx ≤ 10 ^ 8) (hdy : c.dy ≤ 10 ^ 8) {i j : Nat} (hi : (i : Int) < c.dx)
    (hj : (j : Int) < c.dy) :
    ∃ north east : F64, OnMap north east ∧
      let q := c.Project E north east
      q.1.isFin = true ∧ i < q.1.val ∧ q.1.val < i + 1 ∧ q.2.isFin = true ∧ j < q.2.val ∧ q.2.val < j + 1 := by
  have hi' : (i : ℝ) + 1 ≤ c.dx := by exact_mod_cast hi
  have hj' : (j : ℝ) + 1 ≤ c.dy := by exact_mod_cast hj
  have dx' : (c.dx : ℝ) ≤ 10 ^ 8 := by exact_mod_cast hdx
  have dy' : (c.dy : ℝ) ≤ 10 ^ 8 := by exact_mod_cast hdy
  have i0 : (0 : ℝ) ≤ i := Nat.cast_nonneg i
  have j0 : (0 : ℝ) ≤ j := Nat.cast_nonneg j
  obtain ⟨n, e, n0, n1, he, hp⟩ := place_point hg (x := i + 1 / 2) (y := j + 1 / 2) ⟨by linarith, by linarith⟩ ⟨by linarith, by linarith⟩
  obtain ⟨he1, he2⟩ := abs_le.mp he
  obtain ⟨xn, hxn⟩ := near_float (r := n) (by rw [abs_of_nonneg n0]; exact n1)
  obtain ⟨xe, hxe⟩ := near_float (r := e) (by rw [abs_le]; constructor <;> linarith)
  obtain ⟨_, h3⟩ := float_projection hM h hg (by omega) (by omega)
  obtain ⟨h4, h5⟩ := h3 (xn := xn) (xe := xe) (n := n) (e := e) ⟨hxn, hxe, ⟨by linarith, by linarith⟩, by rw [abs_le]; constructor <;> linarith⟩
  rw [hp] at h4 h5
  obtain ⟨a1, a2⟩ := abs_le.mp h4.2
  obtain ⟨a3, a4⟩ := abs_le.mp h5.2
  simp only at a1 a2 a3 a4
  obtain ⟨t1, t2⟩ := abs_le.mp hxn.2
  obtain ⟨t3, t4⟩ := abs_le.mp hxe.2
  norm_num at a1 a2 a3 a4 t1 t2 t3 t4 dx' dy'
  refine ⟨xn, xe, ⟨hxn.1, ?_, ?_, hxe.1, ?_⟩, h4.1, ?_, ?_, h5.1, ?_, ?_⟩
  · have : (-45 : ℝ) ≤ xn.val := by linarith
    exact_mod_cast this
  · have : (xn.val : ℝ) ≤ 90 := by linarith
    exact_mod_cast this
  · have : |(xe.val : ℝ)| ≤ 360 := by rw [abs_le]; constructor <;> linarith
    exact_mod_cast this
  · have : (i : ℝ) < (c.Project E xn xe).1.val := by linarith
    exact_mod_cast this
  · have : ((c.Project E xn xe).1.val : ℝ) < i + 1 := by linarith
    exact_mod_cast this
  · have : (j : ℝ) < (c.Project E xn xe).2.val := by linarith
    exact_mod_cast this
  · have : ((c.Project E xn xe).2.val : ℝ) < j + 1 := by linarith
    exact_mod_cast this

/-- C80. Machines with different math libraries agree: the same coordinate is projected to places that differ by at most
two billionths of the edge of the grid. -/
theorem C80_machines_agree {E E' : Env} (hM : AccurateMath E.math) (hM' : AccurateMath E'.math) {c c' : Composite}
    (h : Ready E c) (h' : Ready E' c') (hf : c'.format = c.format) (hx : c'.dx = c.dx) (hy : c'.dy = c.dy)
    {b : Int × Int} (hg : HasGrid c.format c.dx c.dy b) (hdx : c.dx < 2 ^ 63) (hdy : c.dy < 2 ^ 63)
    {north east : F64} (hp : OnMap north east) :
    |(c.Project E north east).1.val - (c'.Project E' north east).1.val| ≤ 2 * c.dx / 10 ^ 9 ∧
    |(c.Project E north east).2.val - (c'.Project E' north east).2.val| ≤ 2 * c.dy / 10 ^ 9 := by
  obtain ⟨_, a1, _, a2⟩ := C54_project hM h hg hdx hdy hp
  obtain ⟨_, b1, _, b2⟩ := C54_project hM' h' (by rw [hf, hx, hy]; exact hg) (by rw [hx]; exact hdx) (by rw [hy]; exact hdy) hp
  rw [hf, hx, hy] at b1 b2
  have key : ∀ {u v : ℚ} {r : ℝ} {d : Int}, |(u : ℝ) - r| ≤ d / 10 ^ 9 → |(v : ℝ) - r| ≤ d / 10 ^ 9 →
      |u - v| ≤ 2 * d / 10 ^ 9 := by
    intro u v r d h1 h2
    obtain ⟨p1, p2⟩ := abs_le.mp h1
    obtain ⟨p3, p4⟩ := abs_le.mp h2
    have : |(u : ℝ) - v| ≤ 2 * d / 10 ^ 9 := by
      rw [abs_le]; norm_num at p1 p2 p3 p4 ⊢; constructor <;> linarith
    have : ((|u - v| : ℚ) : ℝ) ≤ ((2 * d / 10 ^ 9 : ℚ) : ℝ) := by push_cast; exact this
    exact_mod_cast this
  exact ⟨key a1 b1, key a2 b2⟩

/-- pixel (123, 456) of a 900x900 placeholder -/
example {E : Env} (hM : AccurateMath E.math) : ∃ north east : F64, OnMap north east ∧
    123 < ((NewDummy E (str "RX") 3 900 900).Project E north east).1.val := by
  obtain ⟨n, e, h1, _, h2, _⟩ := C80_every_pixel hM (c := NewDummy E (str "RX") 3 900 900) (.dummy ..) (b := (225, 225))
    ⟨by decide, ⟨2, rfl, rfl⟩, Or.inl (by show (3 : Int) < 5; decide)⟩ (by show (900 : Int) ≤ _; norm_num)
    (by show (900 : Int) ≤ _; norm_num) (i := 123) (j := 456) (by show (123 : Int) < 900; norm_num) (by show (456 : Int) < 900; norm_num)
  exact ⟨n, e, h1, by exact_mod_cast h2⟩

end Props
