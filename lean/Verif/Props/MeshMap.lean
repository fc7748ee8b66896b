/-
C90: the marks radolan2png draws lie where the map says.
-/
import Verif.Spec.MeshMap
import Verif.Props.Border
import Verif.Props.Conformal
import Verif.Props.Lookup
import Verif.Props.Rainfall
import Mathlib.Analysis.Calculus.MeanValue

namespace Props
open Go Radolan Spec Real

/-! ### nearby places have nearby images -/

theorem polar_le_one {φ : ℝ} (h : φ ∈ Set.Ioo (-(π / 2)) (π / 2)) (h0 : 0 ≤ φ) : polar φ ≤ 1 := by
  have hs : 0 ≤ sin φ := sin_nonneg_of_nonneg_of_le_pi h0 (by have := h.2; linarith [pi_pos])
  unfold polar
  rw [div_le_one (by linarith)]
  linarith [cos_le_one φ]

theorem ellFactor_ge {φ : ℝ} (h : φ ∈ Set.Ioo (-(π / 2)) (π / 2)) (h0 : 0 ≤ φ) : 1 / 2 ≤ ellFactor ecc84 φ := by
  have hs : 0 ≤ sin φ := sin_nonneg_of_nonneg_of_le_pi h0 (by have := h.2; linarith [pi_pos])
  have hs1 := sin_le_one φ
  have e0 : (0 : ℝ) < ecc84 := by unfold ecc84; norm_num
  have e1 : ecc84 ≤ 1 / 10 := by unfold ecc84; norm_num
  unfold ellFactor
  have d1 : 0 < 1 + ecc84 * sin φ := by nlinarith
  have d2 : 0 < 1 - ecc84 * sin φ := by nlinarith
  have d3 : (1 - ecc84 * sin φ) / (1 + ecc84 * sin φ) ≤ 1 := by
    rw [div_le_one d1]; nlinarith
  have d4 : 1 / 2 ≤ (1 - ecc84 * sin φ) / (1 + ecc84 * sin φ) := by
    rw [div_le_div_iff₀ (by norm_num) d1]; nlinarith
  refine d4.trans ?_
  have := rpow_le_rpow_of_exponent_ge (div_pos d2 d1) d3 (show 1 / 2 * ecc84 ≤ 1 by linarith)
  rw [rpow_one] at this
  exact this

theorem radius_le (format : Int) {n : ℝ} (h1 : 0 ≤ n) (h2 : n < 90) : radius format n ≤ 25000 := by
  have hm := rads_mem (by linarith : -90 < n) h2
  have h0 : 0 ≤ rads n := mul_nonneg h1 (by have := pi_pos; positivity)
  have hp := polar_le_one hm h0
  have hp0 := polar_pos hm
  unfold radius
  split
  · have hf := ellFactor_ge hm h0
    have : ellPolar ecc84 (rads n) ≤ 2 := by
      unfold ellPolar
      rw [div_le_iff₀ (by linarith)]
      linarith
    norm_num
    linarith
  · have := sin_le_one (rads 60)
    nlinarith

/-- north of the equator and south of 60 N the radius changes by at most 1000 km per degree -/
theorem radius_lipschitz (format : Int) {n m : ℝ} (hn : n ∈ Set.Icc (0 : ℝ) 60) (hm : m ∈ Set.Icc (0 : ℝ) 60) :
    |radius format n - radius format m| ≤ 1000 * |n - m| := by
  have key := Convex.norm_image_sub_le_of_norm_hasDerivWithin_le (f := radius format) (s := Set.Icc (0 : ℝ) 60) (C := 1000)
    (f' := fun n => radius format n * (-(1 - eccentricity format ^ 2) /
      ((1 - eccentricity format ^ 2 * sin (rads n) ^ 2) * cos (rads n)) * (π / 180)))
    (fun x hx => (radius_hasDerivAt format (by linarith [hx.1] : -90 < x) (by linarith [hx.2] : x < 90)).hasDerivWithinAt)
    (fun x hx => ?_) (convex_Icc 0 60) hm hn
  · simpa [Real.norm_eq_abs] using key
  · have r0 := radius_pos format (by linarith [hx.1] : -90 < x) (by linarith [hx.2] : x < 90)
    have r1 := radius_le format hx.1 (by linarith [hx.2] : x < 90)
    obtain ⟨ec0, ec1⟩ := ecc_bounds format
    set ε := eccentricity format
    have hq : 0 < 1 - ε ^ 2 := by nlinarith
    have hs : sin (rads x) ^ 2 ≤ 1 := sin_sq_le_one _
    have hD : 1 - ε ^ 2 ≤ 1 - ε ^ 2 * sin (rads x) ^ 2 := by nlinarith [sq_nonneg ε]
    have hc : 1 / 2 ≤ cos (rads x) := by
      rw [← cos_pi_div_three]
      have hpi := pi_pos
      apply cos_le_cos_of_nonneg_of_le_pi
      · exact mul_nonneg hx.1 (by positivity)
      · linarith
      · unfold rads; have := hx.2; nlinarith
    have hDc : 0 < (1 - ε ^ 2 * sin (rads x) ^ 2) * cos (rads x) := mul_pos (by linarith) (by linarith)
    have hk : (1 - ε ^ 2) / ((1 - ε ^ 2 * sin (rads x) ^ 2) * cos (rads x)) ≤ 2 := by
      rw [div_le_iff₀ hDc]; nlinarith
    have hk0 : 0 ≤ (1 - ε ^ 2) / ((1 - ε ^ 2 * sin (rads x) ^ 2) * cos (rads x)) := by positivity
    have hpi : π / 180 ≤ 2 / 100 := by linarith [pi_lt_d2]
    have hpi0 := pi_pos
    rw [Real.norm_eq_abs, neg_div, neg_mul, mul_neg, abs_neg, abs_of_nonneg (by positivity)]
    have h1 : (1 - ε ^ 2) / ((1 - ε ^ 2 * sin (rads x) ^ 2) * cos (rads x)) * (π / 180) ≤ 2 * (2 / 100) :=
      mul_le_mul hk hpi (by positivity) (by norm_num)
    calc _ ≤ 25000 * (2 * (2 / 100)) := mul_le_mul r1 h1 (mul_nonneg hk0 (by positivity)) (by norm_num)
      _ = 1000 := by norm_num

theorem product_lipschitz {a b s t A : ℝ} (ha : |a| ≤ A) (ht : |t| ≤ 1) : |a * s - b * t| ≤ A * |s - t| + |a - b| := by
  have : a * s - b * t = a * (s - t) + (a - b) * t := by ring
  rw [this]
  refine (abs_add_le _ _).trans (add_le_add ?_ ?_)
  · rw [abs_mul]; exact mul_le_mul_of_nonneg_right ha (abs_nonneg _)
  · rw [abs_mul]; exact mul_le_of_le_one_right (abs_nonneg _) ht

theorem rads_sub (a b : ℝ) : |rads a - rads b| ≤ 2 / 100 * |a - b| := by
  unfold rads
  rw [← sub_mul, abs_mul, abs_of_pos (by have := pi_pos; positivity : 0 < π / 180), mul_comm]
  exact mul_le_mul_of_nonneg_right (by linarith [pi_lt_d2]) (abs_nonneg _)

/-- places a trillionth of a degree apart are at most a billionth of the grid apart on the picture -/
theorem project_close {format dx dy : Int} {b : Int × Int} (h : HasGrid format dx dy b) {n m e f : ℝ}
    (hn : n ∈ Set.Icc (0 : ℝ) 60) (hm : m ∈ Set.Icc (0 : ℝ) 60) (h1 : |n - m| ≤ 2 / 10 ^ 13) (h2 : |e - f| ≤ 2 / 10 ^ 13) :
    |(realProject format dx dy n e).1 - (realProject format dx dy m f).1| ≤ dx / 10 ^ 9 ∧
    |(realProject format dx dy n e).2 - (realProject format dx dy m f).2| ≤ dy / 10 ^ 9 := by
  obtain ⟨ox, oy, hk⟩ := km_eq h
  obtain ⟨k1, k2⟩ := hk n e (by linarith [hn.1]) (by linarith [hn.2])
  obtain ⟨l1, l2⟩ := hk m f (by linarith [hm.1]) (by linarith [hm.2])
  obtain ⟨p1, p2⟩ := C37_resolution_positive h
  obtain ⟨q1, q2⟩ := hasGrid_pos h
  obtain ⟨ot, ol, eb, er, hc⟩ := corners_isSome h
  obtain ⟨e1, e2, _⟩ := realCalib_eq h hc
  obtain ⟨x1, x2⟩ := plane_extent h hc
  obtain ⟨v1, v2, v3, v4⟩ := extent_range h.1
  have dx0 : (0 : ℝ) < dx := by exact_mod_cast q1
  have dy0 : (0 : ℝ) < dy := by exact_mod_cast q2
  have r0 := radius_pos format (by linarith [hn.1] : -90 < n) (by linarith [hn.2] : n < 90)
  have hr : |radius format n| ≤ 25000 := by
    rw [abs_of_pos r0]; exact radius_le format hn.1 (by linarith [hn.2])
  have hl := radius_lipschitz format hn hm
  have hrad : |rads (e - 10) - rads (f - 10)| ≤ 2 / 100 * |e - f| := by
    have := rads_sub (e - 10) (f - 10)
    rwa [show e - 10 - (f - 10) = e - f by ring] at this
  have hsin : |sin (rads (e - 10)) - sin (rads (f - 10))| ≤ |rads (e - 10) - rads (f - 10)| := abs_sin_sub_sin_le _ _
  have hcos : |cos (rads (e - 10)) - cos (rads (f - 10))| ≤ |rads (e - 10) - rads (f - 10)| := abs_cos_sub_cos_le _ _
  have a1 := product_lipschitz (b := radius format m) (s := sin (rads (e - 10))) hr (abs_sin_le_one (rads (f - 10)))
  have a2 := product_lipschitz (b := radius format m) (s := cos (rads (e - 10))) hr (abs_cos_le_one (rads (f - 10)))
  have b1 : |kmRight format dx dy n e - kmRight format dx dy m f| ≤ 4 / 10 ^ 10 := by
    rw [k1, l1, sub_sub_sub_cancel_right]
    norm_num at h1 h2 ⊢
    linarith
  have b2 : |kmDown format dx dy n e - kmDown format dx dy m f| ≤ 4 / 10 ^ 10 := by
    rw [k2, l2, sub_sub_sub_cancel_right]
    norm_num at h1 h2 ⊢
    linarith
  have g1 : 800 / dx ≤ (realCalib format dx dy).rx := by
    rw [e1]; apply div_le_div_of_nonneg_right _ dx0.le
    have := (abs_le.mp x1).1
    norm_num at this
    linarith
  have g2 : 800 / dy ≤ (realCalib format dx dy).ry := by
    rw [e2]; apply div_le_div_of_nonneg_right _ dy0.le
    have := (abs_le.mp x2).1
    norm_num at this
    linarith
  unfold kmRight at b1
  unfold kmDown at b2
  rw [← sub_mul, abs_mul, abs_of_pos p1] at b1
  rw [← sub_mul, abs_mul, abs_of_pos p2] at b2
  have conclude : ∀ {u r d : ℝ}, 0 < d → 0 ≤ u → 800 / d ≤ r → u * r ≤ 4 / 10 ^ 10 → u ≤ d / 10 ^ 9 := by
    intro u r d hd hu hr h
    have h' : u * (800 / d) ≤ 4 / 10 ^ 10 := (mul_le_mul_of_nonneg_left hr hu).trans h
    rw [mul_div_assoc', div_le_iff₀ hd] at h'
    rw [le_div_iff₀ (by norm_num)]
    norm_num at h' ⊢
    linarith
  exact ⟨conclude dx0 (abs_nonneg _) g1 b1, conclude dy0 (abs_nonneg _) g2 b2⟩

/-! ### from places to pixels -/

theorem pos_shift {t s : ℝ} {d : Int} {u v : ℝ} {k : Option Nat} (h : |u - v| ≤ s) (hp : Pos (t + s) d u k) : Pos t d v k := by
  obtain ⟨h1, h2⟩ := abs_le.mp h
  cases hp with
  | inside a b c => exact .inside a (by linarith) (by linarith)
  | strip a b => exact .strip (by linarith) (by linarith)
  | before a => exact .before (by linarith)
  | behind a => exact .behind (by linarith)

/-- a float that is truncated to `k` -/
theorem trunc_touches (impl : F64 → Int) {x : F64} {u : ℝ} {d : Int} (hd : 0 < d) (hd2 : d ≤ 2 ^ 55) (hu : |u| ≤ 145 * d)
    (hx : x.isFin = true) (h : |(x.val : ℝ) - u| ≤ d / 10 ^ 9) {k : Nat} (hk : Fl.toInt impl x = k) : Touches (d / 10 ^ 9) u k := by
  have g0 : (0 : ℝ) < d := by exact_mod_cast hd
  have g2 : (d : ℝ) ≤ 2 ^ 55 := by exact_mod_cast hd2
  obtain ⟨a1, a2⟩ := abs_le.mp h
  obtain ⟨b1, b2⟩ := abs_le.mp hu
  norm_num at g2
  have c1 : (((-(2 ^ 62 + 2 ^ 61) : ℚ)) : ℝ) ≤ x.val := by push_cast; norm_num at a1 a2 ⊢; linarith
  have c2 : (x.val : ℝ) ≤ ((2 ^ 62 + 2 ^ 61 : ℚ) : ℝ) := by push_cast; norm_num at a1 a2 ⊢; linarith
  have c1 : (-(2 ^ 62 + 2 ^ 61) : ℚ) ≤ x.val := by exact_mod_cast c1
  have c2 : x.val ≤ (2 ^ 62 + 2 ^ 61 : ℚ) := by exact_mod_cast c2
  unfold Fl.toInt at hk
  rw [if_pos hx] at hk
  rcases lt_or_ge x.val 0 with h0 | h0
  · obtain ⟨k1, k2⟩ := Fl.ratTrunc_neg_bounds h0
    rw [if_pos] at hk
    · rw [hk] at k1 k2
      push_cast at k1 k2
      have hk0 : (k : ℚ) < 1 := by linarith
      have hk0 : k = 0 := by
        have : k < 1 := by exact_mod_cast hk0
        omega
      subst hk0
      have k1' : ((-1 : ℚ) : ℝ) ≤ (x.val : ℝ) := by
        refine (Rat.cast_le (K := ℝ)).mpr ?_
        push_cast at k1; linarith
      have h0' : (x.val : ℝ) < ((0 : ℚ) : ℝ) := (Rat.cast_lt (K := ℝ)).mpr h0
      push_cast at k1' h0'
      refine ⟨Or.inr ⟨rfl, by linarith⟩, by push_cast; linarith⟩
    · constructor
      · have : (-(2 ^ 63) : ℚ) ≤ Fl.ratTrunc x.val := by norm_num at c1 ⊢; linarith
        exact_mod_cast this
      · have : (Fl.ratTrunc x.val : ℚ) < 2 ^ 63 := by norm_num; linarith
        exact_mod_cast this
  · obtain ⟨k1, k2⟩ := Fl.ratTrunc_nonneg_bounds h0
    rw [if_pos] at hk
    · rw [hk] at k1 k2
      push_cast at k1 k2
      have k1' := (Rat.cast_le (K := ℝ)).mpr k1
      have k2' := (Rat.cast_lt (K := ℝ)).mpr k2
      push_cast at k1' k2'
      exact ⟨Or.inl (by linarith), by linarith⟩
    · constructor
      · have : (-(2 ^ 63) : ℚ) ≤ Fl.ratTrunc x.val := by norm_num; linarith
        exact_mod_cast this
      · have : (Fl.ratTrunc x.val : ℚ) < 2 ^ 63 := by norm_num at c2 ⊢; linarith
        exact_mod_cast this

theorem touches_shift {t s u v : ℝ} {k : Nat} (h : |u - v| ≤ s) (hp : Touches t u k) : Touches (t + s) v k := by
  obtain ⟨h1, h2⟩ := abs_le.mp h
  obtain ⟨a, b⟩ := hp
  exact ⟨a.imp (fun a => by linarith) (fun a => ⟨a.1, by linarith [a.2]⟩), by linarith⟩

/-- a float point standing for a place is drawn on the pixel of the place -/
theorem placed {E : Env} (hM : AccurateMath E.math) (I : Vis.Impl) {c : Composite} (h : Ready E c) {b : Int × Int}
    (hg : HasGrid c.format c.dx c.dy b) (hdx : c.dx ≤ 2 ^ 55) (hdy : c.dy ≤ 2 ^ 55) {xn xe : F64} {n e : ℝ}
    (fn : xn.isFin = true) (fe : xe.isFin = true) (hn : 1 ≤ n ∧ n ≤ 59) (he : 0 ≤ e ∧ e ≤ 20)
    (dn : |(xn.val : ℝ) - n| ≤ 2 / 10 ^ 13) (de : |(xe.val : ℝ) - e| ≤ 2 / 10 ^ 13) :
    let q := c.Project E xn xe
    let r := realProject c.format c.dx c.dy n e
    (∀ i j : Nat, Pos (2 * (c.dx / 10 ^ 9)) c.dx r.1 (some i) → Pos (2 * (c.dy / 10 ^ 9)) c.dy r.2 (some j) →
      Fl.toInt I.int q.1 = i ∧ (i : Int) < c.dx ∧ Fl.toInt I.int q.2 = j ∧ (j : Int) < c.dy) ∧
    (∀ x y : Nat, Fl.toInt I.int q.1 = x → Fl.toInt I.int q.2 = y →
      Touches (2 * (c.dx / 10 ^ 9)) r.1 x ∧ Touches (2 * (c.dy / 10 ^ 9)) r.2 y) := by
  intro q r
  obtain ⟨n1, n2⟩ := abs_le.mp dn
  obtain ⟨e1, e2⟩ := abs_le.mp de
  norm_num at n1 n2 e1 e2
  have hon : OnMap xn xe := by
    refine ⟨fn, ?_, ?_, fe, ?_⟩
    · have : ((-45 : ℚ) : ℝ) ≤ xn.val := by push_cast; linarith [hn.1]
      exact_mod_cast this
    · have : (xn.val : ℝ) ≤ ((90 : ℚ) : ℝ) := by push_cast; linarith [hn.2]
      exact_mod_cast this
    · have : |(xe.val : ℝ)| ≤ ((360 : ℚ) : ℝ) := by push_cast; rw [abs_le]; constructor <;> linarith [he.1, he.2]
      exact_mod_cast this
  obtain ⟨_, h3⟩ := float_projection hM h hg (by omega) (by omega)
  obtain ⟨⟨f1, a1⟩, f2, a2⟩ := h3 hon.pointAp
  obtain ⟨b1, b2⟩ := coordinate_bound hM hg hon
  obtain ⟨q1, q2⟩ := hasGrid_pos hg
  obtain ⟨c1, c2⟩ := project_close hg (n := xn.val) (m := n) (e := xe.val) (f := e) ⟨by linarith [hn.1], by linarith [hn.2]⟩
    ⟨by linarith [hn.1], by linarith [hn.2]⟩ dn de
  constructor
  · intro i j hi hj
    rw [two_mul] at hi hj
    rw [abs_sub_comm] at c1 c2
    have i1 := pos_index (hp := pos_shift c1 hi) (impl := I.int) q1 hdx b1 f1 a1
    have i2 := pos_index (hp := pos_shift c2 hj) (impl := I.int) q2 hdy b2 f2 a2
    exact ⟨i1.1, i1.2, i2.1, i2.2⟩
  · intro x y hx hy
    rw [two_mul, two_mul]
    exact ⟨touches_shift c1 (trunc_touches I.int q1 hdx b1 f1 a1 hx), touches_shift c2 (trunc_touches I.int q2 hdy b2 f2 a2 hy)⟩

/-! ### the mesh by tenths of a degree -/

theorem latitudes_tenths : ∀ p ∈ meshLatitudes.zipIdx, p.1.isFin = true ∧ |p.1.val - ((460 + p.2 : Nat) : ℚ) / 10| ≤ 2 / 10 ^ 13 ∧
    p.2 < 90 ∧ ((∃ k ∈ ([46, 47, 48, 49, 50, 51, 52, 53, 54] : List ℚ), |p.1.val - k| < 1 / 10 ^ 11) ↔ (460 + p.2) % 10 = 0) := by
  decide +kernel

theorem longitudes_tenths : ∀ p ∈ meshLongitudes.zipIdx, p.1.isFin = true ∧ |p.1.val - ((10 + p.2 : Nat) : ℚ) / 10| ≤ 2 / 10 ^ 13 ∧
    p.2 < 151 ∧ ((∃ k ∈ ([1, 2, 3, 4, 51 / 10, 61 / 10, 71 / 10, 81 / 10, 91 / 10, 101 / 10, 111 / 10,
      121 / 10, 131 / 10, 141 / 10, 151 / 10] : List ℚ), |p.1.val - k| < 1 / 10 ^ 12) ↔
      10 + p.2 ∈ [10, 20, 30, 40, 51, 61, 71, 81, 91, 101, 111, 121, 131, 141, 151]) := by
  decide +kernel

/-- the floats `n`, `e` stand for the place -/
structure Stands (n e : F64) (u v : ℝ) : Prop where
  fn : n.isFin = true
  fe : e.isFin = true
  dn : |(n.val : ℝ) - u| ≤ 2 / 10 ^ 13
  de : |(e.val : ℝ) - v| ≤ 2 / 10 ^ 13

theorem cast_abs {q : ℚ} {n : Nat} {t : ℚ} (h : |q - (n : ℚ) / 10| ≤ t) : |(q : ℝ) - (n : ℝ) / 10| ≤ t := by
  have := (Rat.cast_le (K := ℝ)).mpr h
  push_cast at this
  exact this

/-- the points of the mesh stand for the places of the mesh -/
theorem mesh_places {I : Vis.Impl} {mesh : List (F64 × F64)} (hm : Cli.meshPoints I = some mesh) :
    (∀ N M, MeshPlace N M → ∃ p ∈ mesh, Stands p.1 p.2 ((N : ℝ) / 10) ((M : ℝ) / 10)) ∧
    (∀ p ∈ mesh, ∃ N M, MeshPlace N M ∧ Stands p.1 p.2 ((N : ℝ) / 10) ((M : ℝ) / 10)) := by
  obtain ⟨mesh', h1, l1, l2, h2, _⟩ := C49_mesh
  obtain rfl : mesh = mesh' := by
    have := h1 I; rw [hm] at this; exact Option.some.inj this
  constructor
  · rintro N M ⟨a1, a2, a3, a4, a5⟩
    obtain ⟨n, hn⟩ : ∃ n, meshLatitudes[N - 460]? = some n := ⟨_, List.getElem?_eq_getElem (by omega)⟩
    obtain ⟨e, he⟩ : ∃ e, meshLongitudes[M - 10]? = some e := ⟨_, List.getElem?_eq_getElem (by omega)⟩
    have t1 := latitudes_tenths (n, N - 460) (List.mem_zipIdx_iff_getElem?.mpr hn)
    have t2 := longitudes_tenths (e, M - 10) (List.mem_zipIdx_iff_getElem?.mpr he)
    simp only [show 460 + (N - 460) = N by omega, show 10 + (M - 10) = M by omega] at t1 t2
    refine ⟨(n, e), (h2 _ _).mpr ⟨List.mem_of_getElem? hn, List.mem_of_getElem? he, ?_⟩, ?_⟩
    · exact a5.symm.imp t2.2.2.2.mpr t1.2.2.2.mpr
    · refine ⟨t1.1, t2.1, ?_, ?_⟩
      · have := cast_abs t1.2.1; push_cast at this; exact this
      · have := cast_abs t2.2.1; push_cast at this; exact this
  · rintro ⟨n, e⟩ hp
    obtain ⟨g1, g2, g3⟩ := (h2 _ _).mp hp
    obtain ⟨i, hi⟩ := List.mem_iff_getElem?.mp g1
    obtain ⟨j, hj⟩ := List.mem_iff_getElem?.mp g2
    have t1 := latitudes_tenths (n, i) (List.mem_zipIdx_iff_getElem?.mpr hi)
    have t2 := longitudes_tenths (e, j) (List.mem_zipIdx_iff_getElem?.mpr hj)
    simp only at t1 t2
    refine ⟨460 + i, 10 + j, ⟨by omega, by omega, by omega, by omega, g3.symm.imp t1.2.2.2.mp t2.2.2.2.mp⟩, t1.1, t2.1, ?_, ?_⟩
    · have := cast_abs t1.2.1; push_cast at this ⊢; exact this
    · have := cast_abs t2.2.1; push_cast at this ⊢; exact this

theorem border_stands {a b : Nat} (h : (a, b) ∈ Cli.borderTable) :
    Stands (Fl.lit f64 (mkRat a (10 ^ 6))) (Fl.lit f64 (mkRat b (10 ^ 6))) ((a : ℝ) / 10 ^ 6) ((b : ℝ) / 10 ^ 6) := by
  obtain ⟨⟨f1, h1⟩, ⟨f2, h2⟩, _, _⟩ := border_point h
  exact ⟨f1, f2, h1.trans (by norm_num), h2.trans (by norm_num)⟩

/-! ### the picture -/

/-- C90. On the picture of an accepted file on a grid with a projection, every place of the mesh that lies inside the
grid is marked: the pixel in which its exact projection lies has the mesh colour. -/
theorem C90_mesh_drawn {E : Env} (hM : AccurateMath E.math) (I : Vis.Impl) (border : List (F64 × F64)) {input : Bytes}
    {c : Composite} (h : NewComposite E input = .ret c none) {b : Int × Int} (hg : HasGrid c.format c.dx c.dy b)
    (hsz : 4 * (c.dx * c.dy) ≤ 2 ^ 48) :
    ∃ img, Cli.convert E I border input = .image img ∧ ∀ N M : Nat, MeshPlace N M →
      let r := realProject c.format c.dx c.dy (N / 10) (M / 10)
      ∀ i j : Nat, Pos (2 * (c.dx / 10 ^ 9)) c.dx r.1 (some i) → Pos (2 * (c.dy / 10 ^ 9)) c.dy r.2 (some j) →
        img.at i j = some ⟨0x33, 0xFF, 0x22, 0xFF⟩ := by
  obtain ⟨g1, g2⟩ := hasGrid_pos hg
  have hdx : c.dx ≤ 2 ^ 55 := by nlinarith
  have hdy : c.dy ≤ 2 ^ 55 := by nlinarith
  have hr : Ready E c := .parsed _ _ (Or.inl h)
  obtain ⟨img, fn, mesh, i1, _, hm, i2, i3, i4⟩ := (C50_drawing E I border input).2 c h hsz
  refine ⟨img, i1, ?_⟩
  intro N M hp r i j hi hj
  obtain ⟨p, hpm, hs⟩ := (mesh_places hm).1 N M hp
  obtain ⟨a1, a2, a3, a4, _⟩ := hp
  have a1' : (460 : ℝ) ≤ N := by exact_mod_cast a1
  have a2' : (N : ℝ) < 550 := by exact_mod_cast a2
  have a3' : (10 : ℝ) ≤ M := by exact_mod_cast a3
  have a4' : (M : ℝ) ≤ 160 := by exact_mod_cast a4
  obtain ⟨t1, t2, t3, t4⟩ := (placed hM I hr hg hdx hdy hs.fn hs.fe ⟨by linarith, by linarith⟩ ⟨by linarith, by linarith⟩ hs.dn hs.de).1
    i j hi hj
  obtain ⟨v, _, _, i5⟩ := i4 i j t2 t4
  exact (i5 ((C31_has_projection_iff hr).mpr ⟨b, hg.1, hg.2.1, hg.2.2⟩)).1 ⟨p, hpm, t1, t3⟩

/-- C90. The same for the border of Germany: the pixel of every point of the table inside the grid has the border
colour, or the mesh colour. -/
theorem C90_border_drawn {E : Env} (hM : AccurateMath E.math) (I : Vis.Impl) {input : Bytes}
    {c : Composite} (h : NewComposite E input = .ret c none) {b : Int × Int} (hg : HasGrid c.format c.dx c.dy b)
    (hsz : 4 * (c.dx * c.dy) ≤ 2 ^ 48) :
    ∃ img, Cli.convert E I Cli.border input = .image img ∧ ∀ N M : Nat, (N, M) ∈ Cli.borderTable →
      let r := realProject c.format c.dx c.dy (N / 10 ^ 6) (M / 10 ^ 6)
      ∀ i j : Nat, Pos (2 * (c.dx / 10 ^ 9)) c.dx r.1 (some i) → Pos (2 * (c.dy / 10 ^ 9)) c.dy r.2 (some j) →
        img.at i j = some ⟨0xFF, 0xFF, 0x00, 0xFF⟩ ∨ img.at i j = some ⟨0x33, 0xFF, 0x22, 0xFF⟩ := by
  obtain ⟨g1, g2⟩ := hasGrid_pos hg
  have hdx : c.dx ≤ 2 ^ 55 := by nlinarith
  have hdy : c.dy ≤ 2 ^ 55 := by nlinarith
  have hr : Ready E c := .parsed _ _ (Or.inl h)
  obtain ⟨img, fn, mesh, i1, _, hm, i2, i3, i4⟩ := (C50_drawing E I Cli.border input).2 c h hsz
  refine ⟨img, i1, ?_⟩
  intro N M hp r i j hi hj
  have hs := border_stands hp
  have hn := Num.near_of_mem hp
  have h1 := hn.hs; have h2 := hn.hn; have h3 := hn.hw; have h4 := hn.he
  norm_num at h1 h2 h3 h4
  obtain ⟨t1, t2, t3, t4⟩ := (placed hM I hr hg hdx hdy hs.fn hs.fe ⟨by norm_num; linarith, by norm_num; linarith⟩
    ⟨by norm_num; linarith, by norm_num; linarith⟩ hs.dn hs.de).1 i j hi hj
  obtain ⟨v, _, _, i5⟩ := i4 i j t2 t4
  obtain ⟨j1, j2, _⟩ := i5 ((C31_has_projection_iff hr).mpr ⟨b, hg.1, hg.2.1, hg.2.2⟩)
  by_cases hmesh : Hits E I c mesh i j
  · exact Or.inr (j1 hmesh)
  · exact Or.inl (j2 hmesh ⟨_, List.mem_map.mpr ⟨_, hp, rfl⟩, t1, t3⟩)

/-- C90. Nothing else is marked: a pixel that no place of the mesh or the border touches shows its value. -/
theorem C90_unmarked {E : Env} (hM : AccurateMath E.math) (I : Vis.Impl) {input : Bytes}
    {c : Composite} (h : NewComposite E input = .ret c none) {b : Int × Int} (hg : HasGrid c.format c.dx c.dy b)
    (hsz : 4 * (c.dx * c.dy) ≤ 2 ^ 48) :
    ∃ img fn, Cli.convert E I Cli.border input = .image img ∧ Cli.colorFunc I E.math c = some fn ∧
      ∀ x y : Nat, (x : Int) < c.dx → (y : Int) < c.dy →
      (∀ n e : ℝ, ((∃ N M : Nat, MeshPlace N M ∧ n = N / 10 ∧ e = M / 10) ∨
          (∃ N M : Nat, (N, M) ∈ Cli.borderTable ∧ n = N / 10 ^ 6 ∧ e = M / 10 ^ 6)) →
        let r := realProject c.format c.dx c.dy n e
        ¬ (Touches (2 * (c.dx / 10 ^ 9)) r.1 x ∧ Touches (2 * (c.dy / 10 ^ 9)) r.2 y)) →
      ∃ v, c.At x y = some v ∧ img.at x y = some (fn (v.conv f64)) := by
  obtain ⟨g1, g2⟩ := hasGrid_pos hg
  have hdx : c.dx ≤ 2 ^ 55 := by nlinarith
  have hdy : c.dy ≤ 2 ^ 55 := by nlinarith
  have hr : Ready E c := .parsed _ _ (Or.inl h)
  obtain ⟨img, fn, mesh, i1, ifn, hm, i2, i3, i4⟩ := (C50_drawing E I Cli.border input).2 c h hsz
  refine ⟨img, fn, i1, ifn, ?_⟩
  intro x y hx hy hno
  obtain ⟨v, hv, _, i5⟩ := i4 x y hx hy
  refine ⟨v, hv, (i5 ((C31_has_projection_iff hr).mpr ⟨b, hg.1, hg.2.1, hg.2.2⟩)).2.2 ?_ ?_⟩
  · rintro ⟨p, hp, t1, t2⟩
    obtain ⟨N, M, hp', hs⟩ := (mesh_places hm).2 p hp
    have ⟨a1, a2, a3, a4, _⟩ := hp'
    have a1' : (460 : ℝ) ≤ N := by exact_mod_cast a1
    have a2' : (N : ℝ) < 550 := by exact_mod_cast a2
    have a3' : (10 : ℝ) ≤ M := by exact_mod_cast a3
    have a4' : (M : ℝ) ≤ 160 := by exact_mod_cast a4
    exact hno _ _ (Or.inl ⟨N, M, hp', rfl, rfl⟩) ((placed hM I hr hg hdx hdy hs.fn hs.fe ⟨by linarith, by linarith⟩
      ⟨by linarith, by linarith⟩ hs.dn hs.de).2 x y t1 t2)
  · rintro ⟨p, hp, t1, t2⟩
    obtain ⟨N, M, hp', rfl⟩ := border_mem hp
    have hs := border_stands hp'
    have hn := Num.near_of_mem hp'
    have h1 := hn.hs; have h2 := hn.hn; have h3 := hn.hw; have h4 := hn.he
    norm_num at h1 h2 h3 h4
    exact hno _ _ (Or.inr ⟨N, M, hp', rfl, rfl⟩) ((placed hM I hr hg hdx hdy hs.fn hs.fe ⟨by norm_num; linarith, by norm_num; linarith⟩
      ⟨by norm_num; linarith, by norm_num; linarith⟩ hs.dn hs.de).2 x y t1 t2)

/-! ### concrete pictures -/

/-- 40 dBZ everywhere -/
def evenField (rows cols : Nat) : Content := { evenRain with
  rows := rows, cols := cols, data := List.replicate (rows * cols) 145 }

theorem evenField_wf {rows cols : Nat} (h1 : 1 ≤ rows ∧ rows ≤ 1000) (h2 : 1 ≤ cols ∧ cols ≤ 1000) : (evenField rows cols).WF where
  label := evenRain_wf.label
  letters := evenRain_wf.letters
  wmo := evenRain_wf.wmo
  time := evenRain_wf.time
  format := evenRain_wf.format
  interval := evenRain_wf.interval
  forecast := evenRain_wf.forecast
  precision := evenRain_wf.precision
  rows := ⟨h1.1, by show rows ≤ _; omega⟩
  cols := ⟨h2.1, by show cols ≤ _; omega⟩
  data := by
    show (List.replicate (rows * cols) (145 : UInt8)).length = 1 * (rows * cols)
    rw [List.length_replicate, Nat.one_mul]

/-- what is known of the composite of such a file -/
theorem evenField_parsed (E : Env) {rows cols : Nat} (h1 : 1 ≤ rows ∧ rows ≤ 1000) (h2 : 1 ≤ cols ∧ cols ≤ 1000) :
    ∃ c, NewComposite E (evenField rows cols).serialise = .ret c none ∧ c.format < 5 ∧ c.dx = cols ∧ c.dy = rows := by
  obtain ⟨c, _, _, _, _, _, hf, _, h7, h8, _, _, _, _, h13⟩ := C47_round_trip E _ (evenField_wf h1 h2)
  refine ⟨c, h13.mpr ⟨.dBZ, by show str "RX" ∈ _; decide⟩, ?_, h7, h8⟩
  rw [hf]
  show ((evenRain.format : Nat) : Int) < 5
  decide

/-- On a national composite of 225 x 225 pixels the crossing of 51 N and 9 E is at the centre of pixel (112, 112), which
has the mesh colour. -/
example (I : Vis.Impl) (border : List (F64 × F64)) : ∃ img, Cli.convert envFull I border (evenField 225 225).serialise = .image img ∧
    img.at 112 112 = some ⟨0x33, 0xFF, 0x22, 0xFF⟩ := by
  obtain ⟨c, h, hf, hx, hy⟩ := evenField_parsed envFull (rows := 225) (cols := 225) (by omega) (by omega)
  have hg : HasGrid c.format c.dx c.dy (225, 225) := ⟨by decide, ⟨0, by rw [hx]; rfl, by rw [hy]; rfl⟩, Or.inl hf⟩
  obtain ⟨img, i1, i2⟩ := C90_mesh_drawn (E := envFull) fullMath_accurate I border h hg (by rw [hx, hy]; norm_num)
  refine ⟨img, i1, ?_⟩
  obtain ⟨r1, r2⟩ := C52_reference_points hg (n := 51) (e := 9) (kx := 450) (ky := 450) (by simp [refPoints])
  have d1 : (c.dx : ℝ) = 225 := by rw [hx]; norm_num
  have d2 : (c.dy : ℝ) = 225 := by rw [hy]; norm_num
  have e1 : ((510 : Nat) : ℝ) / 10 = ((51 : ℚ) : ℝ) := by norm_num
  have e2 : ((90 : Nat) : ℝ) / 10 = ((9 : ℚ) : ℝ) := by norm_num
  have key := i2 510 90 (by unfold MeshPlace; decide) 112 112
  rw [e1, e2] at key
  generalize realProject c.format c.dx c.dy ((51 : ℚ) : ℝ) ((9 : ℚ) : ℝ) = r at *
  rw [d1] at key r1
  rw [d2] at key r2
  simp only [extentKm, refTolerance] at r1 r2
  norm_num at r1 r2
  obtain ⟨a1, a2⟩ := abs_le.mp r1
  obtain ⟨a3, a4⟩ := abs_le.mp r2
  refine key (.inside (by rw [hx]; norm_num) ?_ ?_) (.inside (by rw [hy]; norm_num) ?_ ?_) <;> norm_num <;> linarith

/-- On a central European composite of 350 x 375 pixels nothing is marked on the last 40 columns. -/
example (I : Vis.Impl) : ∃ (img : Vis.Img) (fn : F64 → Vis.RGBA) (c : Composite),
    Cli.convert envFull I Cli.border (evenField 375 350).serialise = .image img ∧
    ∀ x y : Nat, 310 ≤ x → x < 350 → y < 375 → ∃ v, c.At x y = some v ∧ img.at x y = some (fn (v.conv f64)) := by
  obtain ⟨c, h, hf, hx, hy⟩ := evenField_parsed envFull (rows := 375) (cols := 350) (by omega) (by omega)
  have hg : HasGrid c.format c.dx c.dy (350, 375) := ⟨by decide, ⟨0, by rw [hx]; rfl, by rw [hy]; rfl⟩, Or.inl hf⟩
  obtain ⟨img, fn, i1, _, i2⟩ := C90_unmarked (E := envFull) fullMath_accurate I h hg (by rw [hx, hy]; norm_num)
  refine ⟨img, fn, c, i1, fun x y h1 h2 h3 => i2 x y (by rw [hx]; push_cast; omega) (by rw [hy]; push_cast; omega) ?_⟩
  rintro n e hp r ⟨⟨t1, _⟩, _⟩
  have hne : (46 ≤ n ∧ n ≤ 55) ∧ 1 ≤ e ∧ e ≤ 16 := by
    rcases hp with ⟨N, M, ⟨a1, a2, a3, a4, _⟩, rfl, rfl⟩ | ⟨N, M, hp, rfl, rfl⟩
    · have a1' : (460 : ℝ) ≤ N := by exact_mod_cast a1
      have a2' : (N : ℝ) < 550 := by exact_mod_cast a2
      have a3' : (10 : ℝ) ≤ M := by exact_mod_cast a3
      have a4' : (M : ℝ) ≤ 160 := by exact_mod_cast a4
      refine ⟨⟨?_, ?_⟩, ?_, ?_⟩ <;> linarith
    · have hn := Num.near_of_mem hp
      have h1 := hn.hs; have h2 := hn.hn; have h3 := hn.hw; have h4 := hn.he
      norm_num at h1 h2 h3 h4 ⊢
      refine ⟨⟨?_, ?_⟩, ?_, ?_⟩ <;> linarith
  have hsph : ¬ 5 ≤ c.format := by omega
  have hxle := Num.x_le c.format (n := n) (e := e) (N := 45.68358331) (E := 16.60186543) (by norm_num) (by norm_num; linarith [hne.1.1])
    (by linarith [hne.1.2]) (by linarith [hne.2.1]) (by norm_num; linarith [hne.2.2]) (by norm_num) (by norm_num)
  obtain ⟨ot, ol, eb, er, hc⟩ := corners_isSome hg
  obtain ⟨q1, _⟩ := position_eq hg hc n e
  simp [corners] at hc
  obtain ⟨rfl, rfl, rfl, rfl⟩ := hc
  have k1 := abs_le.mp (Num.pt_g1200s_4 hsph).1
  have o1 := abs_le.mp (Num.pt_g1500_0 hsph).1
  have f1 := abs_le.mp (Num.pt_g1500_4 hsph).1
  have d1 : (c.dx : ℝ) = 350 := by rw [hx]; norm_num
  have x1 : (310 : ℝ) ≤ x := by exact_mod_cast h1
  have t1 : (x : ℝ) - 2 * (c.dx / 10 ^ 9) ≤ (realProject c.format c.dx c.dy n e).1 := by
    rcases t1 with t | t
    · exact t
    · omega
  rw [d1] at q1 t1
  clear hp
  generalize (realProject c.format c.dx c.dy n e).1 = u at q1 t1
  simp only [extentKm] at q1
  push_cast at q1
  norm_num at q1 t1 hxle k1 o1 f1
  generalize (planeXY realArith c.format n e).1 = P at *
  generalize (planeXY realArith c.format _ _).1 = K at hxle k1
  generalize (planeXY realArith c.format (565423 / 10000) _).1 = O at *
  generalize (planeXY realArith c.format _ _).1 = F at *
  have hD : 1400 ≤ F - O := by linarith [o1.2, f1.1]
  have : (P - O) / (F - O) ≤ 1230 / 1400 := by
    rw [div_le_div_iff₀ (by linarith) (by norm_num)]
    linarith [k1.2, o1.1]
  linarith

end Props
