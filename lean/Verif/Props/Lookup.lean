/-
C85: looking up the value at a place: `x, y := c.Project(lat, lon); c.At(int(x), int(y))`.
-/
import Verif.Spec.Lookup
import Verif.Props.Fusion
import Verif.Props.Addressing
import Verif.Props.EndToEnd
import Verif.Lemmas.Heat

namespace Props
open Go Radolan Spec Real Spec.Fusion

/-- the exact coordinates of a point are at most 145 times the size of the grid -/
theorem coordinate_bound {E : Env} (hM : AccurateMath E.math) {format dx dy : Int} {b : Int × Int}
    (hg : HasGrid format dx dy b) {north east : F64} (hp : OnMap north east) :
    |(realProject format dx dy north.val east.val).1| ≤ 145 * dx ∧
    |(realProject format dx dy north.val east.val).2| ≤ 145 * dy := by
  obtain ⟨ot, ol, eb, er, hc⟩ := corners_isSome hg
  obtain ⟨e1, e2, e3⟩ := realCalib_eq hg hc
  obtain ⟨x1, x2⟩ := plane_extent hg hc
  obtain ⟨r1, r2, r3, r4⟩ := corner_range hc
  obtain ⟨v1, v2, v3, v4⟩ := extent_range hg.1
  obtain ⟨_, _, bo1, bo2⟩ := plane_ap hM format (lit_pointAp r1 r2)
  obtain ⟨_, _, bp1, bp2⟩ := plane_ap hM format hp.pointAp
  obtain ⟨q1, q2⟩ := hasGrid_pos hg
  have g1 : (0 : ℝ) < dx := by exact_mod_cast q1
  have g2 : (0 : ℝ) < dy := by exact_mod_cast q2
  rw [e3, e1, e2]
  have key : ∀ {p o X d : ℝ}, |p| ≤ 65000 → |o| ≤ 65000 → 899 ≤ X → 0 < d → |(p - o) / (X / d)| ≤ 145 * d := by
    intro p o X d hp ho hX hd
    have hX0 : 0 < X := by linarith
    rw [abs_div, abs_of_pos (div_pos hX0 hd), div_le_iff₀ (div_pos hX0 hd), mul_assoc, mul_div_cancel₀ _ hd.ne']
    have := abs_sub p o
    linarith
  have hx := abs_le.mp x1
  have hy := abs_le.mp x2
  exact ⟨key bp1 bo1 (by linarith [hx.1]) g1, key bp2 bo2 (by linarith [hy.1]) g2⟩

/-- truncation of a float near a real number -/
theorem trunc_near (impl : F64 → Int) {x : F64} {u : ℝ} {d : Int} (hd : 0 < d) (hd2 : d ≤ 2 ^ 55) (hu : |u| ≤ 145 * d)
    (hx : x.isFin = true) (h : |(x.val : ℝ) - u| ≤ d / 10 ^ 9) :
    (∀ i : Nat, i + d / 10 ^ 9 ≤ u → u < i + 1 - d / 10 ^ 9 → Fl.toInt impl x = i) ∧
    (-1 + d / 10 ^ 9 < u → u < 1 - d / 10 ^ 9 → Fl.toInt impl x = 0) ∧
    (u ≤ -1 - d / 10 ^ 9 → Fl.toInt impl x < 0) ∧
    (d + d / 10 ^ 9 ≤ u → d ≤ Fl.toInt impl x) := by
  have g0 : (0 : ℝ) < d := by exact_mod_cast hd
  have g2 : (d : ℝ) ≤ 2 ^ 55 := by exact_mod_cast hd2
  obtain ⟨a1, a2⟩ := abs_le.mp h
  obtain ⟨b1, b2⟩ := abs_le.mp hu
  norm_num at g2
  have c1 : (((-(2 ^ 62 + 2 ^ 61) : ℚ)) : ℝ) ≤ x.val := by push_cast; norm_num at a1 a2 ⊢; linarith
  have c2 : (x.val : ℝ) ≤ ((2 ^ 62 + 2 ^ 61 : ℚ) : ℝ) := by push_cast; norm_num at a1 a2 ⊢; linarith
  have c1 : (-(2 ^ 62 + 2 ^ 61) : ℚ) ≤ x.val := by exact_mod_cast c1
  have c2 : x.val ≤ (2 ^ 62 + 2 ^ 61 : ℚ) := by exact_mod_cast c2
  have ht : Fl.toInt impl x = Fl.ratTrunc x.val := by
    unfold Fl.toInt
    rw [if_pos hx, if_pos]
    rcases lt_or_ge x.val 0 with h0 | h0
    · obtain ⟨k1, k2⟩ := Fl.ratTrunc_neg_bounds h0
      constructor
      · have : (-(2 ^ 63) : ℚ) ≤ Fl.ratTrunc x.val := by norm_num at c1 ⊢; linarith
        exact_mod_cast this
      · have : (Fl.ratTrunc x.val : ℚ) < 2 ^ 63 := by norm_num; linarith
        exact_mod_cast this
    · obtain ⟨k1, k2⟩ := Fl.ratTrunc_nonneg_bounds h0
      constructor
      · have : (-(2 ^ 63) : ℚ) ≤ Fl.ratTrunc x.val := by norm_num; linarith
        exact_mod_cast this
      · have : (Fl.ratTrunc x.val : ℚ) < 2 ^ 63 := by norm_num at c2 ⊢; linarith
        exact_mod_cast this
  rw [ht]
  refine ⟨fun i h1 h2 => ?_, fun h1 h2 => ?_, fun h1 => ?_, fun h1 => ?_⟩
  · have d1 : ((i : ℚ) : ℝ) ≤ x.val := by push_cast; linarith
    have d2 : (x.val : ℝ) < ((i + 1 : ℚ) : ℝ) := by push_cast; linarith
    exact Fl.ratTrunc_of (by omega) (by exact_mod_cast d1) (by exact_mod_cast d2)
  · have d1 : ((-1 : ℚ) : ℝ) < x.val := by push_cast; linarith
    have d2 : (x.val : ℝ) < ((1 : ℚ) : ℝ) := by push_cast; linarith
    have d1 : -1 < x.val := by exact_mod_cast d1
    have d2 : x.val < 1 := by exact_mod_cast d2
    rcases lt_or_ge x.val 0 with h0 | h0
    · obtain ⟨k1, k2⟩ := Fl.ratTrunc_neg_bounds h0
      have l1 : (-1 : ℚ) < Fl.ratTrunc x.val := by linarith
      have l2 : (Fl.ratTrunc x.val : ℚ) < 1 := by linarith
      have l1 : -1 < Fl.ratTrunc x.val := by exact_mod_cast l1
      have l2 : Fl.ratTrunc x.val < 1 := by exact_mod_cast l2
      omega
    · exact Fl.ratTrunc_of (by omega) (by exact_mod_cast h0) (by push_cast; linarith)
  · have d1 : (x.val : ℝ) ≤ ((-1 : ℚ) : ℝ) := by push_cast; linarith
    have d1 : x.val ≤ -1 := by exact_mod_cast d1
    obtain ⟨k1, k2⟩ := Fl.ratTrunc_neg_bounds (a := x.val) (by linarith)
    have : (Fl.ratTrunc x.val : ℚ) < 0 := by linarith
    exact_mod_cast this
  · have d1 : ((d : ℚ) : ℝ) ≤ x.val := by push_cast; linarith
    have d1 : (d : ℚ) ≤ x.val := by exact_mod_cast d1
    have d0 : (0 : ℚ) < d := by exact_mod_cast hd
    obtain ⟨k1, k2⟩ := Fl.ratTrunc_nonneg_bounds (a := x.val) (by linarith)
    have : (d : ℚ) < Fl.ratTrunc x.val + 1 := by linarith
    have : d < Fl.ratTrunc x.val + 1 := by exact_mod_cast this
    omega

theorem pos_index {impl : F64 → Int} {x : F64} {u : ℝ} {d : Int} {k : Option Nat} (hd : 0 < d) (hd2 : d ≤ 2 ^ 55)
    (hu : |u| ≤ 145 * d) (hx : x.isFin = true) (h : |(x.val : ℝ) - u| ≤ d / 10 ^ 9) (hp : Pos (d / 10 ^ 9) d u k) :
    match k with
    | some n => Fl.toInt impl x = n ∧ (n : Int) < d
    | none => Fl.toInt impl x < 0 ∨ d ≤ Fl.toInt impl x := by
  obtain ⟨t1, t2, t3, t4⟩ := trunc_near impl hd hd2 hu hx h
  cases hp with
  | inside h0 h1 h2 => exact ⟨t1 _ h1 h2, h0⟩
  | strip h1 h2 => exact ⟨t2 h1 h2, hd⟩
  | before h1 => exact Or.inl (t3 h1)
  | behind h1 => exact Or.inr (t4 h1)

/-- C85. On a grid with a projection, for every place between 45 S and the pole, however the compiler fuses operations and
whatever the hardware makes of conversions that overflow: the truncated results of Project lead to the pixel in which the
place lies, or outside the grid to NaN. -/
theorem C85_index {E : Env} (hM : AccurateMath E.math) {c : Composite} {b : Int × Int} (hg : HasGrid c.format c.dx c.dy b)
    (hdx : c.dx ≤ 2 ^ 55) (hdy : c.dy ≤ 2 ^ 55) {north east : F64} (hp : OnMap north east) (impl : F64 → Int) {x y : F64}
    (hx : Observable (permittedProject E c north east).1 x) (hy : Observable (permittedProject E c north east).2 y)
    {k l : Option Nat} :
    let r := realProject c.format c.dx c.dy north.val east.val
    Pos (c.dx / 10 ^ 9) c.dx r.1 k → Pos (c.dy / 10 ^ 9) c.dy r.2 l →
    c.At (Fl.toInt impl x) (Fl.toInt impl y) =
      match k, l with
      | some i, some j => c.At i j
      | _, _ => some .nan := by
  intro r hk hl
  obtain ⟨o1, o2⟩ := C67_project hM hg (by omega) (by omega) hp
  obtain ⟨f1, a1⟩ := o1 x hx
  obtain ⟨f2, a2⟩ := o2 y hy
  obtain ⟨b1, b2⟩ := coordinate_bound hM hg hp
  obtain ⟨q1, q2⟩ := hasGrid_pos hg
  have i1 := pos_index (hp := hk) (impl := impl) q1 hdx b1 f1 a1
  have i2 := pos_index (hp := hl) (impl := impl) q2 hdy b2 f2 a2
  have out := (C02_outside_nan E c).1
  cases k with
  | none => exact out _ _ _ (by rcases i1 with h | h <;> simp [h])
  | some i =>
    cases l with
    | none => exact out _ _ _ (by rcases i2 with h | h <;> simp [h])
    | some j => rw [i1.1, i2.1]

/-- C85. For every file of fixed-width pixels on a grid with a projection, looking up a place gives the value the file
has for the pixel in which the place lies, and NaN outside the grid. -/
theorem C85_file {E : Env} (hM : AccurateMath E.math) {p : Content} (hw : p.WF) {b : Int × Int}
    (hg : HasGrid p.format p.cols p.rows b) :
    ∃ c, Success E p.serialise c ∧
      ∀ (north east : F64), OnMap north east → ∀ (impl : F64 → Int) (x y : F64),
        Observable (permittedProject E c north east).1 x → Observable (permittedProject E c north east).2 y →
        let r := realProject p.format p.cols p.rows north.val east.val
        ∀ k l, Pos (p.cols / 10 ^ 9) p.cols r.1 k → Pos (p.rows / 10 ^ 9) p.rows r.2 l →
          c.At (Fl.toInt impl x) (Fl.toInt impl y) =
            match k, l with
            | some i, some j => p.pixel (decide (p.label ∈ productsIn .dBZ)) i j
            | _, _ => some .nan := by
  obtain ⟨c, hs, _, _, _, _, h1, _, h2, h3, _, _, _, hpix, _⟩ := C47_round_trip E p hw
  have hC := hw.cols
  have hR := hw.rows
  refine ⟨c, hs, ?_⟩
  intro north east hp impl x y hx hy r k l hk hl
  have := C85_index hM (c := c) (b := b) (by rw [h1, h2, h3]; exact hg) (by rw [h2]; omega) (by rw [h3]; omega) hp impl hx hy
    (k := k) (l := l)
  rw [h1, h2, h3] at this
  rw [this (by push_cast; exact hk) (by push_cast; exact hl)]
  cases k with
  | none => rfl
  | some i =>
    cases l with
    | none => rfl
    | some j =>
      have hi : (i : Int) < p.cols := by
        cases hk with
        | inside h _ _ => exact h
        | strip _ _ => have := hC.1; push_cast; omega
      have hj : (j : Int) < p.rows := by
        cases hl with
        | inside h _ _ => exact h
        | strip _ _ => have := hR.1; push_cast; omega
      obtain ⟨v, e1, e2⟩ := hpix i j (by exact_mod_cast hi) (by exact_mod_cast hj)
      show c.At i j = p.pixel _ i j
      rw [e1]; exact e2

/-- places inside every pixel exist -/
theorem place_of (c : Composite) {b : Int × Int} (hg : HasGrid c.format c.dx c.dy b)
    (hdx : c.dx ≤ 10 ^ 8) (hdy : c.dy ≤ 10 ^ 8) {i j : Nat} (hi : (i : Int) < c.dx) (hj : (j : Int) < c.dy) :
    ∃ north east : F64, OnMap north east ∧
      Pos (c.dx / 10 ^ 9) c.dx (realProject c.format c.dx c.dy north.val east.val).1 (some i) ∧
      Pos (c.dy / 10 ^ 9) c.dy (realProject c.format c.dx c.dy north.val east.val).2 (some j) := by
  have hi' : (i : ℝ) + 1 ≤ c.dx := by exact_mod_cast hi
  have hj' : (j : ℝ) + 1 ≤ c.dy := by exact_mod_cast hj
  have dx' : (c.dx : ℝ) ≤ 10 ^ 8 := by exact_mod_cast hdx
  have dy' : (c.dy : ℝ) ≤ 10 ^ 8 := by exact_mod_cast hdy
  have i0 : (0 : ℝ) ≤ i := Nat.cast_nonneg i
  have j0 : (0 : ℝ) ≤ j := Nat.cast_nonneg j
  obtain ⟨n, e, n0, n1, he, hp⟩ := place_point hg (x := i + 1 / 2) (y := j + 1 / 2) ⟨by linarith, by linarith⟩ ⟨by linarith, by linarith⟩
  obtain ⟨he1, he2⟩ := abs_le.mp he
  obtain ⟨xn, hxn⟩ := near_float (r := n) (by rw [abs_of_nonneg n0]; exact n1)
  obtain ⟨xe, hxe⟩ := near_float (r := e) (by rw [abs_le]; constructor <;> linarith)
  have h : Ready envExact (NewDummy envExact [] c.format c.dx c.dy) := .dummy ..
  have hg' : HasGrid (NewDummy envExact [] c.format c.dx c.dy).format (NewDummy envExact [] c.format c.dx c.dy).dx
    (NewDummy envExact [] c.format c.dx c.dy).dy b := hg
  obtain ⟨_, h3⟩ := float_projection exactMath_accurate h hg' (show c.dx < _ by omega) (show c.dy < _ by omega)
  obtain ⟨h4, h5⟩ := h3 (xn := xn) (xe := xe) (n := n) (e := e) ⟨hxn, hxe, ⟨by linarith, by linarith⟩, by rw [abs_le]; constructor <;> linarith⟩
  obtain ⟨t1, t2⟩ := abs_le.mp hxn.2
  obtain ⟨t3, t4⟩ := abs_le.mp hxe.2
  have hon : OnMap xn xe := by
    norm_num at t1 t2 t3 t4
    refine ⟨hxn.1, ?_, ?_, hxe.1, ?_⟩
    · have : ((-45 : ℚ) : ℝ) ≤ xn.val := by push_cast; linarith
      exact_mod_cast this
    · have : (xn.val : ℝ) ≤ ((90 : ℚ) : ℝ) := by push_cast; linarith
      exact_mod_cast this
    · have : |(xe.val : ℝ)| ≤ ((360 : ℚ) : ℝ) := by push_cast; rw [abs_le]; constructor <;> linarith
      exact_mod_cast this
  obtain ⟨_, d1, _, d2⟩ := C54_project exactMath_accurate h hg' (show c.dx < _ by omega) (show c.dy < _ by omega) hon
  change Go.Fl.Ap _ (realProject c.format c.dx c.dy n e).1 (c.dx / 10 ^ 9) at h4
  change Go.Fl.Ap _ (realProject c.format c.dx c.dy n e).2 (c.dy / 10 ^ 9) at h5
  change |_ - (realProject c.format c.dx c.dy _ _).1| ≤ (c.dx : ℝ) / 10 ^ 9 at d1
  change |_ - (realProject c.format c.dx c.dy _ _).2| ≤ (c.dy : ℝ) / 10 ^ 9 at d2
  rw [hp] at h4 h5
  obtain ⟨a1, a2⟩ := abs_le.mp h4.2
  obtain ⟨a3, a4⟩ := abs_le.mp h5.2
  obtain ⟨b1, b2⟩ := abs_le.mp d1
  obtain ⟨b3, b4⟩ := abs_le.mp d2
  simp only at a1 a2 a3 a4
  norm_num at a1 a2 a3 a4 b1 b2 b3 b4 dx' dy'
  refine ⟨xn, xe, hon, .inside hi ?_ ?_, .inside hj ?_ ?_⟩ <;> norm_num <;> linarith

/-- C85. Every pixel of a file can be looked up (up to a hundred million pixels along each edge): there is a place, the
same on all machines, for which this gives its value. -/
theorem C85_reachable {p : Content} (hw : p.WF) {b : Int × Int}
    (hg : HasGrid p.format p.cols p.rows b) (hc : p.cols ≤ 10 ^ 8) (hr : p.rows ≤ 10 ^ 8) {i j : Nat} (hi : i < p.cols)
    (hj : j < p.rows) :
    ∃ north east : F64, OnMap north east ∧ ∀ E : Env, AccurateMath E.math →
      ∃ c, Success E p.serialise c ∧ ∀ (impl : F64 → Int) (x y : F64),
        Observable (permittedProject E c north east).1 x → Observable (permittedProject E c north east).2 y →
        c.At (Fl.toInt impl x) (Fl.toInt impl y) = p.pixel (decide (p.label ∈ productsIn .dBZ)) i j := by
  obtain ⟨north, east, ho, h1, h2⟩ := place_of (NewDummy envExact [] p.format p.cols p.rows) (b := b) hg
    (show (p.cols : Int) ≤ _ by omega) (show (p.rows : Int) ≤ _ by omega) (i := i) (j := j) (show (i : Int) < p.cols by omega)
    (show (j : Int) < p.rows by omega)
  refine ⟨north, east, ho, fun E hM => ?_⟩
  obtain ⟨c, hs, H⟩ := C85_file hM hw hg
  refine ⟨c, hs, fun impl x y hx hy => ?_⟩
  exact H north east ho impl x y hx hy (some i) (some j) h1 h2

/-- a place in pixel (123, 456) of a 900x900 placeholder, and what Project makes of it -/
example : let c := NewDummy envExact (str "RX") 3 900 900
    ∃ north east x y : F64, OnMap north east ∧
      Observable (permittedProject envExact c north east).1 x ∧ Observable (permittedProject envExact c north east).2 y ∧
      Pos (c.dx / 10 ^ 9) c.dx (realProject c.format c.dx c.dy north.val east.val).1 (some 123) ∧
      Pos (c.dy / 10 ^ 9) c.dy (realProject c.format c.dx c.dy north.val east.val).2 (some 456) := by
  intro c
  obtain ⟨n, e, h1, h2, h3⟩ := place_of c (b := (225, 225))
    ⟨by decide, ⟨2, rfl, rfl⟩, Or.inl (by show (3 : Int) < 5; decide)⟩ (by show (900 : Int) ≤ _; norm_num)
    (by show (900 : Int) ≤ _; norm_num) (i := 123) (j := 456) (by show (123 : Int) < 900; norm_num) (by show (456 : Int) < 900; norm_num)
  obtain ⟨_, _, o1, o2⟩ := C67_separate_rounding (E := envExact) (c := c) (.dummy ..) n e
  exact ⟨n, e, _, _, h1, o1, o2, h2, h3⟩

end Props
