/-
C86: the rainfall at a place, as in the example of the package documentation.
-/
import Verif.Spec.Rainfall
import Verif.Lemmas.Berlin
import Verif.Props.Lookup
import Verif.Props.AnyPrecision
import Verif.Props.FloatConversion

namespace Props
open Go Radolan Spec Real Spec.Fusion

/-- C86. Berlin lies where it should, on every grid at every resolution, to a metre. -/
theorem C86_berlin_position {format dx dy : Int} {b : Int × Int} (h : HasGrid format dx dy b) :
    |(realProject format dx dy (52.51861 : ℚ) (13.40833 : ℚ)).1 * ((extentKm b).1 / dx) - (berlinKm b format).1| ≤ 1 / 1000 ∧
    |(realProject format dx dy (52.51861 : ℚ) (13.40833 : ℚ)).2 * ((extentKm b).2 / dy) - (berlinKm b format).2| ≤ 1 / 1000 := by
  obtain ⟨ot, ol, eb, er, hc⟩ := corners_isSome h
  obtain ⟨q1, q2⟩ := position_eq h hc (52.51861 : ℚ) (13.40833 : ℚ)
  rw [q1, q2]
  clear q1 q2
  obtain ⟨hb, _, hf⟩ := h
  have hf' := fun hne => spherical_of hf hne
  simp only [baseGrids, List.mem_cons, List.not_mem_nil, or_false] at hb
  rcases hb with rfl | rfl | rfl | rfl | rfl
  · have hf := hf' (by decide)
    simp [corners] at hc
    obtain ⟨rfl, rfl, rfl, rfl⟩ := hc
    simp [extentKm, berlinKm]
    have h1 := Num.berlin_g900_x hf
    have h2 := Num.berlin_g900_y hf
    push_cast
    norm_num at h1 h2 ⊢
    exact ⟨h1, h2⟩
  · have hf := hf' (by decide)
    simp [corners] at hc
    obtain ⟨rfl, rfl, rfl, rfl⟩ := hc
    simp [extentKm, berlinKm]
    have h1 := Num.berlin_g920_x hf
    have h2 := Num.berlin_g920_y hf
    push_cast
    norm_num at h1 h2 ⊢
    exact ⟨h1, h2⟩
  · have hf := hf' (by decide)
    simp [corners] at hc
    obtain ⟨rfl, rfl, rfl, rfl⟩ := hc
    simp [extentKm, berlinKm]
    have h1 := Num.berlin_g1100_x hf
    have h2 := Num.berlin_g1100_y hf
    push_cast
    norm_num at h1 h2 ⊢
    exact ⟨h1, h2⟩
  · clear hf hf'
    by_cases hf : 5 ≤ format
    · simp [corners, hf] at hc
      obtain ⟨rfl, rfl, rfl, rfl⟩ := hc
      simp [extentKm, berlinKm, hf]
      have h1 := Num.berlin_g1200w_x hf
      have h2 := Num.berlin_g1200w_y hf
      push_cast
      norm_num at h1 h2 ⊢
      exact ⟨h1, h2⟩
    · simp [corners, hf] at hc
      obtain ⟨rfl, rfl, rfl, rfl⟩ := hc
      simp [extentKm, berlinKm, hf]
      have h1 := Num.berlin_g1200s_x hf
      have h2 := Num.berlin_g1200s_y hf
      push_cast
      norm_num at h1 h2 ⊢
      exact ⟨h1, h2⟩
  · have hf := hf' (by decide)
    simp [corners] at hc
    obtain ⟨rfl, rfl, rfl, rfl⟩ := hc
    simp [extentKm, berlinKm]
    have h1 := Num.berlin_g1500_x hf
    have h2 := Num.berlin_g1500_y hf
    push_cast
    norm_num at h1 h2 ⊢
    exact ⟨h1, h2⟩

theorem berlin_facts {b : Int × Int} (hb : b ∈ baseGrids) (format : Int) :
    let k := berlinKm b format
    let q := berlinPixel b format
    (q.1 : ℚ) + 1 / 100 ≤ k.1 ∧ k.1 ≤ q.1 + 1 - 1 / 100 ∧ (q.2 : ℚ) + 1 / 100 ≤ k.2 ∧ k.2 ≤ q.2 + 1 - 1 / 100 ∧
    (q.1 : ℚ) < (extentKm b).1 ∧ (q.2 : ℚ) < (extentKm b).2 := by
  simp only [baseGrids, List.mem_cons, List.not_mem_nil, or_false] at hb
  rcases hb with rfl | rfl | rfl | rfl | rfl
  · norm_num [berlinKm, berlinPixel, extentKm]
  · norm_num [berlinKm, berlinPixel, extentKm]
  · norm_num [berlinKm, berlinPixel, extentKm]
  · by_cases hf : 5 ≤ format <;> norm_num [berlinKm, berlinPixel, extentKm, hf]
  · norm_num [berlinKm, berlinPixel, extentKm]

/-- C86. At one kilometre per pixel, Berlin is found in its pixel: for every file of fixed-width pixels, however the
compiler fuses operations, the two lines `x, y := c.Project(52.51861, 13.40833)` and `c.At(int(x), int(y))` give the value
the file has for that pixel. -/
theorem C86_berlin {E : Env} (hM : AccurateMath E.math) {p : Content} (hw : p.WF) {b : Int × Int}
    (hg : HasGrid p.format p.cols p.rows b) (h1 : (p.cols : ℚ) = (extentKm b).1) (h2 : (p.rows : ℚ) = (extentKm b).2) :
    ∃ c, Success E p.serialise c ∧ ∀ (impl : F64 → Int) (x y : F64),
      Observable (permittedProject E c (Fl.lit f64 52.51861) (Fl.lit f64 13.40833)).1 x →
      Observable (permittedProject E c (Fl.lit f64 52.51861) (Fl.lit f64 13.40833)).2 y →
      c.At (Fl.toInt impl x) (Fl.toInt impl y) =
        p.pixel (decide (p.label ∈ productsIn .dBZ)) (berlinPixel b p.format).1 (berlinPixel b p.format).2 := by
  obtain ⟨c, hs, _, _, _, _, d1, _, d2, d3, _, _, _, hpix, _⟩ := C47_round_trip E p hw
  have hC := hw.cols
  have hR := hw.rows
  refine ⟨c, hs, fun impl x y hx hy => ?_⟩
  have hg' : HasGrid c.format c.dx c.dy b := by rw [d1, d2, d3]; exact hg
  obtain ⟨_, h3⟩ := project_tr (Fusion.tracks_permitted hM) hg' (by rw [d2]; omega) (by rw [d3]; omega)
  obtain ⟨h4, h5⟩ := h3 (lit_pointTracks (Fusion.tracks_permitted hM) (n := 52.51861) (e := 13.40833) (by norm_num)
    (by norm_num [abs_le]))
  have a1 := observable_ap h4 hx
  have a2 := observable_ap h5 hy
  obtain ⟨t1, t2⟩ := C86_berlin_position hg'
  obtain ⟨k1, k2, k3, k4, k5, k6⟩ := berlin_facts hg.1 p.format
  rw [d1, d2, d3] at a1 a2 t1 t2
  have n1 : (p.cols : ℝ) = ((extentKm b).1 : ℝ) := by exact_mod_cast h1
  have n2 : (p.rows : ℝ) = ((extentKm b).2 : ℝ) := by exact_mod_cast h2
  obtain ⟨e1, e2, e3, e4⟩ := extent_range hg.1
  push_cast at a1 a2 t1 t2
  rw [← n1, div_self (by rw [n1]; intro h0; linarith), mul_one] at t1
  rw [← n2, div_self (by rw [n2]; intro h0; linarith), mul_one] at t2
  have key : ∀ {x : F64} {r : ℝ} {km : ℚ} {q d : Nat}, Go.Fl.Ap x r (d / 10 ^ 9) → |r - km| ≤ 1 / 1000 → (d : ℝ) ≤ 1500 →
      (q : ℚ) + 1 / 100 ≤ km → km ≤ q + 1 - 1 / 100 → (q : ℝ) < d → Fl.toInt impl x = q := by
    intro x r km q d ha hr hd l1 l2 hq
    have l1' : ((q : ℝ) + 1 / 100) ≤ km := by have := (Rat.cast_le (K := ℝ)).mpr l1; push_cast at this; exact this
    have l2' : (km : ℝ) ≤ q + 1 - 1 / 100 := by have := (Rat.cast_le (K := ℝ)).mpr l2; push_cast at this; exact this
    obtain ⟨u1, u2⟩ := abs_le.mp ha.2
    obtain ⟨u3, u4⟩ := abs_le.mp hr
    have hd9 : (d : ℝ) / 10 ^ 9 ≤ 1 / 1000 := by rw [div_le_iff₀ (by norm_num)]; linarith
    have v1 : ((q : ℚ) : ℝ) ≤ x.val := by push_cast; linarith
    have v2 : (x.val : ℝ) < ((q + 1 : ℚ) : ℝ) := by push_cast; linarith
    have ht : Fl.ratTrunc x.val = q := Fl.ratTrunc_of (by omega) (by exact_mod_cast v1) (by exact_mod_cast v2)
    have hq' : (q : ℝ) < (1500 : Nat) := by push_cast; linarith
    have hq' : q < 1500 := by exact_mod_cast hq'
    unfold Fl.toInt
    rw [if_pos ha.1, ht, if_pos (by omega)]
  have m1 : ((berlinPixel b p.format).1 : ℝ) < p.cols := by rw [n1]; exact_mod_cast k5
  have m2 : ((berlinPixel b p.format).2 : ℝ) < p.rows := by rw [n2]; exact_mod_cast k6
  rw [key a1 t1 (by rw [n1]; linarith) k1 k2 m1, key a2 t2 (by rw [n2]; linarith) k3 k4 m2]
  obtain ⟨v, v1, v2⟩ := hpix _ _ (by exact_mod_cast m1) (by exact_mod_cast m2)
  rw [v1]; exact v2

/-- the rate of an exactly decoded reflectivity -/
theorem rain_of {M : MathLib} (hP : AccuratePowLog M) {d : F32} {q : ℚ} (hd : d.isFin = true) (hv : d.val = q) (hq : |q| ≤ 128) :
    RainOf (some q) (PrecipitationRate M (Doelling98 (f64Arith M)) d) := by
  have hp : Parameters (Fl.lit f64 316) (Fl.lit f64 (150 / 100)) := params_of (by decide +kernel) (by decide +kernel) rfl rfl
      (by decide +kernel) (by decide +kernel)
  have h316 : ((Fl.lit f64 316).val : ℝ) = 316 := by
    rw [(by decide +kernel : (Fl.lit f64 316).val = 316)]; norm_num
  have h15 : ((Fl.lit f64 (150 / 100)).val : ℝ) = 3 / 2 := by
    rw [(by decide +kernel : (Fl.lit f64 (150 / 100)).val = 3 / 2)]; norm_num
  have hq' : |(d.val : ℝ)| ≤ 128 := by rw [hv]; exact_mod_cast hq
  obtain ⟨r1, _, r3⟩ := C57_rate hP hp hd hq'
  rw [h316, h15, hv] at r3
  refine ⟨r1, realRate 316 (3 / 2) q, ?_, C39_zr_law (by norm_num) (by norm_num) _, r3⟩
  rw [realRate_eq (by norm_num)]
  exact exp_pos _

/-- the rate of missing data -/
theorem rain_none {M : MathLib} (hP : AccuratePowLog M) (hN : ∀ x : F64, x ≠ Fl.lit f64 1 → M.pow x .nan = .nan) :
    RainOf none (PrecipitationRate M (Doelling98 (f64Arith M)) .nan) := by
  refine C41_nan_rate M hN _ _ ?_ .nan ((C41_isNaN _).mpr rfl)
  intro h1
  have e1 : (f64Arith M).lit (150 / 100) = Fl.lit f64 (150 / 100) := rfl
  rw [e1] at h1
  set y := Fl.div (Fl.lit f64 1) (Fl.mul (Fl.lit f64 10) (Fl.lit f64 (150 / 100))) with hy
  have hyf : y.isFin = true := by decide +kernel
  have hyv : 1 / 16 ≤ y.val ∧ y.val ≤ 1 / 15 := by decide +kernel
  have y1 : ((1 / 16 : ℚ) : ℝ) ≤ y.val := by exact_mod_cast hyv.1
  have y2 : (y.val : ℝ) ≤ ((1 / 15 : ℚ) : ℝ) := by exact_mod_cast hyv.2
  push_cast at y1 y2
  have h10 : ((Fl.lit f64 10).val : ℝ) = 10 := by
    rw [(by decide +kernel : (Fl.lit f64 10).val = 10)]; norm_num
  have hl := log_ten
  have hl2 : log (10 : ℝ) ≤ 10 := (log_le_sub_one_of_pos (by norm_num)).trans (by norm_num)
  obtain ⟨_, p2⟩ := hP.pow (Fl.lit f64 10) y (by decide +kernel) hyf (by rw [h10]; norm_num) (by rw [h10]; norm_num)
    (by rw [abs_of_nonneg (by linarith)]; linarith)
    (by rw [h10, abs_of_nonneg (by apply mul_nonneg <;> linarith)]; nlinarith)
  rw [h1, h10, (by decide +kernel : (Fl.lit f64 1).val = 1)] at p2
  have hb : (1 + 1 / 16 * 2 : ℝ) ≤ 10 ^ (y.val : ℝ) := by
    rw [rpow_def_of_pos (by norm_num)]
    have : log 10 * (y.val : ℝ) + 1 ≤ exp (log 10 * y.val) := add_one_le_exp _
    nlinarith
  have := (abs_le.mp p2).1
  push_cast at this
  linarith

theorem rain_pixel {M : MathLib} (hP : AccuratePowLog M) (hN : ∀ x : F64, x ≠ Fl.lit f64 1 → M.pow x .nan = .nan)
    {p : Content} (hp : p.precision = 0) {i j : Nat} {v : F32} (h : p.pixel true i j = some v) {raw : Option Int}
    (hr : p.raw i j = some raw) (hb : ∀ r ∈ raw, -191 ≤ r ∧ r ≤ 321) :
    RainOf (statedDbz raw) (PrecipitationRate M (Doelling98 (f64Arith M)) v) := by
  rcases pixel_raw h with ⟨e1, rfl⟩ | ⟨r, e1, e2, e3⟩
  · rw [e1] at hr
    obtain rfl : none = raw := by simpa using hr
    exact rain_none hP hN
  · rw [e1] at hr
    obtain rfl : some r = raw := by simpa using hr
    obtain ⟨b1, b2⟩ := hb r rfl
    rw [hp] at e3
    obtain ⟨z1, z2⟩ := C09_dbz_exact e2
    rw [e3]
    have b1' : (-191 : ℚ) ≤ r := by exact_mod_cast b1
    have b2' : (r : ℚ) ≤ 321 := by exact_mod_cast b2
    exact rain_of hP z1 z2 (by rw [abs_le]; constructor <;> linarith)

theorem success_none {E : Env} {input : Bytes} {c c' : Composite} (h : Success E input c) (h' : NewComposite E input = .ret c' none) :
    NewComposite E input = .ret c none := by
  rcases h with h | h
  · exact h
  · rw [h] at h'; simp at h'

/-- the bounds on raw numbers hold for all bytes -/
theorem raw_byte {p : Content} (hw : p.wide = false) {i j : Nat} {raw : Option Int} (h : p.raw i j = some raw) :
    ∀ r ∈ raw, -191 ≤ r ∧ r ≤ 321 := by
  intro r hr
  unfold Content.raw at h
  simp only [hw, Bool.false_eq_true, if_false, Option.map_eq_some_iff] at h
  obtain ⟨b, _, rfl⟩ := h
  split at hr
  · simp at hr
  · obtain rfl : (b.toNat : Int) = r := by simpa using hr
    have := b.toNat_lt
    omega

/-- C86. The example of the documentation: for every reflectivity file of precision 0 at one kilometre per pixel, the three
lines give the rainfall rate in Berlin after Doelling, to ten digits, of the reflectivity the file states for its pixel, and
NaN when the file has no data there. -/
theorem C86_documented_example {E : Env} (hM : AccurateMath E.math) (hP : AccuratePowLog E.math)
    (hN : ∀ x : F64, x ≠ Fl.lit f64 1 → E.math.pow x .nan = .nan) {p : Content} (hw : p.WF) (hu : p.label ∈ productsIn .dBZ)
    (hp : p.precision = 0) {b : Int × Int} (hg : HasGrid p.format p.cols p.rows b)
    (h1 : (p.cols : ℚ) = (extentKm b).1) (h2 : (p.rows : ℚ) = (extentKm b).2) :
    ∃ c, NewComposite E p.serialise = .ret c none ∧ ∀ (impl : F64 → Int) (x y : F64),
      Observable (permittedProject E c (Fl.lit f64 52.51861) (Fl.lit f64 13.40833)).1 x →
      Observable (permittedProject E c (Fl.lit f64 52.51861) (Fl.lit f64 13.40833)).2 y →
      ∀ raw, p.raw (berlinPixel b p.format).1 (berlinPixel b p.format).2 = some raw → (∀ r ∈ raw, -191 ≤ r ∧ r ≤ 321) →
      ∃ dbz, c.At (Fl.toInt impl x) (Fl.toInt impl y) = some dbz ∧
        RainOf (statedDbz raw) (PrecipitationRate E.math (Doelling98 (f64Arith E.math)) dbz) := by
  obtain ⟨c0, hs0, hq⟩ := C47_round_trip E p hw
  have hret := hq.2.2.2.2.2.2.2.2.2.2.2.2.mpr ⟨_, hu⟩
  obtain ⟨c, hs, H⟩ := C86_berlin hM hw hg h1 h2
  refine ⟨c, success_none hs hret, fun impl x y hx hy raw hraw hb => ?_⟩
  have hat := H impl x y hx hy
  rw [decide_eq_true hu] at hat
  obtain ⟨k1, k2, k3, k4, k5, k6⟩ := berlin_facts hg.1 p.format
  rw [← h1] at k5
  rw [← h2] at k6
  obtain ⟨v, v1, _⟩ := hq.2.2.2.2.2.2.2.2.2.2.2.1 (berlinPixel b p.format).1 (berlinPixel b p.format).2 (by exact_mod_cast k5)
    (by exact_mod_cast k6)
  rw [decide_eq_true hu] at v1
  exact ⟨v, hat.trans v1, rain_pixel hP hN hp v1 hraw hb⟩

/-- C86. The same at every other place, on every grid at every resolution: the rainfall rate of what the file states for the
pixel in which the place lies, and NaN where it has no data and outside the grid. -/
theorem C86_rain_anywhere {E : Env} (hM : AccurateMath E.math) (hP : AccuratePowLog E.math)
    (hN : ∀ x : F64, x ≠ Fl.lit f64 1 → E.math.pow x .nan = .nan) {p : Content} (hw : p.WF) (hu : p.label ∈ productsIn .dBZ)
    (hp : p.precision = 0) {b : Int × Int} (hg : HasGrid p.format p.cols p.rows b) :
    ∃ c, NewComposite E p.serialise = .ret c none ∧
      ∀ (north east : F64), OnMap north east → ∀ (impl : F64 → Int) (x y : F64),
        Observable (permittedProject E c north east).1 x → Observable (permittedProject E c north east).2 y →
        let q := realProject p.format p.cols p.rows north.val east.val
        ∀ k l, Pos (p.cols / 10 ^ 9) p.cols q.1 k → Pos (p.rows / 10 ^ 9) p.rows q.2 l →
        ∀ raw, (match k, l with
            | some i, some j => p.raw i j = some raw
            | _, _ => raw = none) → (∀ r ∈ raw, -191 ≤ r ∧ r ≤ 321) →
          ∃ dbz, c.At (Fl.toInt impl x) (Fl.toInt impl y) = some dbz ∧
            RainOf (statedDbz raw) (PrecipitationRate E.math (Doelling98 (f64Arith E.math)) dbz) := by
  obtain ⟨c0, hs0, hq⟩ := C47_round_trip E p hw
  have hret := hq.2.2.2.2.2.2.2.2.2.2.2.2.mpr ⟨_, hu⟩
  obtain ⟨c, hs, H⟩ := C85_file hM hw hg
  refine ⟨c, success_none hs hret, ?_⟩
  intro north east hon impl x y hx hy q k l hk hl raw hraw hb
  have hat := H north east hon impl x y hx hy k l hk hl
  rw [decide_eq_true hu] at hat
  have outside : raw = none → c.At (Fl.toInt impl x) (Fl.toInt impl y) = some .nan →
      ∃ dbz, c.At (Fl.toInt impl x) (Fl.toInt impl y) = some dbz ∧
            RainOf (statedDbz raw) (PrecipitationRate E.math (Doelling98 (f64Arith E.math)) dbz) := by
    rintro rfl h
    exact ⟨_, h, rain_none hP hN⟩
  cases k with
  | none => exact outside hraw hat
  | some i =>
    cases l with
    | none => exact outside hraw hat
    | some j =>
      have hi : (i : Int) < p.cols := by
        cases hk with
        | inside h _ _ => exact h
        | strip _ _ => have := hw.cols.1; push_cast; omega
      have hj : (j : Int) < p.rows := by
        cases hl with
        | inside h _ _ => exact h
        | strip _ _ => have := hw.rows.1; push_cast; omega
      obtain ⟨v, v1, _⟩ := hq.2.2.2.2.2.2.2.2.2.2.2.1 i j (by exact_mod_cast hi) (by exact_mod_cast hj)
      rw [decide_eq_true hu] at v1
      exact ⟨v, hat.trans v1, rain_pixel hP hN hp v1 hraw hb⟩

/-- a math library that is accurate in every respect demanded here -/
noncomputable def fullMath : MathLib :=
  { relMath with pow := fun x y => if y = .nan then .nan else relMath.pow x y }

theorem fullMath_powLog : AccuratePowLog fullMath where
  pow x y hx hy h1 h2 h3 h4 := by
    have hn : y ≠ .nan := by rintro rfl; simp [Fl.isFin] at hy
    have e : fullMath.pow x y = relMath.pow x y := if_neg hn
    rw [e]
    exact relMath_accurate.pow x y hx hy h1 h2 h3 h4
  log10 := relMath_accurate.log10

theorem fullMath_accurate : AccurateMath fullMath where
  sin := exactMath_accurate.sin
  cos := exactMath_accurate.cos
  tan := exactMath_accurate.tan
  pow x y hx hy h1 h2 := by
    have hn : y ≠ .nan := by rintro rfl; simp [Fl.isFin] at hy
    have e : fullMath.pow x y = Fl.lit f64 (ratRel ((x.val : ℝ) ^ (y.val : ℝ))) := if_neg hn
    rw [e]
    have hx0 : (0 : ℝ) < x.val := by linarith [h1.1]
    have hp : (0 : ℝ) < (x.val : ℝ) ^ (y.val : ℝ) := rpow_pos_of_pos hx0 _
    have hu : (x.val : ℝ) ^ (y.val : ℝ) ≤ 2 := by
      refine (rpow_le_rpow hx0.le h1.2 h2.1).trans ?_
      refine (rpow_le_rpow_of_exponent_le (by norm_num) (h2.2.trans (by norm_num : (1 / 10 : ℝ) ≤ 1))).trans ?_
      norm_num
    exact Go.Fl.lit_ap (M := 3) (ratRel_spec hp) (by rw [abs_of_pos hp]; norm_num; linarith) (by norm_num) (by norm_num)
      (by norm_num; linarith)

noncomputable def envFull : Env := { env0 with math := fullMath }

/-- 40 dBZ all over a national composite -/
def evenRain : Content := { sampleContent with
  label := str "RX", rows := 900, cols := 900, precision := 0, wide := false, data := List.replicate 810000 145 }

theorem evenRain_wf : evenRain.WF where
  label := ⟨82, 88, by decide, by decide, by decide⟩
  letters := by decide
  wmo := sampleContent_wf.wmo
  time := sampleContent_wf.time
  format := sampleContent_wf.format
  interval := sampleContent_wf.interval
  forecast := sampleContent_wf.forecast
  precision := by decide
  rows := by decide
  cols := by decide
  data := by
    show (List.replicate 810000 (145 : UInt8)).length = 1 * (900 * 900)
    rw [List.length_replicate]

theorem raw_even {p : Content} {n : Nat} {b : UInt8} {i j : Nat} (hw : p.wide = false) (hd : p.data = List.replicate n b)
    (h : (p.rows - 1 - j) * p.cols + i < n) (hb : b.toNat ≠ 250) : p.raw i j = some (some (b.toNat : Int)) := by
  unfold Content.raw
  simp only [hw, Bool.false_eq_true, if_false, hd, List.getElem?_replicate, if_pos h, Option.map_some, if_neg hb]

/-- the example of the documentation on that file: R with 316 R^1.5 = 10^4 -/
example : ∃ c dbz, NewComposite envFull evenRain.serialise = .ret c none ∧
    c.At (Fl.toInt (fun _ => 0) (c.Project envFull (Fl.lit f64 52.51861) (Fl.lit f64 13.40833)).1)
      (Fl.toInt (fun _ => 0) (c.Project envFull (Fl.lit f64 52.51861) (Fl.lit f64 13.40833)).2) = some dbz ∧
    RainOf (some 40) (PrecipitationRate fullMath (Doelling98 (f64Arith fullMath)) dbz) := by
  have hN : ∀ x : F64, x ≠ Fl.lit f64 1 → fullMath.pow x .nan = .nan := fun x _ => by simp [fullMath]
  have hg : HasGrid (evenRain.format : Int) (evenRain.cols : Int) (evenRain.rows : Int) (225, 225) :=
    ⟨by decide, ⟨2, rfl, rfl⟩, Or.inl (by decide)⟩
  obtain ⟨c, h1, h2⟩ := C86_documented_example (E := envFull) fullMath_accurate fullMath_powLog hN evenRain_wf
    (by decide) rfl hg (by norm_num [extentKm, evenRain]) (by norm_num [extentKm, evenRain])
  obtain ⟨_, _, o1, o2⟩ := C67_separate_rounding (E := envFull) (c := c) (.parsed _ _ (Or.inl h1)) (Fl.lit f64 52.51861) (Fl.lit f64 13.40833)
  have hr : evenRain.raw (berlinPixel (225, 225) evenRain.format).1 (berlinPixel (225, 225) evenRain.format).2 = some (some 145) := by
    exact raw_even (n := 810000) (b := 145) rfl rfl (by decide) (by decide)
  obtain ⟨dbz, d1, d2⟩ := h2 (fun _ => 0) _ _ o1 o2 (some 145) hr (raw_byte rfl hr)
  refine ⟨c, dbz, h1, d1, ?_⟩
  have : statedDbz (some 145) = some 40 := by norm_num [statedDbz]
  rw [this] at d2
  exact d2

end Props
