/-
C98: the picture of a file, by the exact values the file states, does not depend on how floating point operations are fused.
-/
import Verif.Spec.FusedFile
import Verif.Props.FusedExtremes
import Verif.Props.FusedPicture
import Verif.Props.AnyPrecision
import Verif.Props.Rainfall

namespace Props
open Go Radolan Radolan.Vis Radolan.Fusion Spec Spec.Fusion

/-- the picture has the size of the grid; every pixel shows the mesh colour where a place of the mesh lies inside it, the
border colour where no place of the mesh touches it and a point of the border lies inside, and otherwise, if neither touches
it, a colour that `Color` allows for the exact value the file states -/
def FusedColored (p : Content) (c : Composite) (img : Img) (Color : Option ℚ → RGBA → Prop) : Prop :=
  img.w = p.cols ∧ img.h = p.rows ∧
  ∀ x y : Nat, x < p.cols → y < p.rows → ∃ raw color, p.raw x y = some raw ∧ Color (raw.map p.stated) color ∧
    (img.at x y = some ⟨0x33, 0xFF, 0x22, 0xFF⟩ ∨ img.at x y = some ⟨0xFF, 0xFF, 0x00, 0xFF⟩ ∨ img.at x y = some color) ∧
    (c.hasProjection = false → img.at x y = some color) ∧
    (c.hasProjection = true →
      ((∃ n e, OnMesh n e ∧ Inside c n e x y) → img.at x y = some ⟨0x33, 0xFF, 0x22, 0xFF⟩) ∧
      ((∀ n e, OnMesh n e → Outside c n e x y) → (∃ n e, OnBorder n e ∧ Inside c n e x y) →
        img.at x y = some ⟨0xFF, 0xFF, 0x00, 0xFF⟩) ∧
      ((∀ n e, OnMesh n e → Outside c n e x y) → (∀ n e, OnBorder n e → Outside c n e x y) → img.at x y = some color))

theorem decoded_permitted (d : Bool) (precision v : Int) : PermittedPixel d precision v (decoded d precision v) := by
  have raw : ∀ v : Int, permittedRaw precision v (.word (scaled precision v)) := fun v =>
    ⟨_, _, rfl, rfl, .inl ⟨_, _, rfl, rfl, rfl⟩⟩
  cases d with
  | false => exact ⟨.word _, raw v, rfl⟩
  | true => exact ⟨.word _, ⟨_, _, ⟨_, _, raw v, rfl, .inl ⟨_, _, rfl, rfl, rfl⟩⟩, rfl, .inl ⟨_, _, rfl, rfl, rfl⟩⟩, rfl⟩

/-- C98. The picture the model draws of a file, with every operation rounded, is one of the permitted ones. -/
theorem C98_separate_rounding (E : Env) (I : Impl) (border : List (F64 × F64)) (p : Content) (h : p.WF)
    (hu : ∃ u, p.label ∈ productsIn u) (hsize : 4 * (p.cols * p.rows) ≤ 2 ^ 48) :
    ∃ c img, NewComposite E p.serialise = .ret c none ∧ Cli.convert E I border p.serialise = .image img ∧
      PermittedFilePicture E I border p c img := by
  obtain ⟨c, _, h1, _, _, h2, _, _, h3, h4, _, _, hz, h5, h6⟩ := C47_round_trip E p h
  have hok := h6.mpr hu
  obtain ⟨fn, hfn⟩ := Option.isSome_iff_exists.mp (C46_color_map hok I E.math).2.2.2.2
  obtain ⟨img, i1, i2, i3, _, i5, _⟩ := C42_image (Or.inl hok) fn 0 (by rw [h3, h4]; exact_mod_cast hsize)
  obtain ⟨out, o1, o2⟩ := finished_model (.parsed _ _ (Or.inl hok)) I border hok hfn i1
  refine ⟨c, out, hok, o1, img, ⟨image_wf i1, by rw [h3] at i2; exact_mod_cast i2, by rw [h4] at i3; exact_mod_cast i3, ?_⟩, o2⟩
  intro x y hx hy
  obtain ⟨v, a1, a2⟩ := h5 x y hx hy
  obtain ⟨w, b1, b2⟩ := i5 (by omega) (by omega) x y (by rw [h3]; exact_mod_cast hx) (by rw [h4]; exact_mod_cast hy)
  have e : w = v := by
    have : c.At x y = some w := b1
    rw [a2] at this
    exact (Option.some.inj this).symm
  subst e
  refine ⟨w, _, ?_, C82_separate_rounding I E.math hfn _, b2⟩
  rcases pixel_raw a1 with ⟨e1, rfl⟩ | ⟨r, e1, _, rfl⟩
  · exact ⟨none, e1, rfl⟩
  · exact ⟨some r, e1, decoded_permitted _ _ _⟩

/-- colours of single values give pictures of whole files -/
theorem fused_colored {E : Env} (hM : AccurateMath E.math) (I : Impl) (p : Content) (h : p.WF) {u : Spec.Unit}
    (hu : p.label ∈ productsIn u) (hsize : 4 * (p.cols * p.rows) ≤ 2 ^ 48) {c : Composite}
    (hok : NewComposite E p.serialise = .ret c none) (Color : Option ℚ → RGBA → Prop)
    (H : c.product ∈ productsIn u →
      c.interval = p.interval * 60000000000 * (if p.label ∈ [str "W1", str "W2", str "W3", str "W4"] then 10 else 1) →
      (∀ col, permittedColor I E.math c ((.nan : F32).conv f64) col → Color none col) ∧
      ∀ (r : Int) (v : F32) (col : RGBA), |r| ≤ 4095 → PermittedPixel (decide (p.label ∈ productsIn .dBZ)) p.precision r v →
        permittedColor I E.math c (v.conv f64) col → Color (some (r * (10 : ℚ) ^ p.precision)) col)
    {img : Img} (hp : PermittedFilePicture E I Cli.border p c img) : FusedColored p c img Color := by
  obtain ⟨c', hs, h1, _, _, h2, _, _, h3, h4, _, _, _, h5, _⟩ := C47_round_trip E p h
  have e : c' = c := by
    rcases hs with hs | hs
    · rw [hok] at hs; injection hs with a _; exact a.symm
    · rw [hok] at hs; injection hs with a _; exact a.symm
  subst e
  obtain ⟨H1, H2⟩ := H (by rw [h1]; exact hu) h2
  obtain ⟨base, ⟨w1, w2, w3, w4⟩, hf⟩ := hp
  have color : ∀ x y : Nat, x < p.cols → y < p.rows → ∃ raw color, p.raw x y = some raw ∧ Color (raw.map p.stated) color ∧
      base.at x y = some color := by
    intro x y hx hy
    obtain ⟨v, col, ⟨raw, r1, r2⟩, k2, k3⟩ := w4 x y hx hy
    refine ⟨raw, col, r1, ?_, k3⟩
    obtain ⟨w, a1, _⟩ := h5 x y hx hy
    cases raw with
    | none =>
      have : v = .nan := r2
      subst this
      exact H1 col k2
    | some r =>
      have hb : |r| ≤ 4095 := by
        rcases pixel_raw a1 with ⟨e1, _⟩ | ⟨r', e1, e2, _⟩
        · rw [r1] at e1; simp at e1
        · rw [r1] at e1
          simp only [Option.some.injEq] at e1
          rw [e1]; exact e2
      exact H2 r v col hb r2 k2
  have hr : Ready E c' := .parsed _ _ (Or.inl hok)
  cases hproj : c'.hasProjection
  · unfold Finished at hf
    rw [hproj, if_neg (by decide)] at hf
    subst hf
    refine ⟨w2, w3, fun x y hx hy => ?_⟩
    obtain ⟨raw, col, a1, a2, a3⟩ := color x y hx hy
    exact ⟨raw, col, a1, a2, Or.inr (Or.inr a3), fun _ => a3, fun hc => absurd (hproj.symm.trans hc) (by decide)⟩
  · obtain ⟨b, g1, g2, g3⟩ := (C31_has_projection_iff hr).mp hproj
    obtain ⟨k1, k2, k3⟩ := finished_picture hM I hr ⟨g1, g2, g3⟩ (by rw [h3, h4]; exact_mod_cast hsize) w1
      (by rw [h3]; exact_mod_cast w2) (by rw [h4]; exact_mod_cast w3) hf
    refine ⟨by rw [h3] at k1; exact_mod_cast k1, by rw [h4] at k2; exact_mod_cast k2, fun x y hx hy => ?_⟩
    obtain ⟨raw, col, a1, a2, a3⟩ := color x y hx hy
    obtain ⟨m0, m1, m2, m3⟩ := k3 x y (by rw [h3]; exact_mod_cast hx) (by rw [h4]; exact_mod_cast hy)
    rw [a3] at m0 m3
    exact ⟨raw, col, a1, a2, m0, fun hc => absurd (hproj.symm.trans hc) (by decide), fun _ => ⟨m1, m2, m3⟩⟩

/-- C98 (a). Reflectivity: every permitted picture shows exactly what C84 says of the model. -/
theorem C98_reflectivity {E : Env} (hM : AccurateMath E.math) (I : Impl) (p : Content) (h : p.WF)
    (hu : p.label ∈ productsIn .dBZ) (h1 : -37 ≤ p.precision) (h2 : p.precision ≤ 34)
    (hsize : 4 * (p.cols * p.rows) ≤ 2 ^ 48) {c : Composite} (hok : NewComposite E p.serialise = .ret c none) {img : Img}
    (hp : PermittedFilePicture E I Cli.border p c img) :
    FusedColored p c img (DbzOf ⟨I.u8 .nan, I.u8 .nan, I.u8 .nan, 255⟩) := by
  refine fused_colored hM I p h hu hsize hok _ (fun hc _ => ?_) hp
  refine ⟨fun col hcol => (reflectivity_extremes hok hc E.math I _ col hcol).1 rfl, fun r v col hr hv hcol => ?_⟩
  rw [decide_eq_true hu] at hv
  obtain ⟨d1, d2⟩ := C87_pixel_dbz h1 h2 hr hv
  obtain ⟨k1, k2, k3⟩ := C82_reflectivity hok hc E.math I v col hcol
  obtain ⟨-, k4⟩ := reflectivity_extremes hok hc E.math I v col hcol
  -- at the two thresholds
  have edge : ∀ n : Int, n = 67 ∨ n = 215 → (r : ℚ) * (10 : ℚ) ^ p.precision = n → (n : ℚ) / 2 - 65 / 2 ≤ v.val := by
    intro n hn hq
    have hb : 1 / 10 ≤ |(n : ℚ)| ∧ |(n : ℚ)| ≤ 400 := by rcases hn with rfl | rfl <;> decide +kernel
    obtain ⟨p1, p2⟩ := precision_range hr hb.1 hb.2 hq
    have e : (r : ℚ) = (n : ℚ) * (10 : ℚ) ^ (-p.precision) := by
      rw [← hq, mul_assoc, ← zpow_add₀ (by norm_num), add_neg_cancel, zpow_zero, mul_one]
    have cases7 : p.precision = -4 ∨ p.precision = -3 ∨ p.precision = -2 ∨ p.precision = -1 ∨ p.precision = 0 ∨ p.precision = 1 ∨
        p.precision = 2 := by omega
    rcases cases7 with hp | hp | hp | hp | hp | hp | hp <;> rw [hp] at e hv
    · exfalso
      have : r = n * 10000 := by norm_num at e; exact_mod_cast e
      have := (abs_le.mp hr).2
      omega
    · exfalso
      have : r = n * 1000 := by norm_num at e; exact_mod_cast e
      have := (abs_le.mp hr).2
      omega
    · exfalso
      have : r = n * 100 := by norm_num at e; exact_mod_cast e
      have := (abs_le.mp hr).2
      omega
    · have e1 : r = n * 10 := by norm_num at e; exact_mod_cast e
      have := (tenths_fused (by omega) hv).2
      rw [e1] at this
      push_cast at this
      linarith
    · have e1 : r = n := by norm_num at e; exact_mod_cast e
      rw [(C87_pixel_exact hr hv).2, e1]
    · exfalso
      have : r * 10 = n := by
        rw [hp] at hq; norm_num at hq; exact_mod_cast hq
      omega
    · exfalso
      have : r * 100 = n := by
        rw [hp] at hq; norm_num at hq; exact_mod_cast hq
      omega
  have lo : 67 ≤ (r : ℚ) * (10 : ℚ) ^ p.precision → 1 ≤ v.val := by
    intro hq
    rcases hq.lt_or_eq with hq | hq
    · have := x_gt (n := 67) d2 hr (Or.inl rfl) (by push_cast; exact hq)
      norm_num at this; exact this.le
    · have := edge 67 (Or.inl rfl) (by push_cast; exact hq.symm)
      norm_num at this; exact this
  have hi : 215 ≤ (r : ℚ) * (10 : ℚ) ^ p.precision → 75 ≤ v.val := by
    intro hq
    rcases hq.lt_or_eq with hq | hq
    · have := x_gt (n := 215) d2 hr (Or.inr rfl) (by push_cast; exact hq)
      norm_num at this; exact this.le
    · have := edge 215 (Or.inr rfl) (by push_cast; exact hq.symm)
      norm_num at this; exact this
  refine ⟨fun hq => k1 (Or.inr ⟨d1, ?_⟩), fun ha hb => ?_, fun hq => k4 d1 (hi (by linarith))⟩
  · have := x_lt (n := 67) d2 hr (Or.inl rfl) (by push_cast; linarith)
    norm_num at this; exact this
  · have hl := lo (by linarith)
    rcases (show (r : ℚ) * (10 : ℚ) ^ p.precision ≤ 215 by linarith).lt_or_eq with hq | hq
    · have hh := x_lt (n := 215) d2 hr (Or.inr rfl) (by push_cast; exact hq)
      norm_num at hh
      refine ⟨_, ?_, k2 d1 hl hh.le⟩
      have hX : |(r : ℚ) * (10 : ℚ) ^ p.precision| ≤ 215 := by rw [abs_le]; constructor <;> linarith
      have d3 : |v.val - (r * (10 : ℚ) ^ p.precision / 2 - 65 / 2)| ≤ 300 / 2 ^ 22 := by linarith
      have := (Rat.cast_le (K := ℝ)).mpr d3
      rw [Rat.cast_abs, Rat.cast_sub] at this
      push_cast at this ⊢
      exact this
    · refine ⟨75, ?_, ?_⟩
      · rw [hq]; norm_num
      · have := k3 d1 (hi hq.ge)
        norm_num; exact this

/-- C98 (b). Echo tops. -/
theorem C98_echo_tops {E : Env} (hM : AccurateMath E.math) (I : Impl) (p : Content) (h : p.WF)
    (hu : p.label ∈ productsIn .km) (h1 : -37 ≤ p.precision) (h2 : p.precision ≤ 34)
    (hsize : 4 * (p.cols * p.rows) ≤ 2 ^ 48) {c : Composite} (hok : NewComposite E p.serialise = .ret c none) {img : Img}
    (hp : PermittedFilePicture E I Cli.border p c img) :
    FusedColored p c img (KmOf ⟨I.u8 .nan, I.u8 .nan, I.u8 .nan, 255⟩) := by
  refine fused_colored hM I p h hu hsize hok _ (fun hc _ => ?_) hp
  refine ⟨fun col hcol => (echo_top_extremes hok hc E.math I _ col hcol).1 rfl, fun r v col hr hv hcol => ?_⟩
  rw [decide_eq_false (other_not_dBZ.1 _ hu)] at hv
  obtain ⟨d1, d2⟩ := C87_pixel h1 h2 hr hv
  obtain ⟨k1, k2⟩ := C82_echo_tops hok hc E.math I v col hcol
  obtain ⟨-, k3⟩ := echo_top_extremes hok hc E.math I v col hcol
  refine ⟨fun hq => ?_, fun ha hb => ?_, fun hq => k3 d1 ?_⟩
  · have := d_le (n := 0) h1 h2 hr (by simp) (by push_cast; linarith)
    norm_num at this
    rw [← d2] at this
    rcases this.lt_or_eq with hlt | heq
    · exact k1 (Or.inr ⟨d1, hlt⟩)
    · obtain ⟨l, rfl, b1, -⟩ := k2 d1 heq.ge
      rw [heq] at b1
      have hl : l = 0 := by
        norm_num at b1
        have : (l.toNat : ℝ) < 1 := by linarith
        have : l.toNat < 1 := by exact_mod_cast this
        exact UInt8.toNat_inj.mp (by simpa using this)
      rw [hl]
  · have a1 := d_ge (n := 0) h1 h2 hr (by simp) (by push_cast; linarith)
    have a2 := d_le (n := 150) h1 h2 hr (by simp) (by push_cast; linarith)
    norm_num at a1 a2
    rw [← d2] at a1 a2
    obtain ⟨l, b1, b2⟩ := k2 d1 a1
    have a2r : (v.val : ℝ) ≤ 15 := by exact_mod_cast a2
    rw [min_eq_right (by rw [div_le_one (by norm_num)]; linarith)] at b2
    have hcl := d_close h1 h2 hr
    rw [← d2] at hcl
    exact ⟨_, l, hcl, b1, b2⟩
  · have := d_ge (n := 150) h1 h2 hr (by simp) (by push_cast; linarith)
    norm_num at this; rw [d2]; exact this

/-- C98 (c). Velocities. -/
theorem C98_velocity {E : Env} (hM : AccurateMath E.math) (hL : AccurateLog E.math) (I : Impl) (p : Content) (h : p.WF)
    (hu : p.label ∈ productsIn .mps) (h1 : -37 ≤ p.precision) (h2 : p.precision ≤ 34)
    (hsize : 4 * (p.cols * p.rows) ≤ 2 ^ 48) {c : Composite} (hok : NewComposite E p.serialise = .ret c none) {img : Img}
    (hp : PermittedFilePicture E I Cli.border p c img) : FusedColored p c img VelocityOf := by
  refine fused_colored hM I p h hu hsize hok _ (fun hc _ => ?_) hp
  refine ⟨fun col hcol => (C82_velocity hL hok hc I _ col hcol).1 rfl, fun r v col hr hv hcol => ?_⟩
  rw [decide_eq_false (other_not_dBZ.2 _ hu)] at hv
  obtain ⟨d1, d2⟩ := C87_pixel h1 h2 hr hv
  obtain ⟨-, k1, k2, k3, k4⟩ := C82_velocity hL hok hc I v col hcol
  obtain ⟨k5, k6⟩ := velocity_extremes hL hok hc I v col hcol
  have hcl := d_close h1 h2 hr
  rw [← d2] at hcl
  have l0 : (0 : ℝ) < Real.log (63 / 2) := Real.log_pos (by norm_num)
  refine ⟨fun ha hb => k1 d1 ?_ ?_, fun ha hb => k2 d1 ?_ ?_, fun ha hb => ?_, fun ha hb => ?_,
    fun ha => k5 d1 ?_, fun ha => k6 d1 ?_⟩
  · have := d_ge (n := 0) h1 h2 hr (by simp) (by push_cast; linarith); norm_num at this; rw [d2]; exact this
  · have := d_le (n := 10) h1 h2 hr (by simp) (by push_cast; linarith); norm_num at this; rw [d2]; exact this
  · have := d_lt (n := 0) h1 h2 hr (by decide) (by push_cast; linarith); norm_num at this; rw [d2]; exact this
  · have := d_ge (n := -10) h1 h2 hr (by simp) (by push_cast; linarith); norm_num at this; rw [d2]; exact this
  · have a1 := d_gt (n := 10) h1 h2 hr (by decide) (by push_cast; linarith)
    have a2 := d_le (n := 315) h1 h2 hr (by simp) (by push_cast; linarith)
    norm_num at a1 a2
    rw [← d2] at a1 a2
    obtain ⟨l, b1, b2⟩ := k3 d1 a1
    have a1r : (1 : ℝ) < v.val := by exact_mod_cast a1
    have a2r : (v.val : ℝ) ≤ 63 / 2 := by have := (Rat.cast_le (K := ℝ)).mpr a2; push_cast at this; exact this
    rw [min_eq_right (by rw [div_le_one l0]; exact Real.log_le_log (by linarith) a2r)] at b2
    exact ⟨_, l, hcl, b1, b2⟩
  · have a1 := d_lt (n := -10) h1 h2 hr (by decide) (by push_cast; linarith)
    have a2 := d_ge (n := -315) h1 h2 hr (by simp) (by push_cast; linarith)
    norm_num at a1 a2
    rw [← d2] at a1 a2
    obtain ⟨l, b1, b2⟩ := k4 d1 a1
    have a1r : (v.val : ℝ) < -1 := by have := (Rat.cast_lt (K := ℝ)).mpr a1; push_cast at this; exact this
    have a2r : (-(63 / 2) : ℝ) ≤ v.val := by have := (Rat.cast_le (K := ℝ)).mpr a2; push_cast at this; exact this
    rw [min_eq_right (by rw [div_le_one l0]; exact Real.log_le_log (by linarith) (by linarith))] at b2
    exact ⟨_, l, hcl, b1, b2⟩
  · have := d_ge (n := 315) h1 h2 hr (by simp) (by push_cast; linarith); norm_num at this; rw [d2]; linarith
  · have := d_le (n := -315) h1 h2 hr (by simp) (by push_cast; linarith); norm_num at this; rw [d2]; linarith

/-- C98 (d). Precipitation: what C84 says of the model, except that the largest amount of the gradient may be drawn in a
colour up to one level beside the last one. -/
theorem C98_rain {E : Env} (hM : AccurateMath E.math) (hL : AccurateLog E.math) (I : Impl) (p : Content) (h : p.WF)
    (hu : p.label ∈ productsIn .mm) (h1 : -37 ≤ p.precision) (h2 : p.precision ≤ 34)
    (hsize : 4 * (p.cols * p.rows) ≤ 2 ^ 48) {c : Composite} (hok : NewComposite E p.serialise = .ret c none) {img : Img}
    (hp : PermittedFilePicture E I Cli.border p c img) :
    FusedColored p c img (FusedMmOf ⟨I.u8 .nan, I.u8 .nan, I.u8 .nan, 255⟩
      (rainMax (p.interval * 60000000000 * (if p.label ∈ [str "W1", str "W2", str "W3", str "W4"] then 10 else 1)))
      (decide (p.precision ≠ -2 ∧ p.precision ≠ -4))) := by
  refine fused_colored hM I p h hu hsize hok _ (fun hc hint => ?_) hp
  rw [← hint]
  refine ⟨fun col hcol => (rain_extremes hL hok hc I _ col hcol).1 (Or.inl rfl), fun r v col hr hv hcol => ?_⟩
  rw [decide_eq_false (mm_not_dBZ _ hu)] at hv
  obtain ⟨d1, d2⟩ := C87_pixel h1 h2 hr hv
  obtain ⟨k1, k2, k3⟩ := C82_rain hL hok hc I v col hcol
  obtain ⟨k4, k5⟩ := rain_extremes hL hok hc I v col hcol
  have hcl := d_close h1 h2 hr
  rw [← d2] at hcl
  obtain ⟨n, hn, hm⟩ : ∃ n : Int, n ∈ [(-315 : Int), -10, 0, 10, 150, 315, 1000, 2000, 4000] ∧
      rainMax c.interval = n / 10 := by
    unfold rainMax
    split
    · exact ⟨1000, by simp, by norm_num⟩
    · split
      · exact ⟨4000, by simp, by norm_num⟩
      · exact ⟨2000, by simp, by norm_num⟩
  have hQ : 100 ≤ rainMax c.interval := by rcases rainMax_cases c.interval with e | e | e <;> rw [e] <;> norm_num
  have hQr : (100 : ℝ) ≤ (rainMax c.interval : ℚ) := by exact_mod_cast hQ
  have hlog : 0 < Real.log (rainMax c.interval / (1 / 10)) := Real.log_pos (by rw [lt_div_iff₀ (by norm_num)]; linarith)
  have first : 1 / 10 < (r : ℚ) * (10 : ℚ) ^ p.precision ∨ (r : ℚ) * (10 : ℚ) ^ p.precision = 1 / 10 ∧
      decide (p.precision ≠ -2 ∧ p.precision ≠ -4) = true → 1 / 10 ≤ v.val := by
    rw [d2]
    rintro (hq | ⟨hq, hs⟩)
    · have := d_gt (n := 1) h1 h2 hr (by decide) (by push_cast; linarith)
      norm_num at this; norm_num; exact this.le
    · exact (d_tenth hr hq).mpr (of_decide_eq_true hs)
  have seen : 1 / 10 ≤ v.val → Visible col := by
    intro hv1
    have hv1r : (1 / 10 : ℝ) ≤ v.val := by have := (Rat.cast_le (K := ℝ)).mpr hv1; push_cast at this; exact this
    rcases le_total v.val (rainMax c.interval) with hle | hle
    · refine heat_visible ⟨div_nonneg (Real.log_nonneg (by rw [le_div_iff₀ (by norm_num)]; linarith)) hlog.le, ?_⟩ (k2 d1 hv1 hle)
      have hler : (v.val : ℝ) ≤ (rainMax c.interval : ℚ) := by exact_mod_cast hle
      rw [div_le_one hlog]
      exact Real.log_le_log (by apply div_pos <;> linarith) (by linarith)
    · exact heat_visible ⟨by norm_num, le_refl _⟩ (k3 d1 hle)
  have vis : ∀ c : RGBA, Visible c → c ≠ ⟨0, 0, 0, 255⟩ := by
    rintro c hv rfl
    revert hv
    unfold Visible
    decide
  refine ⟨fun hq => k4 (Or.inr ⟨d1, ?_⟩), fun ha hb => k1 d1 ?_ ?_, fun hq => ?_,
    fun hq => ⟨seen (first hq), fun hb => ⟨_, hcl, ?_⟩⟩, fun hq => k5 d1 ?_⟩
  · have := d_lt (n := 0) h1 h2 hr (by decide) (by push_cast; linarith); norm_num at this; rw [d2]; exact this
  · have := d_ge (n := 0) h1 h2 hr (by simp) (by push_cast; linarith); norm_num at this; rw [d2]; exact this
  · have := d_lt (n := 1) h1 h2 hr (by decide) (by push_cast; linarith); norm_num at this; rw [d2]; norm_num; exact this
  · constructor
    · intro hc
      by_contra hs
      exact vis _ (seen (first (Or.inr ⟨hq, by simpa using hs⟩))) hc
    · intro hs
      refine k1 d1 ?_ ?_
      · have := d_ge (n := 0) h1 h2 hr (by simp) (by push_cast; linarith); norm_num at this; rw [d2]; exact this
      · rw [d2]
        by_contra hc
        exact of_decide_eq_false hs ((d_tenth hr hq).mp (not_lt.mp hc))
  · have a2 := d_le h1 h2 hr hn (by rw [← hm]; exact hb)
    rw [← hm, ← d2] at a2
    have := k2 d1 (first hq) a2
    have e : ∀ t : ℝ, t / (1 / 10) = 10 * t := by intro t; ring
    rw [e, e] at this
    exact this
  · have := d_gt h1 h2 hr (near_list hn) (by rw [← hm]; exact hq)
    rw [hm, d2]; exact this

/-! ### examples -/

/-- a math library that is accurate in every respect demanded here -/
noncomputable def allMath : MathLib := { fullMath with log := logMath.log }

theorem allMath_accurate : AccurateMath allMath where
  sin := fullMath_accurate.sin
  cos := fullMath_accurate.cos
  tan := fullMath_accurate.tan
  pow := fullMath_accurate.pow

theorem allMath_log : AccurateLog allMath where
  log := logMath_accurate.log
  zero := logMath_accurate.zero
  neg := logMath_accurate.neg
  inf := logMath_accurate.inf
  nan := logMath_accurate.nan

noncomputable def envAll : Env := { env0 with math := allMath }

theorem hundredths_plain {c : Composite} (h : NewComposite envAll hundredths.serialise = .ret c none) : c.hasProjection = false := by
  obtain ⟨c', hs, _, _, _, _, _, _, h3, h4, _⟩ := C47_round_trip envAll hundredths hundredths_wf
  have e : c' = c := by
    rcases hs with hs | hs
    · rw [h] at hs; injection hs with a _; exact a.symm
    · rw [h] at hs; injection hs with a _; exact a.symm
  subst e
  by_contra hn
  obtain ⟨b, hb, ⟨k, k1, k2⟩, _⟩ := (C31_has_projection_iff (.parsed _ _ (Or.inl h))).mp (by simpa using hn)
  rw [h3, show ((hundredths.cols : Nat) : Int) = 3 by decide] at k1
  have hB : 115 ≤ b.1 := by
    have : ∀ b ∈ baseGrids, 115 ≤ b.1 := by decide
    exact this b hb
  have hk : (1 : Int) ≤ 2 ^ k := one_le_pow₀ (by norm_num)
  nlinarith

/-- 0.10 mm in hundredths of a millimetre is drawn black and 0.11 mm is visible, whatever is fused -/
example (I : Impl) : ∃ c, NewComposite envAll hundredths.serialise = .ret c none ∧
    (∃ img, PermittedFilePicture envAll I Cli.border hundredths c img) ∧
    ∀ img, PermittedFilePicture envAll I Cli.border hundredths c img →
      img.at 0 0 = some ⟨0, 0, 0, 255⟩ ∧ ∃ color, img.at 1 0 = some color ∧ Visible color := by
  obtain ⟨c, img, h1, _, h3⟩ := C98_separate_rounding envAll I Cli.border hundredths hundredths_wf ⟨.mm, by decide⟩ (by decide)
  refine ⟨c, h1, ⟨img, h3⟩, fun img hp => ?_⟩
  obtain ⟨_, _, h⟩ := C98_rain (E := envAll) allMath_accurate allMath_log I hundredths hundredths_wf (by decide) (by decide) (by decide)
    (by decide) h1 hp
  have plain := hundredths_plain h1
  constructor
  · obtain ⟨raw, color, e1, e2, _, e3, _⟩ := h 0 0 (by decide) (by decide)
    have hr : hundredths.raw 0 0 = some (some 10) := by decide
    rw [hr] at e1
    simp only [Option.some.injEq] at e1
    subst e1
    have hq : hundredths.stated 10 = 1 / 10 := by
      unfold Content.stated; norm_num [hundredths]
    rw [Option.map_some, hq] at e2
    rw [e3 plain, (e2.2.2.1 rfl).mpr (by decide)]
  · obtain ⟨raw, color, e1, e2, _, e3, _⟩ := h 1 0 (by decide) (by decide)
    have hr : hundredths.raw 1 0 = some (some 11) := by decide
    rw [hr] at e1
    simp only [Option.some.injEq] at e1
    subst e1
    have hq : hundredths.stated 11 = 11 / 100 := by
      unfold Content.stated; norm_num [hundredths]
    rw [Option.map_some, hq] at e2
    exact ⟨color, e3 plain, (e2.2.2.2.1 (Or.inl (by norm_num))).1⟩

/-- the hypotheses of the other units are met, on the national grid: 40 dBZ all over -/
example (I : Impl) : ∃ c, NewComposite envAll evenRain.serialise = .ret c none ∧
    (∃ img, PermittedFilePicture envAll I Cli.border evenRain c img) ∧
    ∀ img, PermittedFilePicture envAll I Cli.border evenRain c img →
      FusedColored evenRain c img (DbzOf ⟨I.u8 .nan, I.u8 .nan, I.u8 .nan, 255⟩) := by
  obtain ⟨c, img, h1, _, h3⟩ := C98_separate_rounding envAll I Cli.border evenRain evenRain_wf ⟨.dBZ, by decide⟩ (by decide)
  exact ⟨c, h1, ⟨img, h3⟩, fun img hp => C98_reflectivity allMath_accurate I evenRain evenRain_wf (by decide) (by decide) (by decide)
    (by decide) h1 hp⟩

end Props
