/-
C72: from the bytes of a file to the colours of the picture radolan2png draws.
-/
import Verif.Props.EndToEnd
import Verif.Props.Overlay
import Verif.Props.Hue
import Verif.Props.Accuracy

namespace Props
open Go Radolan Spec Radolan.Vis

/-- a mesh or border point is drawn on the pixel (only with a projection) -/
def Overlaid (E : Env) (I : Impl) (c : Composite) (border : List (F64 × F64)) (x y : Nat) : Prop :=
  c.hasProjection = true ∧ ((∃ mesh, Cli.meshPoints I = some mesh ∧ Hits E I c mesh x y) ∨ Hits E I c border x y)

/-- the colours of reflectivity by the data byte: 250 is missing, below 67 (1 dBZ) black, from 215 (75 dBZ) on light
violet, in between a linear gradient -/
def ByteColor (I : Impl) (b : Nat) (color : RGBA) : Prop :=
  (b = 250 → color = ⟨I.u8 .nan, I.u8 .nan, I.u8 .nan, 255⟩) ∧
  (b < 67 → color = ⟨0, 0, 0, 255⟩) ∧
  (67 ≤ b → b ≤ 215 → IsHeat color ((b - 67) / 148)) ∧
  (215 ≤ b → b ≠ 250 → color = ⟨191, 127, 255, 255⟩)

/-- the colours of precipitation by the amount in tenths of a millimetre, at most `m` millimetres shown: nothing is
black, 0.1 mm is the first visible amount, from `m` on light violet, in between a logarithmic gradient -/
def RainColor (m : ℚ) (raw : Nat) (color : RGBA) : Prop :=
  (raw = 0 → color = ⟨0, 0, 0, 255⟩) ∧
  (1 ≤ raw → Visible color) ∧
  (1 ≤ raw → raw ≤ 10 * m → ∃ v : ℝ, |v - raw / 10| ≤ raw / 10 / 2 ^ 22 ∧ IsHeat color (Real.log (10 * v) / Real.log (10 * m))) ∧
  (10 * m ≤ raw → color = ⟨191, 127, 255, 255⟩)

theorem mm_not_dBZ : ∀ l ∈ productsIn .mm, l ∉ productsIn .dBZ := by decide

theorem drawn (E : Env) (I : Impl) (border : List (F64 × F64)) (p : Content) (h : p.WF)
    (hu : ∃ u, p.label ∈ productsIn u) (hsize : 4 * (p.cols * p.rows) ≤ 2 ^ 48) :
    ∃ img fn c, Cli.convert E I border p.serialise = .image img ∧ NewComposite E p.serialise = .ret c none ∧
      Cli.colorFunc I E.math c = some fn ∧ c.product = p.label ∧
      c.interval = p.interval * 60000000000 * (if p.label ∈ [str "W1", str "W2", str "W3", str "W4"] then 10 else 1) ∧
      img.w = p.cols ∧ img.h = p.rows ∧
      ∀ x y : Nat, x < p.cols → y < p.rows → ∃ v,
        p.pixel (decide (p.label ∈ productsIn .dBZ)) x y = some v ∧
        (Overlaid E I c border x y → img.at x y = some ⟨0x33, 0xFF, 0x22, 0xFF⟩ ∨ img.at x y = some ⟨0xFF, 0xFF, 0x00, 0xFF⟩) ∧
        (¬ Overlaid E I c border x y → img.at x y = some (pixelColor fn v)) := by
  obtain ⟨c, _, h1, _, _, h2, _, _, h3, h4, _, _, _, h5, h6⟩ := C47_round_trip E p h
  have hok := h6.mpr hu
  obtain ⟨img, fn, mesh, g1, g2, g3, g4, g5, g6⟩ := (C50_drawing E I border p.serialise).2 c hok (by
    rw [h3, h4]; exact_mod_cast hsize)
  refine ⟨img, fn, c, g1, hok, g2, h1, h2, by rw [h3] at g4; exact_mod_cast g4, by rw [h4] at g5; exact_mod_cast g5, ?_⟩
  intro x y hx hy
  obtain ⟨v, a1, a2⟩ := h5 x y hx hy
  obtain ⟨w, b1, b2, b3⟩ := g6 x y (by rw [h3]; exact_mod_cast hx) (by rw [h4]; exact_mod_cast hy)
  rw [a2] at b1
  simp only [Option.some.injEq] at b1
  subst b1
  refine ⟨v, a1, ?_, ?_⟩
  · rintro ⟨hp, ho⟩
    obtain ⟨c1, c2, c3⟩ := b3 hp
    by_cases hm : Hits E I c mesh x y
    · exact Or.inl (c1 hm)
    · rcases ho with ⟨mesh', hm', hh⟩ | hh
      · rw [g3] at hm'
        simp only [Option.some.injEq] at hm'
        exact absurd (hm' ▸ hh) hm
      · exact Or.inr (c2 hm hh)
  · intro ho
    cases hp : c.hasProjection
    · exact b2 hp
    · obtain ⟨c1, c2, c3⟩ := b3 hp
      exact c3 (fun hm => ho ⟨hp, Or.inl ⟨mesh, g3, hm⟩⟩) (fun hm => ho ⟨hp, Or.inr hm⟩)

/-- C72 (a). The picture radolan2png draws of a reflectivity composite with one byte per pixel: it has one pixel per data
byte, the last row of the file on top, and - except where the mesh or the borders are drawn - the colour is the one of
the byte. -/
theorem C72_reflectivity (E : Env) (I : Impl) (border : List (F64 × F64)) (p : Content) (h : p.WF)
    (hu : p.label ∈ productsIn .dBZ) (hw : p.wide = false) (hp : p.precision = 0)
    (hsize : 4 * (p.cols * p.rows) ≤ 2 ^ 48) :
    ∃ img c, Cli.convert E I border p.serialise = .image img ∧ NewComposite E p.serialise = .ret c none ∧
      img.w = p.cols ∧ img.h = p.rows ∧
      ∀ x y : Nat, x < p.cols → y < p.rows → ∃ b color, p.data[(p.rows - 1 - y) * p.cols + x]? = some b ∧
        img.at x y = some color ∧
        (Overlaid E I c border x y → color = ⟨0x33, 0xFF, 0x22, 0xFF⟩ ∨ color = ⟨0xFF, 0xFF, 0x00, 0xFF⟩) ∧
        (¬ Overlaid E I c border x y → ByteColor I b.toNat color) := by
  obtain ⟨img, fn, c, g1, g2, g3, g4, _, g5, g6, g7⟩ := drawn E I border p h ⟨_, hu⟩ hsize
  refine ⟨img, c, g1, g2, g5, g6, ?_⟩
  intro x y hx hy
  obtain ⟨v, a1, a2, a3⟩ := g7 x y hx hy
  unfold Content.pixel at a1
  simp only [hw, hp, hu, decide_true, Bool.false_eq_true, if_false, Option.map_eq_some_iff] at a1
  obtain ⟨b, hb, hv⟩ := a1
  by_cases ho : Overlaid E I c border x y
  · rcases a2 ho with hc | hc
    · exact ⟨b, _, hb, hc, fun _ => Or.inl rfl, fun hn => absurd ho hn⟩
    · exact ⟨b, _, hb, hc, fun _ => Or.inr rfl, fun hn => absurd ho hn⟩
  · refine ⟨b, _, hb, a3 ho, fun hn => absurd hn ho, fun _ => ?_⟩
    rw [← g4] at hu
    obtain ⟨f1, e1, c1⟩ := C64_reflectivity g2 hu E.math
    obtain ⟨f2, e2, c2⟩ := C65_reflectivity g2 hu E.math I
    have q1 := e1 I
    rw [g3] at q1 e2
    simp only [Option.some.injEq] at q1 e2
    subst q1
    subst e2
    obtain ⟨k1, k2, k3, k4⟩ := c1 I v
    unfold byteValue at hv
    have hlt := b.toNat_lt
    by_cases h250 : b.toNat = 250
    · rw [if_pos h250] at hv
      exact ⟨fun _ => k4 hv.symm, fun hx => absurd hx (by omega), fun _ hx => absurd hx (by omega), fun _ hx => absurd h250 hx⟩
    · rw [if_neg h250] at hv
      subst hv
      obtain ⟨d1, d2⟩ := C09_dbz_exact (v := (b.toNat : Int)) (by rw [abs_of_nonneg (by omega)]; omega)
      have lo : ∀ n : Nat, b.toNat < n → (b.toNat : ℚ) ≤ n - 1 := by
        intro n hn
        have : (b.toNat : ℚ) + 1 ≤ n := by exact_mod_cast hn
        linarith
      refine ⟨fun hx => absurd hx h250, fun hx => k1 (Or.inr ⟨d1, ?_⟩), fun hx hy => ?_, fun hx _ => k3 (Or.inr ⟨d1, ?_⟩)⟩
      · rw [d2]
        have := lo 67 hx
        push_cast at this ⊢
        linarith
      · have r1 : (67 : ℚ) ≤ b.toNat := by exact_mod_cast hx
        have r2 : (b.toNat : ℚ) ≤ 215 := by exact_mod_cast hy
        have := c2 _ d1 (by rw [d2]; push_cast; linarith) (by rw [d2]; push_cast; linarith)
        rw [d2] at this
        have e : (((((b.toNat : Int) : ℚ) / 2 - 65 / 2 : ℚ) : ℝ) - 1) / 74 = ((b.toNat : ℝ) - 67) / 148 := by
          push_cast; ring
        rw [e] at this
        exact this
      · rw [d2]
        have r1 : (215 : ℚ) ≤ b.toNat := by exact_mod_cast hx
        push_cast
        linarith

/-- C72 (b). The picture of a precipitation composite with two bytes per pixel in tenths of a millimetre. -/
theorem C72_rain {E : Env} (hL : AccurateLog E.math) (I : Impl) (border : List (F64 × F64)) (p : Content) (h : p.WF)
    (hu : p.label ∈ productsIn .mm) (hw : p.wide = true) (hp : p.precision = -1)
    (hsize : 4 * (p.cols * p.rows) ≤ 2 ^ 48) :
    ∃ img c, Cli.convert E I border p.serialise = .image img ∧ NewComposite E p.serialise = .ret c none ∧
      img.w = p.cols ∧ img.h = p.rows ∧
      c.interval = p.interval * 60000000000 * (if p.label ∈ [str "W1", str "W2", str "W3", str "W4"] then 10 else 1) ∧
      ∀ x y : Nat, x < p.cols → y < p.rows → ∃ lo hi color, p.data[2 * ((p.rows - 1 - y) * p.cols + x)]? = some lo ∧
        p.data[2 * ((p.rows - 1 - y) * p.cols + x) + 1]? = some hi ∧ img.at x y = some color ∧
        (Overlaid E I c border x y → color = ⟨0x33, 0xFF, 0x22, 0xFF⟩ ∨ color = ⟨0xFF, 0xFF, 0x00, 0xFF⟩) ∧
        (¬ Overlaid E I c border x y →
          (hi.toNat / 32 % 2 = 1 → color = ⟨I.u8 .nan, I.u8 .nan, I.u8 .nan, 255⟩) ∧
          (hi.toNat / 32 % 2 = 0 → hi.toNat / 64 % 2 = 0 →
            RainColor (rainMax c.interval) (hi.toNat % 16 * 256 + lo.toNat) color)) := by
  obtain ⟨img, fn, c, g1, g2, g3, g4, g4', g5, g6, g7⟩ := drawn E I border p h ⟨_, hu⟩ hsize
  refine ⟨img, c, g1, g2, g5, g6, g4', ?_⟩
  intro x y hx hy
  obtain ⟨v, a1, a2, a3⟩ := g7 x y hx hy
  have hnd : p.label ∉ productsIn .dBZ := fun hd => absurd hd (mm_not_dBZ _ hu)
  unfold Content.pixel at a1
  simp only [hw, hp, hnd, decide_false, if_true] at a1
  split at a1
  rotate_left
  · simp at a1
  rename_i lo hi hlo hhi
  simp only [Option.some.injEq] at a1
  by_cases ho : Overlaid E I c border x y
  · rcases a2 ho with hc | hc
    · exact ⟨lo, hi, _, hlo, hhi, hc, fun _ => Or.inl rfl, fun hn => absurd ho hn⟩
    · exact ⟨lo, hi, _, hlo, hhi, hc, fun _ => Or.inr rfl, fun hn => absurd ho hn⟩
  · refine ⟨lo, hi, _, hlo, hhi, a3 ho, fun hn => absurd hn ho, fun _ => ?_⟩
    rw [← g4] at hu
    obtain ⟨f1, e1, c1⟩ := C64_rain hL g2 hu
    obtain ⟨f2, e2, c2⟩ := C65_rain hL g2 hu I
    have q1 := e1 I
    rw [g3] at q1 e2
    simp only [Option.some.injEq] at q1 e2
    subst q1
    subst e2
    obtain ⟨k1, k2, k3, k4⟩ := c1 I v
    unfold pairValue at a1
    refine ⟨fun hn => ?_, fun hn hs => ?_⟩
    · rw [if_pos hn] at a1
      exact k4 (Or.inl a1.symm)
    · have hn' : ¬ hi.toNat / 32 % 2 = 1 := by omega
      have hs' : ¬ hi.toNat / 64 % 2 = 1 := by omega
      rw [if_neg hn', if_neg hs'] at a1
      have hlt := lo.toNat_lt
      have hm : hi.toNat % 16 < 16 := Nat.mod_lt _ (by decide)
      have er : ((hi.toNat % 16 * 256 + lo.toNat : Nat) : Int) = ((hi.toNat : Int) % 16 * 256 + (lo.toNat : Int)) := by push_cast; rfl
      rw [← er] at a1
      have hle : hi.toNat % 16 * 256 + lo.toNat ≤ 4095 := by omega
      clear er
      generalize hi.toNat % 16 * 256 + lo.toNat = r at a1 hle ⊢
      subst a1
      obtain ⟨d1, d2⟩ := C09_accuracy (p := -1) (v := (r : Int)) (by decide) (by decide)
        (by rw [abs_of_nonneg (by omega)]; omega)
      have hten : (((r : Int) : ℚ)) * (10 : ℚ) ^ (-1 : Int) = (r : ℚ) / 10 := by push_cast; rw [zpow_neg_one]; ring
      rw [hten] at d2
      have hr0 : (0 : ℚ) ≤ r := Nat.cast_nonneg r
      have hr4 : (r : ℚ) ≤ 4095 := by exact_mod_cast (by omega : r ≤ 4095)
      rw [abs_of_nonneg (by linarith : (0 : ℚ) ≤ (r : ℚ) / 10)] at d2
      obtain ⟨d3, d4⟩ := abs_le.mp d2
      norm_num at d3 d4
      have first : 1 ≤ r → 1 / 10 ≤ (decoded false (-1) (r : Int)).val := by
        intro h1
        have mono := C10_monotone (dBZ := false) (p := -1) (v := 1) (w := (r : Int)) (by decide) (by decide) (by decide)
          (by rw [abs_of_nonneg (by omega)]; omega) (by omega)
        obtain ⟨f1, f2⟩ : (decoded false (-1) 1).isFin = true ∧ 1 / 10 ≤ (decoded false (-1) 1).val := by decide +kernel
        rw [Fl.lt_fin d1 f1, decide_eq_false_iff_not, not_lt] at mono
        linarith
      have last : ∀ n : Nat, n = 1000 ∨ n = 2000 ∨ n = 4000 → (decoded false (-1) (n : Int)).isFin = true ∧
          (decoded false (-1) (n : Int)).val = n / 10 := by
        rintro n (rfl | rfl | rfl) <;> decide +kernel
      obtain ⟨n, hn3, hm⟩ : ∃ n : Nat, (n = 1000 ∨ n = 2000 ∨ n = 4000) ∧ 10 * rainMax c.interval = n := by
        unfold rainMax
        split
        · exact ⟨1000, by simp, by norm_num⟩
        · split
          · exact ⟨4000, by simp, by norm_num⟩
          · exact ⟨2000, by simp, by norm_num⟩
      obtain ⟨l1, l2⟩ := last n hn3
      have hn4 : |(n : Int)| ≤ 4095 := by rcases hn3 with rfl | rfl | rfl <;> decide
      have upto : (r : ℚ) ≤ 10 * rainMax c.interval → (decoded false (-1) (r : Int)).val ≤ rainMax c.interval := by
        intro h1
        rw [hm] at h1
        have h2 : r ≤ n := by exact_mod_cast h1
        have mono := C10_monotone (dBZ := false) (p := -1) (v := (r : Int)) (w := (n : Int)) (by decide) (by decide)
          (by rw [abs_of_nonneg (by omega)]; omega) hn4 (by omega)
        rw [Fl.lt_fin l1 d1, decide_eq_false_iff_not, not_lt, l2] at mono
        linarith
      have from_ : 10 * rainMax c.interval ≤ (r : ℚ) → rainMax c.interval ≤ (decoded false (-1) (r : Int)).val := by
        intro h1
        rw [hm] at h1
        have h2 : n ≤ r := by exact_mod_cast h1
        have mono := C10_monotone (dBZ := false) (p := -1) (v := (n : Int)) (w := (r : Int)) (by decide) (by decide)
          hn4 (by rw [abs_of_nonneg (by omega)]; omega) (by omega)
        rw [Fl.lt_fin d1 l1, decide_eq_false_iff_not, not_lt, l2] at mono
        linarith
      refine ⟨fun h0 => k1 (Or.inr ⟨d1, ?_⟩) (Or.inr ⟨d1, ?_⟩), fun h1 => (k2 (Or.inr ⟨d1, first h1⟩)).1,
        fun h1 h2 => ⟨((decoded false (-1) (r : Int)).val : ℝ), ?_, ?_⟩, fun h1 => k3 (Or.inr ⟨d1, ?_⟩)⟩
      · subst h0; norm_num at d3; exact d3
      · subst h0; norm_num at d4; linarith
      · have := (Rat.cast_le (K := ℝ)).mpr d2
        push_cast at this
        exact this
      · have := c2 _ d1 (first h1) (upto h2)
        have e : ∀ t : ℝ, t / (1 / 10) = 10 * t := by intro t; ring
        rw [e, e] at this
        exact this
      · exact from_ h1

/-- the sample of C47 is such a file: 0.9 mm in its upper left corner -/
example (I : Impl) (border : List (F64 × F64)) :
    ∃ img, Cli.convert { env0 with math := logMath } I border sampleContent.serialise = .image img ∧ img.w = 3 ∧ img.h = 2 := by
  obtain ⟨img, _, h, _, h1, h2, _⟩ := C72_rain (E := { env0 with math := logMath }) logMath_accurate I border sampleContent sampleContent_wf
    (by decide) rfl rfl (by decide)
  exact ⟨img, h, h1, h2⟩

end Props
