/-
C65: heat map colours as points in the HSL colour space.
-/
import Verif.Props.Palette
import Verif.Lemmas.Hue

namespace Props
open Go Radolan Spec Radolan.Vis

/-- the position of a value in a gradient, known up to 10^-12 -/
theorem heat_at {comp : F64 → F64} {min max v : F64} (hb : Bounds comp min max) (I : Impl)
    (hv : Fl.le (comp min) (comp v) = true) {r : ℝ} (hr : 0 ≤ r ∧ r ≤ 1)
    (h : Fl.Ap (Fl.div (Fl.sub (comp v) (comp min)) (Fl.sub (comp max) (comp min))) r (1 / 10 ^ 12)) :
    IsHeat (Heatmap I min max comp v) r := by
  obtain ⟨p1, p2, p3, _⟩ := Fl.pos_spec hb.lo hb.hi hb.lt hb.width hv
  rw [heatmap_above (not_lt_of_le hv)]
  refine heatColor_near ⟨p1, p2, p3⟩ hr ?_ I
  unfold Fl.clip
  obtain ⟨o1, o2⟩ := Fl.one_fin
  split
  · rename_i hl
    rw [Fl.lt_fin o1 h.1, decide_eq_true_iff, o2] at hl
    have h' : (1 : ℝ) < (Fl.div (Fl.sub (comp v) (comp min)) (Fl.sub (comp max) (comp min))).val := by exact_mod_cast hl
    obtain ⟨b1, b2⟩ := abs_le.mp h.2
    rw [o2, abs_le]; push_cast
    constructor <;> linarith [(by norm_num : (0 : ℝ) < 1 / 10 ^ 12)]
  · exact h.2

/-- a linear gradient -/
theorem heat_linear {a b : ℚ} (ha : IsRep f64 a) (hb : IsRep f64 b) (hab : 1 ≤ b - a) (hbig : b - a ≤ 1000)
    (hw : (Fl.sub (Fl.lit f64 b) (Fl.lit f64 a)).isFin = true ∧ (Fl.sub (Fl.lit f64 b) (Fl.lit f64 a)).val = b - a)
    (I : Impl) {v : F64} (hv : v.isFin = true) (h1 : a ≤ v.val) (h2 : v.val ≤ b) :
    IsHeat (Heatmap I (Fl.lit f64 a) (Fl.lit f64 b) Id v) (((v.val : ℝ) - a) / (b - a)) := by
  have a1 := Fl.lit_isFin ha
  have a2 := Fl.lit_val ha
  have hbd : Bounds Id (Fl.lit f64 a) (Fl.lit f64 b) := id_bounds ha hb (by linarith) hw.1
  have h1r : (a : ℝ) ≤ v.val := by exact_mod_cast h1
  have h2r : (v.val : ℝ) ≤ b := by exact_mod_cast h2
  have habr : (1 : ℝ) ≤ (b : ℝ) - a := by exact_mod_cast hab
  have hbigr : (b : ℝ) - a ≤ 1000 := by exact_mod_cast hbig
  have hr0 : 0 ≤ ((v.val : ℝ) - a) / (b - a) := by apply div_nonneg <;> linarith
  have hr1 : ((v.val : ℝ) - a) / (b - a) ≤ 1 := by rw [div_le_one (by linarith)]; linarith
  refine heat_at hbd I ((Fl.le_fin a1 hv).mpr (by rw [a2]; exact h1)) ⟨hr0, hr1⟩ ?_
  show Fl.Ap (Fl.div (Fl.sub v (Fl.lit f64 a)) (Fl.sub (Fl.lit f64 b) (Fl.lit f64 a))) _ _
  have s1 : Fl.Ap (Fl.lit f64 a) a 0 := ⟨a1, by rw [a2]; norm_num⟩
  have s2 := Fl.sub_ap (M := 1000) (t := 2 / 10 ^ 13) (Fl.Ap.exact hv) s1 (by rw [abs_of_nonneg (by linarith)]; linarith)
    (by norm_num) (by norm_num) (by norm_num)
  have s3 : Fl.Ap (Fl.sub (Fl.lit f64 b) (Fl.lit f64 a)) ((b : ℝ) - a) 0 := ⟨hw.1, by rw [hw.2]; norm_num⟩
  exact Fl.div_ap (m := 1) (q := 1) (e := 2 / 10 ^ 13) s2 s3 (by norm_num) (by rw [abs_of_pos (by linarith)]; linarith)
    (by rw [abs_of_nonneg (by linarith), abs_of_pos (by linarith)]; linarith) (by norm_num) (by norm_num) (by norm_num)
    (by norm_num)

/-- C65. Reflectivity images: a value from 1 to 75 dBZ is drawn in the colour at the position (v - 1) / 74 of the
gradient through the HSL colour space described in Spec/Hue. -/
theorem C65_reflectivity {E : Env} {input : Bytes} {c : Composite} (h : NewComposite E input = .ret c none)
    (hc : c.product ∈ productsIn .dBZ) (L : MathLib) (I : Impl) :
    ∃ f : ColorFunc, Cli.colorFunc I L c = some f ∧ ∀ v : F32, v.isFin = true → 1 ≤ v.val → v.val ≤ 75 →
      IsHeat (pixelColor f v) ((v.val - 1) / 74) := by
  refine ⟨Heatmap I (Fl.lit f64 1) (Fl.lit f64 75) Id, (C46_color_map h I L).2.1 hc, fun v hv h1 h2 => ?_⟩
  obtain ⟨e1, e2⟩ := conv_exact hv
  have := heat_linear (a := 1) (b := 75) (by decide +kernel) (by decide +kernel) (by norm_num) (by norm_num)
    (by norm_num; decide +kernel) I e1 (by rw [e2]; exact h1) (by rw [e2]; exact h2)
  rw [e2] at this
  norm_num at this
  exact this

theorem exp_six : Real.exp 6 ≤ 1000 := by
  have h := Real.exp_one_lt_d9
  have : Real.exp 6 = Real.exp 1 ^ 6 := by rw [← Real.exp_nat_mul]; norm_num
  rw [this]
  exact (pow_le_pow_left₀ (Real.exp_pos 1).le h.le 6).trans (by norm_num)

theorem tenth_le : 1 / 10 ≤ (Fl.lit f64 (1 / 10)).val * (1 + 1 / 10 ^ 9) := by decide +kernel

/-- the logarithms of a logarithmic gradient from 0.1 -/
theorem log_facts {L : MathLib} (hL : AccurateLog L) {Q : ℚ} (hq : Q = 100 ∨ Q = 200 ∨ Q = 400) {v : F64}
    (hv : v.isFin = true) (h1 : (Fl.lit f64 (1 / 10)).val * (1 + 1 / 10 ^ 9) ≤ v.val) :
    Fl.Ap (L.log v) (Real.log v.val) (1 / 10 ^ 12) ∧ Fl.Ap (L.log (Fl.lit f64 Q)) (Real.log Q) (1 / 10 ^ 12) ∧
    Fl.Ap (L.log (Fl.lit f64 (1 / 10))) (Real.log (1 / 10)) (11 / 10 ^ 13) ∧ (1 / 10 : ℝ) ≤ v.val ∧ (100 : ℝ) ≤ Q ∧
    Real.log (1 / 10) ≤ Real.log v.val ∧ (v.val ≤ Q → Real.log v.val ≤ Real.log Q) ∧ 6 ≤ Real.log Q - Real.log (1 / 10) ∧
    Real.log Q - Real.log (1 / 10) ≤ 4000 := by
  obtain ⟨t1, t2, t3, t4⟩ := tenth_facts
  obtain ⟨m1, m2⟩ := lit_max hq
  have hQ : 100 ≤ Q ∧ Q ≤ 400 := by rcases hq with e | e | e <;> rw [e] <;> norm_num
  have hQr : (100 : ℝ) ≤ Q ∧ (Q : ℝ) ≤ 400 := ⟨by exact_mod_cast hQ.1, by exact_mod_cast hQ.2⟩
  have h1r : (1 / 10 : ℝ) ≤ v.val := by
    have := (Rat.cast_le (K := ℝ)).mpr (tenth_le.trans h1); push_cast at this; exact this
  -- logarithms
  have u1 := hL.log _ hv (by linarith)
  have u2 := hL.log _ m1 (by rw [m2]; linarith)
  rw [m2] at u2
  have u3 := hL.log _ t1 (by exact_mod_cast t2)
  have hten : |((Fl.lit f64 (1 / 10)).val : ℝ) - 1 / 10| ≤ 1 / 10 ^ 17 := by
    have : |(Fl.lit f64 (1 / 10)).val - 1 / 10| ≤ 1 / 10 ^ 17 := by decide +kernel
    have := (Rat.cast_le (K := ℝ)).mpr this
    push_cast at this; exact this
  have u3' : Fl.Ap (L.log (Fl.lit f64 (1 / 10))) (Real.log (1 / 10)) (11 / 10 ^ 13) := by
    refine ⟨u3.1, ?_⟩
    have hT := abs_le.mp hten
    generalize ((Fl.lit f64 (1 / 10)).val : ℝ) = T at *
    have hT0 : (1 / 20 : ℝ) ≤ T := by norm_num at hT ⊢; linarith [hT.1]
    have g1 : Real.log (T / (1 / 10)) ≤ T / (1 / 10) - 1 := Real.log_le_sub_one_of_pos (by positivity)
    have g2 : 1 - (T / (1 / 10))⁻¹ ≤ Real.log (T / (1 / 10)) := Real.one_sub_inv_le_log_of_pos (by positivity)
    rw [Real.log_div (by linarith) (by norm_num)] at g1 g2
    have g3 : (T / (1 / 10))⁻¹ ≤ 1 + 1 / 10 ^ 14 := by
      rw [inv_le_comm₀ (by positivity) (by norm_num), le_div_iff₀ (by norm_num)]
      norm_num at hT ⊢; linarith [hT.1]
    have g4 : T / (1 / 10) - 1 ≤ 1 / 10 ^ 14 := by
      rw [sub_le_iff_le_add, div_le_iff₀ (by norm_num)]; norm_num at hT ⊢; linarith [hT.2]
    have g5 := abs_le.mp u3.2
    rw [abs_le]
    norm_num at g3 g4 g5 ⊢
    norm_num at g1 g2
    constructor <;> linarith [g5.1, g5.2]
  have l0 : Real.log (1 / 10) ≤ Real.log v.val := Real.log_le_log (by norm_num) h1r
  have l1 : v.val ≤ Q → Real.log v.val ≤ Real.log Q := fun h2 => Real.log_le_log (by linarith) (by exact_mod_cast h2)
  have l6 : 6 ≤ Real.log Q - Real.log (1 / 10) := by
    rw [← Real.log_div (by linarith) (by norm_num), Real.le_log_iff_exp_le (by apply div_pos <;> linarith)]
    refine exp_six.trans ?_
    rw [le_div_iff₀ (by norm_num)]; linarith
  have l400 : Real.log Q - Real.log (1 / 10) ≤ 4000 := by
    rw [← Real.log_div (by linarith) (by norm_num)]
    have := Real.log_le_sub_one_of_pos (x := (Q : ℝ) / (1 / 10)) (by apply div_pos <;> linarith)
    have : (Q : ℝ) / (1 / 10) ≤ 4000 := by rw [div_le_iff₀ (by norm_num)]; linarith
    linarith
  exact ⟨u1, u2, u3', h1r, hQr.1, l0, l1, l6, l400⟩

/-- a logarithmic gradient from 0.1 -/
theorem heat_log {L : MathLib} (hL : AccurateLog L) {Q : ℚ} (hq : Q = 100 ∨ Q = 200 ∨ Q = 400) (I : Impl) {v : F64}
    (hv : v.isFin = true) (h1 : (Fl.lit f64 (1 / 10)).val * (1 + 1 / 10 ^ 9) ≤ v.val) (h2 : v.val ≤ Q) :
    IsHeat (Heatmap I (Fl.lit f64 (1 / 10)) (Fl.lit f64 Q) L.log v)
      (Real.log (v.val / (1 / 10)) / Real.log (Q / (1 / 10))) := by
  obtain ⟨t1, t2, t3, t4⟩ := tenth_facts
  have hb := rain_bounds hL hq
  obtain ⟨u1, u2, u3', h1r, hQ1, l0, l1, l6, l400⟩ := log_facts hL hq hv h1
  replace l1 := l1 h2
  rw [Real.log_div (x := (v.val : ℝ)) (y := 1 / 10) (by linarith) (by norm_num),
    Real.log_div (x := (Q : ℝ)) (y := 1 / 10) (by linarith) (by norm_num)]
  have s1 := Fl.sub_ap (M := 4001) (t := 27 / 10 ^ 13) u1 u3' (by rw [abs_of_nonneg (by linarith)]; norm_num; norm_num at l1 l400; linarith)
    (by norm_num) (by norm_num) (by norm_num)
  have s2 := Fl.sub_ap (M := 4001) (t := 27 / 10 ^ 13) u2 u3' (by rw [abs_of_nonneg (by linarith)]; norm_num; norm_num at l400; linarith)
    (by norm_num) (by norm_num) (by norm_num)
  have hle : Fl.le (L.log (Fl.lit f64 (1 / 10))) (L.log v) = true := by
    obtain ⟨f1, f2, h3⟩ := log_lt hL t1 hv t2 h1
    exact (Fl.le_fin f1 f2).mpr h3.le
  have hr0 : 0 ≤ (Real.log v.val - Real.log (1 / 10)) / (Real.log Q - Real.log (1 / 10)) := by
    apply div_nonneg <;> linarith
  have hr1 : (Real.log v.val - Real.log (1 / 10)) / (Real.log Q - Real.log (1 / 10)) ≤ 1 := by
    rw [div_le_one (by linarith)]; linarith
  refine heat_at hb I hle ⟨hr0, hr1⟩ ?_
  exact Fl.div_ap (m := 59 / 10) (q := 1) (e := 95 / 10 ^ 14) s1 s2 (by norm_num)
    (by rw [abs_of_nonneg (by linarith)]; linarith [(by norm_num : (59 / 10 + 27 / 10 ^ 13 : ℝ) ≤ 6)])
    (by rw [abs_of_nonneg (by linarith), abs_of_nonneg (by linarith)]; linarith) (by norm_num) (by norm_num) (by norm_num)
    (by norm_num)

/-- C65. Precipitation images: an amount between 0.1 mm and the maximum (100 mm, 200 mm or 400 mm by interval) is drawn in
the colour at the position log(v / 0.1) / log(max / 0.1) of the same gradient. -/
theorem C65_rain {L : MathLib} (hL : AccurateLog L) {E : Env} {input : Bytes} {c : Composite}
    (h : NewComposite E input = .ret c none) (hc : c.product ∈ productsIn .mm) (I : Impl) :
    ∃ f : ColorFunc, Cli.colorFunc I L c = some f ∧ ∀ v : F32, v.isFin = true → 1 / 10 ≤ v.val →
      v.val ≤ rainMax c.interval →
      IsHeat (pixelColor f v) (Real.log (v.val / (1 / 10)) / Real.log (rainMax c.interval / (1 / 10))) := by
  refine ⟨Heatmap I (Fl.lit f64 (1 / 10)) (Fl.lit f64 (rainMax c.interval)) L.log, (C46_color_map h I L).1 hc,
    fun v hv h1 h2 => ?_⟩
  obtain ⟨e1, e2⟩ := conv_exact hv
  have := heat_log hL (rainMax_cases c.interval) I e1 (by rw [e2]; exact tenth_facts.2.2.1.trans (f32_tenth_ge h1))
    (by rw [e2]; exact h2)
  rw [e2] at this
  exact this

/-- 38 dBZ is half way: hue 240 - 165 = 75 degrees, lightness 1/2: 3/4 red, full green, no blue -/
example (I : Impl) : ∃ c f, NewComposite env0 sampleRX = .ret c none ∧ Cli.colorFunc I logMath c = some f ∧
    IsHeat (pixelColor f (Fl.lit f32 38)) (1 / 2) ∧
    hsl (hue (1 / 2)) (lightness (1 / 2)) 0 = 3 / 4 ∧ hsl (hue (1 / 2)) (lightness (1 / 2)) 120 = 1 ∧
    hsl (hue (1 / 2)) (lightness (1 / 2)) 240 = 0 := by
  obtain ⟨c, h, hp⟩ := parsesWith (b := sampleRX) (p := fun c => c.product == str "RX") (by decide +kernel)
  simp only [beq_iff_eq] at hp
  obtain ⟨f, hf, hv⟩ := C65_reflectivity h (by rw [hp]; decide) logMath I
  have v1 : (Fl.lit f32 38).isFin = true ∧ (Fl.lit f32 38).val = 38 := by decide +kernel
  have := hv (Fl.lit f32 38) v1.1 (by rw [v1.2]; norm_num) (by rw [v1.2]; norm_num)
  rw [v1.2] at this
  refine ⟨c, f, h, hf, by norm_num at this; norm_num; exact this, ?_, ?_, ?_⟩
  all_goals
    unfold hsl hue lightness strength
    norm_num [abs_of_pos, abs_of_neg, min_def, max_def]

end Props
