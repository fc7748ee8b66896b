/-
C66: the predefined gradients of package vis.
-/
import Verif.Props.Hue

namespace Props
open Go Radolan Spec Radolan.Vis

theorem le_of_atLeast {x v : F64} {q : ℚ} (hx : x.isFin = true) (hq : x.val = q) (h : AtLeast v q) :
    Fl.le x v = true := by
  rcases h with rfl | ⟨hv, h⟩
  · exact (inf_lt hx).2
  · rw [Fl.le_fin hx hv, hq]; exact h

theorem lt_of_below {x v : F64} {q : ℚ} (hx : x.isFin = true) (hq : x.val = q) (h : Below v q) :
    Fl.lt v x = true := by
  rcases h with rfl | ⟨hv, h⟩
  · exact (inf_lt hx).1
  · rw [Fl.lt_fin hv hx, hq, decide_eq_true_iff]; exact h

/-- what a linear heat map from `a` to `b` does -/
theorem linear_map {a b : ℚ} (ha : IsRep f64 a) (hb : IsRep f64 b) (hab : 1 ≤ b - a) (hbig : b - a ≤ 1000)
    (hw : (Fl.sub (Fl.lit f64 b) (Fl.lit f64 a)).isFin = true ∧ (Fl.sub (Fl.lit f64 b) (Fl.lit f64 a)).val = b - a)
    (I : Impl) (v : F64) :
    (Below v a → Heatmap I (Fl.lit f64 a) (Fl.lit f64 b) Id v = ⟨0, 0, 0, 255⟩) ∧
    (v.isFin = true → a ≤ v.val → v.val ≤ b →
      IsHeat (Heatmap I (Fl.lit f64 a) (Fl.lit f64 b) Id v) (((v.val : ℝ) - a) / (b - a))) ∧
    (AtLeast v b → Heatmap I (Fl.lit f64 a) (Fl.lit f64 b) Id v = ⟨191, 127, 255, 255⟩) ∧
    (v ≠ .nan → ∀ J, Heatmap I (Fl.lit f64 a) (Fl.lit f64 b) Id v = Heatmap J (Fl.lit f64 a) (Fl.lit f64 b) Id v) ∧
    (v = .nan → Heatmap I (Fl.lit f64 a) (Fl.lit f64 b) Id v = ⟨I.u8 .nan, I.u8 .nan, I.u8 .nan, 255⟩) := by
  have hbd : Bounds Id (Fl.lit f64 a) (Fl.lit f64 b) := id_bounds ha hb (by linarith) hw.1
  obtain ⟨-, k2, k3, -, k5⟩ := C44_heatmap hbd I
  refine ⟨fun h => k2 _ (lt_of_below (Fl.lit_isFin ha) (Fl.lit_val ha) h), heat_linear ha hb hab hbig hw I,
    fun h => k5 _ (le_of_atLeast (Fl.lit_isFin hb) (Fl.lit_val hb) h), fun h J => ?_, ?_⟩
  · rcases le_or_lt hbd (v := v) h with h1 | ⟨-, h1⟩
    · rw [heatmap_below h1, heatmap_below h1]
    · exact (k3 v h1).1 J
  · rintro rfl; exact heatmap_nan I rfl

/-- C66. The reflectivity gradients: black below 5 dBZ, 1 dBZ and -32.5 dBZ respectively, then the heat colours, linear
up to 75 dBZ, light violet from there on; NaN is a gray of implementation-defined brightness, everything else does not
depend on the implementation. -/
theorem C66_reflectivity (I : Impl) (v : F64) :
    ((Below v 5 → HeatmapReflectivityShort I v = ⟨0, 0, 0, 255⟩) ∧
     (v.isFin = true → 5 ≤ v.val → v.val ≤ 75 → IsHeat (HeatmapReflectivityShort I v) ((v.val - 5) / 70)) ∧
     (AtLeast v 75 → HeatmapReflectivityShort I v = ⟨191, 127, 255, 255⟩) ∧
     (v ≠ .nan → ∀ J, HeatmapReflectivityShort I v = HeatmapReflectivityShort J v) ∧
     (v = .nan → HeatmapReflectivityShort I v = ⟨I.u8 .nan, I.u8 .nan, I.u8 .nan, 255⟩)) ∧
    ((Below v 1 → HeatmapReflectivity I v = ⟨0, 0, 0, 255⟩) ∧
     (v.isFin = true → 1 ≤ v.val → v.val ≤ 75 → IsHeat (HeatmapReflectivity I v) ((v.val - 1) / 74)) ∧
     (AtLeast v 75 → HeatmapReflectivity I v = ⟨191, 127, 255, 255⟩) ∧
     (v ≠ .nan → ∀ J, HeatmapReflectivity I v = HeatmapReflectivity J v) ∧
     (v = .nan → HeatmapReflectivity I v = ⟨I.u8 .nan, I.u8 .nan, I.u8 .nan, 255⟩)) ∧
    ((Below v (-65 / 2) → HeatmapReflectivityWide I v = ⟨0, 0, 0, 255⟩) ∧
     (v.isFin = true → -65 / 2 ≤ v.val → v.val ≤ 75 →
        IsHeat (HeatmapReflectivityWide I v) ((v.val + 65 / 2) / (215 / 2))) ∧
     (AtLeast v 75 → HeatmapReflectivityWide I v = ⟨191, 127, 255, 255⟩) ∧
     (v ≠ .nan → ∀ J, HeatmapReflectivityWide I v = HeatmapReflectivityWide J v) ∧
     (v = .nan → HeatmapReflectivityWide I v = ⟨I.u8 .nan, I.u8 .nan, I.u8 .nan, 255⟩)) := by
  have h1 := linear_map (a := 5) (b := 75) (by decide +kernel) (by decide +kernel) (by norm_num) (by norm_num)
    (by norm_num; decide +kernel) I v
  have h2 := linear_map (a := 1) (b := 75) (by decide +kernel) (by decide +kernel) (by norm_num) (by norm_num)
    (by norm_num; decide +kernel) I v
  have h3 := linear_map (a := -65 / 2) (b := 75) (by decide +kernel) (by decide +kernel) (by norm_num) (by norm_num)
    (by decide +kernel) I v
  refine ⟨⟨h1.1, fun a b c => ?_, h1.2.2⟩, ⟨h2.1, fun a b c => ?_, h2.2.2⟩, ⟨h3.1, fun a b c => ?_, h3.2.2⟩⟩
  · have := h1.2.1 a b c
    norm_num at this; exact this
  · have := h2.2.1 a b c
    norm_num at this; exact this
  · have := h3.2.1 a b c
    have e : ((v.val : ℝ) - ((-65 / 2 : ℚ) : ℝ)) / (((75 : ℚ) : ℝ) - ((-65 / 2 : ℚ) : ℝ)) = ((v.val : ℝ) + 65 / 2) / (215 / 2) := by
      push_cast; norm_num
    rw [e] at this; exact this

/-- what a linear gray map from 0 to `b` does -/
theorem gray_map {b : ℚ} (hb : IsRep f64 b) (hb1 : 1 ≤ b) (hb2 : b ≤ 5000)
    (hw : (Fl.sub (Fl.lit f64 b) (Fl.lit f64 0)).isFin = true ∧ (Fl.sub (Fl.lit f64 b) (Fl.lit f64 0)).val = b)
    (I : Impl) (v : F64) :
    (v = .inf true ∨ v.isFin = true ∧ v.val ≤ 0 → Graymap I (Fl.lit f64 0) (Fl.lit f64 b) Id v = ⟨0, 0, 0, 255⟩) ∧
    (v.isFin = true → 0 ≤ v.val → v.val ≤ b →
      ∃ l, Graymap I (Fl.lit f64 0) (Fl.lit f64 b) Id v = ⟨l, l, l, 255⟩ ∧ Brightness l (v.val / b)) ∧
    (AtLeast v b → Graymap I (Fl.lit f64 0) (Fl.lit f64 b) Id v = ⟨255, 255, 255, 255⟩) ∧
    (v ≠ .nan → ∀ J, Graymap I (Fl.lit f64 0) (Fl.lit f64 b) Id v = Graymap J (Fl.lit f64 0) (Fl.lit f64 b) Id v) ∧
    (v = .nan → Graymap I (Fl.lit f64 0) (Fl.lit f64 b) Id v = ⟨I.u8 .nan, I.u8 .nan, I.u8 .nan, 255⟩) := by
  have hbd : Bounds Id (Fl.lit f64 0) (Fl.lit f64 b) := id_bounds (by decide +kernel) hb (by linarith) hw.1
  have h00 : (Fl.lit f64 0).isFin = true ∧ (Fl.lit f64 0).val = 0 := by decide +kernel
  obtain ⟨k1, k2, k3, k4, k5⟩ := C43_graymap hbd id_mono I
  refine ⟨?_, ?_, fun h1 => k3 _ (le_of_atLeast (Fl.lit_isFin hb) (Fl.lit_val hb) h1), fun h1 J => k5 J _ h1, ?_⟩
  · rintro (rfl | ⟨h1, h2⟩)
    · exact graymap_below (inf_lt h00.1).1
    · exact k2 _ (Fl.isFin_ne_nan h1) ((Fl.le_fin h1 h00.1).mpr (by rw [h00.2]; exact h2))
  · intro e1 h0 h1
    have hle : Fl.le (Id (Fl.lit f64 0)) (Id v) = true :=
      (Fl.le_fin h00.1 e1).mpr (by show (Fl.lit f64 0).val ≤ v.val; rw [h00.2]; exact h0)
    rw [graymap_above (not_lt_of_le hle)]
    refine ⟨_, rfl, ?_⟩
    have h0r : (0 : ℝ) ≤ v.val := by exact_mod_cast h0
    have h1r : (v.val : ℝ) ≤ b := by exact_mod_cast h1
    have hb1r : (1 : ℝ) ≤ b := by exact_mod_cast hb1
    have hb2r : (b : ℝ) ≤ 5000 := by exact_mod_cast hb2
    have s0 : Fl.Ap (Fl.lit f64 0) 0 0 := ⟨h00.1, by rw [h00.2]; norm_num⟩
    have s2 := Fl.sub_ap (M := 5000) (t := 2 / 10 ^ 12) (Fl.Ap.exact e1) s0 (by rw [sub_zero, abs_of_nonneg h0r]; linarith)
      (by norm_num) (by norm_num) (by norm_num)
    rw [sub_zero] at s2
    have s3 : Fl.Ap (Fl.sub (Fl.lit f64 b) (Fl.lit f64 0)) (b : ℝ) 0 := ⟨hw.1, by rw [hw.2]; norm_num⟩
    have s4 := Fl.div_ap (m := 1) (q := 1) (e := 2 / 10 ^ 12) (t := 1 / 10 ^ 11) s2 s3 (by norm_num)
      (by rw [abs_of_pos (by linarith)]; linarith)
      (by rw [abs_of_nonneg h0r, abs_of_pos (by linarith)]; linarith) (by norm_num) (by norm_num) (by norm_num) (by norm_num)
    refine byte_ap I.u8 s4 ?_ (by rw [div_le_one (by linarith)]; exact h1r)
    have := Fl.pos_mono hbd.lo hbd.hi hbd.lt hbd.width hle
    rw [Fl.pos_min hbd.lo hbd.hi hbd.lt hbd.width] at this
    exact (Fl.le_fin rfl s4.1).mp this
  · rintro rfl
    rw [graymap_above (show Fl.lt (Id (.nan : F64)) (Id (Fl.lit f64 0)) = false by decide +kernel)]
    have e : Fl.mul (Fl.lit f64 255) (Fl.clip (Fl.div (Fl.sub (Id .nan) (Id (Fl.lit f64 0)))
      (Fl.sub (Id (Fl.lit f64 b)) (Id (Fl.lit f64 0))))) = .nan := by
      show Fl.mul _ (Fl.clip (Fl.div (Fl.sub .nan _) _)) = _
      rw [nan_pos]; decide +kernel
    rw [e]; rfl

/-- C66. The gray gradients: black up to 0, the fraction v / 409.5 respectively v / 4095 of full brightness in between,
white from the maximum on. -/
theorem C66_gray (I : Impl) (v : F64) :
    ((v = .inf true ∨ v.isFin = true ∧ v.val ≤ 0 → GraymapLinear I v = ⟨0, 0, 0, 255⟩) ∧
     (v.isFin = true → 0 ≤ v.val → v.val ≤ 819 / 2 →
       ∃ l, GraymapLinear I v = ⟨l, l, l, 255⟩ ∧ Brightness l (v.val / (819 / 2))) ∧
     (AtLeast v (819 / 2) → GraymapLinear I v = ⟨255, 255, 255, 255⟩) ∧
     (v ≠ .nan → ∀ J, GraymapLinear I v = GraymapLinear J v) ∧
     (v = .nan → GraymapLinear I v = ⟨I.u8 .nan, I.u8 .nan, I.u8 .nan, 255⟩)) ∧
    ((v = .inf true ∨ v.isFin = true ∧ v.val ≤ 0 → GraymapLinearWide I v = ⟨0, 0, 0, 255⟩) ∧
     (v.isFin = true → 0 ≤ v.val → v.val ≤ 4095 →
       ∃ l, GraymapLinearWide I v = ⟨l, l, l, 255⟩ ∧ Brightness l (v.val / 4095)) ∧
     (AtLeast v 4095 → GraymapLinearWide I v = ⟨255, 255, 255, 255⟩) ∧
     (v ≠ .nan → ∀ J, GraymapLinearWide I v = GraymapLinearWide J v) ∧
     (v = .nan → GraymapLinearWide I v = ⟨I.u8 .nan, I.u8 .nan, I.u8 .nan, 255⟩)) := by
  have h1 := gray_map (b := 819 / 2) (by decide +kernel) (by norm_num) (by norm_num) (by decide +kernel) I v
  have h2 := gray_map (b := 4095) (by decide +kernel) (by norm_num) (by norm_num) (by decide +kernel) I v
  refine ⟨⟨h1.1, fun a b c => ?_, h1.2.2⟩, ⟨h2.1, fun a b c => ?_, h2.2.2⟩⟩
  · have := h1.2.1 a b c
    push_cast at this; exact this
  · have := h2.2.1 a b c
    push_cast at this; exact this

section
variable {L : MathLib} (hL : AccurateLog L)
include hL

/-- the order of logarithms, float64 version of `log_cases` -/
theorem log_cases64 {x v : F64} (hx : x.isFin = true) (h0 : 0 < x.val) (hv : AtLeast v 0)
    (h : v.isFin = true → x.val * (1 + 1 / 10 ^ 9) ≤ v.val ∨ v.val = x.val) :
    Fl.le (L.log x) (L.log v) = true := by
  have hf := logs_fin hL hx h0
  rcases hv with rfl | ⟨hv, _⟩
  · rw [hL.inf]; exact (inf_lt hf).2
  · rcases h hv with h | h
    · obtain ⟨f1, f2, h3⟩ := log_lt hL hx hv h0 h
      exact (Fl.le_fin f1 f2).mpr h3.le
    · have : v = x := Fl.eq_of_val hv hx h (by rw [h]; exact h0.ne')
      rw [this]
      exact Fl.le_refl (Fl.isFin_ne_nan hf)

/-- what a logarithmic heat map from 0.1 does -/
theorem log_map {Q : ℚ} (hq : Q = 100 ∨ Q = 200 ∨ Q = 400) (I : Impl) (v : F64) :
    (AtLeast v 0 → Below v (1 / 10 * (1 - 1 / 10 ^ 8)) →
      Heatmap I (Fl.lit f64 (1 / 10)) (Fl.lit f64 Q) L.log v = ⟨0, 0, 0, 255⟩) ∧
    (v.isFin = true → 1 / 10 * (1 + 1 / 10 ^ 8) ≤ v.val → v.val ≤ Q →
      IsHeat (Heatmap I (Fl.lit f64 (1 / 10)) (Fl.lit f64 Q) L.log v)
        (Real.log (v.val / (1 / 10)) / Real.log (Q / (1 / 10)))) ∧
    (v = .inf false ∨ v.isFin = true ∧ (v.val = Q ∨ Q * (1 + 1 / 10 ^ 8) ≤ v.val) →
      Heatmap I (Fl.lit f64 (1 / 10)) (Fl.lit f64 Q) L.log v = ⟨191, 127, 255, 255⟩) ∧
    (AtLeast v 0 → ∀ J, Heatmap I (Fl.lit f64 (1 / 10)) (Fl.lit f64 Q) L.log v =
      Heatmap J (Fl.lit f64 (1 / 10)) (Fl.lit f64 Q) L.log v) ∧
    (v = .nan ∨ Below v 0 → Heatmap I (Fl.lit f64 (1 / 10)) (Fl.lit f64 Q) L.log v =
      ⟨I.u8 .nan, I.u8 .nan, I.u8 .nan, 255⟩) := by
  obtain ⟨t1, t2, t3, t4⟩ := tenth_facts
  obtain ⟨m1, m2⟩ := lit_max hq
  have hb := rain_bounds hL hq
  have hq0 : 1 ≤ Q := by rcases hq with e | e | e <;> rw [e] <;> norm_num
  have ht : |(Fl.lit f64 (1 / 10)).val - 1 / 10| ≤ 1 / 10 ^ 17 := by decide +kernel
  have ht' := abs_le.mp ht
  obtain ⟨-, k2, k3, -, k5⟩ := C44_heatmap hb I
  refine ⟨?_, ?_, ?_, ?_, ?_⟩
  · intro h0 h1
    refine k2 _ ?_
    rcases h1 with rfl | ⟨hv, h1⟩
    · rcases h0 with h0 | ⟨h0, _⟩ <;> simp [Fl.isFin] at h0
    rcases h0 with rfl | ⟨_, h0⟩
    · simp [Fl.isFin] at hv
    rcases h0.eq_or_lt with h0 | h0
    · rw [hL.zero _ hv h0.symm]
      exact (inf_lt hb.lo).1
    · obtain ⟨f1, f2, h3⟩ := log_lt hL hv t1 h0 (by norm_num at h1 ht' ⊢; linarith [ht'.1])
      rw [Fl.lt_fin f1 f2, decide_eq_true_iff]; exact h3
  · intro hv h1 h2
    exact heat_log hL hq I hv (by norm_num at h1 ht' ⊢; linarith [ht'.2]) h2
  · intro h1
    refine k5 _ (log_cases64 hL m1 (by rw [m2]; linarith) (h1.imp_right fun h => ⟨h.1, ?_⟩) (fun hv => ?_))
    · rcases h.2 with h | h <;> norm_num at h ⊢ <;> linarith
    · rcases h1 with rfl | ⟨_, h1 | h1⟩
      · simp [Fl.isFin] at hv
      · right; rw [m2]; exact h1
      · left; rw [m2]; norm_num at h1 ⊢; linarith
  · intro h0 J
    have hn : L.log v ≠ .nan := by
      rcases h0 with rfl | ⟨hv, h0⟩
      · rw [hL.inf]; simp
      · rcases h0.eq_or_lt with h0 | h0
        · rw [hL.zero _ hv h0.symm]; simp
        · exact Fl.isFin_ne_nan (logs_fin hL hv h0)
    rcases le_or_lt hb (v := v) hn with h1 | ⟨-, h1⟩
    · rw [heatmap_below h1, heatmap_below h1]
    · exact (k3 v h1).1 J
  · intro h1
    refine heatmap_nan I ?_
    rcases h1 with rfl | rfl | ⟨hv, h1⟩
    · exact hL.nan
    · exact hL.neg _ (Or.inr rfl)
    · exact hL.neg _ (Or.inl ⟨hv, h1⟩)

/-- C66. The gradients for accumulated rainfall: black below 0.1 mm, then the heat colours, logarithmic up to 100 mm
respectively 200 mm, light violet from there on - except within a relative distance of 10^-8 from these bounds, where an
inexact logarithm may decide either way; negative amounts and NaN are a gray of implementation-defined brightness. -/
theorem C66_rain (I : Impl) (v : F64) :
    ((AtLeast v 0 → Below v (1 / 10 * (1 - 1 / 10 ^ 8)) → HeatmapAccumulatedHour I L v = ⟨0, 0, 0, 255⟩) ∧
     (v.isFin = true → 1 / 10 * (1 + 1 / 10 ^ 8) ≤ v.val → v.val ≤ 100 →
        IsHeat (HeatmapAccumulatedHour I L v) (Real.log (v.val / (1 / 10)) / Real.log (100 / (1 / 10)))) ∧
     (v = .inf false ∨ v.isFin = true ∧ (v.val = 100 ∨ 100 * (1 + 1 / 10 ^ 8) ≤ v.val) →
        HeatmapAccumulatedHour I L v = ⟨191, 127, 255, 255⟩) ∧
     (AtLeast v 0 → ∀ J, HeatmapAccumulatedHour I L v = HeatmapAccumulatedHour J L v) ∧
     (v = .nan ∨ Below v 0 → HeatmapAccumulatedHour I L v = ⟨I.u8 .nan, I.u8 .nan, I.u8 .nan, 255⟩)) ∧
    ((AtLeast v 0 → Below v (1 / 10 * (1 - 1 / 10 ^ 8)) → HeatmapAccumulatedDay I L v = ⟨0, 0, 0, 255⟩) ∧
     (v.isFin = true → 1 / 10 * (1 + 1 / 10 ^ 8) ≤ v.val → v.val ≤ 200 →
        IsHeat (HeatmapAccumulatedDay I L v) (Real.log (v.val / (1 / 10)) / Real.log (200 / (1 / 10)))) ∧
     (v = .inf false ∨ v.isFin = true ∧ (v.val = 200 ∨ 200 * (1 + 1 / 10 ^ 8) ≤ v.val) →
        HeatmapAccumulatedDay I L v = ⟨191, 127, 255, 255⟩) ∧
     (AtLeast v 0 → ∀ J, HeatmapAccumulatedDay I L v = HeatmapAccumulatedDay J L v) ∧
     (v = .nan ∨ Below v 0 → HeatmapAccumulatedDay I L v = ⟨I.u8 .nan, I.u8 .nan, I.u8 .nan, 255⟩)) := by
  have h1 := log_map hL (Q := 100) (by norm_num) I v
  have h2 := log_map hL (Q := 200) (by norm_num) I v
  exact ⟨⟨h1.1, fun a b c => by have := h1.2.1 a b c; rw [show (((100 : ℚ)) : ℝ) = 100 by norm_num] at this; exact this, h1.2.2⟩,
    ⟨h2.1, fun a b c => by have := h2.2.1 a b c; rw [show (((200 : ℚ)) : ℝ) = 200 by norm_num] at this; exact this, h2.2.2⟩⟩

/-- the level of a speed between 1 and 31.5 m/s, and beyond -/
theorem level64 (I : Impl) {v : F64} (hv : v.isFin = true) (h1 : 1 + 1 / 10 ^ 8 ≤ |v.val|) :
    (|v.val| ≤ 63 / 2 → Brightness (level I L.log (Fl.lit f64 (-63 / 2)) (Fl.lit f64 (63 / 2)) v)
        (Real.log ((|v.val| : ℚ) : ℝ) / Real.log (63 / 2))) ∧
    (|v.val| = 63 / 2 ∨ 63 / 2 * (1 + 1 / 10 ^ 8) ≤ |v.val| →
      Fl.le (L.log (Fl.lit f64 (63 / 2))) (L.log (Fl.abs v)) = true) := by
  obtain ⟨o1, o2, o3, m1, m2, m3, hbase, z1, z2⟩ := one_facts
  obtain ⟨lb1, lb2⟩ := log_pos hL m1 (by rw [m2]; norm_num)
  have e1 : (Fl.abs v).isFin = true := by rw [Fl.abs_isFin]; exact hv
  have e2 : (Fl.abs v).val = |v.val| := Fl.abs_val v
  constructor
  · intro h2
    have h1r : (1 : ℝ) < ((|v.val| : ℚ) : ℝ) := by
      have : 1 < |v.val| := by norm_num at h1 ⊢; linarith
      exact_mod_cast this
    have h2r : ((|v.val| : ℚ) : ℝ) ≤ 63 / 2 := by
      have : ((|v.val| : ℚ) : ℝ) ≤ (((63 / 2 : ℚ)) : ℝ) := by exact_mod_cast h2
      push_cast at this ⊢; exact this
    have p1 := hL.log _ e1 (by rw [e2]; linarith)
    rw [e2] at p1
    have p2 := hL.log _ m1 (by rw [m2]; norm_num)
    rw [m2, show (((63 / 2 : ℚ)) : ℝ) = 63 / 2 by norm_num] at p2
    have l0 : 0 ≤ Real.log ((|v.val| : ℚ) : ℝ) := Real.log_nonneg h1r.le
    have l1 : Real.log ((|v.val| : ℚ) : ℝ) ≤ Real.log (63 / 2) := Real.log_le_log (by linarith) h2r
    have l2 : 1 - (63 / 2 : ℝ)⁻¹ ≤ Real.log (63 / 2) := Real.one_sub_inv_le_log_of_pos (by norm_num)
    have l3 : (9 / 10 : ℝ) ≤ 1 - (63 / 2 : ℝ)⁻¹ := by norm_num
    have l4 : |Real.log (63 / 2)| = Real.log (63 / 2) := abs_of_nonneg (by linarith)
    have s4 := Fl.div_ap (m := 1 / 2) (q := 1) (e := 4 / 10 ^ 12) (t := 1 / 10 ^ 11) p1 p2 (by norm_num)
      (by rw [l4]; linarith [(by norm_num : (1 / 2 + 1 / 10 ^ 12 : ℝ) ≤ 9 / 10)])
      (by rw [abs_of_nonneg l0, l4]; linarith) (by norm_num) (by norm_num) (by norm_num) (by norm_num)
    unfold level
    rw [hbase]
    refine byte_ap I.u8 s4 ?_ (by rw [div_le_one₀ (by linarith)]; exact l1)
    obtain ⟨g1, g2⟩ := log_pos hL e1 (by rw [e2]; norm_num at h1 ⊢; linarith)
    have g : Fl.le Fl.zero (L.log (Fl.abs v)) = true := (Fl.le_fin rfl g1).mpr g2.le
    have hz : Fl.div Fl.zero (L.log (Fl.lit f64 (63 / 2))) = Fl.zero := by
      rw [Fl.div_fin rfl lb1 lb2.ne', Fl.sign_of_pos lb1 lb2]; simp [Fl.mk, Fl.zero, Fl.val, Fl.sign]
    have := Fl.div_mono lb1 lb2 g
    rw [hz] at this
    exact (Fl.le_fin rfl s4.1).mp this
  · intro h2
    refine log_cases64 hL m1 (by rw [m2]; norm_num) (Or.inr ⟨e1, by rw [e2]; exact abs_nonneg _⟩) fun _ => ?_
    rw [e2, m2]
    rcases h2 with h2 | h2
    · exact Or.inr h2
    · left; norm_num at h2 ⊢; linarith

/-- C66. The velocity gradient: NaN is black; positive values are red and negative values cyan, up to 1 m/s pale, above
logarithmic and saturated from 31.5 m/s on (speeds within a relative distance of 10^-8 above these two bounds excepted,
where an inexact logarithm may round either way). -/
theorem C66_velocity (I : Impl) (v : F64) :
    (v = .nan → HeatmapRadialVelocity I L v = ⟨0, 0, 0, 255⟩) ∧
    (v.isFin = true → 0 ≤ v.val → v.val ≤ 1 → HeatmapRadialVelocity I L v = ⟨255, 204, 204, 255⟩) ∧
    (v.isFin = true → v.val < 0 → -1 ≤ v.val → HeatmapRadialVelocity I L v = ⟨204, 255, 255, 255⟩) ∧
    (v.isFin = true → 1 + 1 / 10 ^ 8 ≤ v.val → ∃ l, HeatmapRadialVelocity I L v = ⟨l, 0, 0, 255⟩ ∧
      (v.val ≤ 63 / 2 → Brightness l (Real.log v.val / Real.log (63 / 2))) ∧
      (v.val = 63 / 2 ∨ 63 / 2 * (1 + 1 / 10 ^ 8) ≤ v.val → l = 255)) ∧
    (v.isFin = true → v.val ≤ -(1 + 1 / 10 ^ 8) → ∃ l, HeatmapRadialVelocity I L v = ⟨0, l, l, 255⟩ ∧
      (-63 / 2 ≤ v.val → Brightness l (Real.log (-v.val) / Real.log (63 / 2))) ∧
      (v.val = -63 / 2 ∨ v.val ≤ -63 / 2 * (1 + 1 / 10 ^ 8) → l = 255)) ∧
    (v = .inf false → HeatmapRadialVelocity I L v = ⟨255, 0, 0, 255⟩) ∧
    (v = .inf true → HeatmapRadialVelocity I L v = ⟨0, 255, 255, 255⟩) := by
  obtain ⟨o1, o2, o3, m1, m2, m3, hbase, z1, z2⟩ := one_facts
  obtain ⟨lb1, lb2⟩ := log_pos hL m1 (by rw [m2]; norm_num)
  obtain ⟨-, -, k3⟩ := in_range_fmax (comp := L.log) (min := Fl.lit f64 (-63 / 2)) (max := Fl.lit f64 (63 / 2)) I
    (by rw [hbase]; exact lb1) (by rw [hbase]; exact lb2)
  rw [hbase] at k3
  have r := C45_radialmap (comp := L.log) (min := Fl.lit f64 (-63 / 2)) (max := Fl.lit f64 (63 / 2)) I v
  have hslow : v.isFin = true → |v.val| ≤ 1 → Fl.le (Fl.abs v) (Fl.lit f64 1) = true := fun hv h =>
    (Fl.le_fin (by rw [Fl.abs_isFin]; exact hv) o1).mpr (by rw [Fl.abs_val, o2]; exact h)
  have hfast : v.isFin = true → 1 + 1 / 10 ^ 8 ≤ |v.val| → Fl.le (Fl.abs v) (Fl.lit f64 1) = false ∧
      Fl.lt (Fl.lit f64 1) (Fl.abs v) = true := fun hv h => by
    have hf : (Fl.abs v).isFin = true := by rw [Fl.abs_isFin]; exact hv
    have hlt : Fl.lt (Fl.lit f64 1) (Fl.abs v) = true := by
      rw [Fl.lt_fin o1 hf, decide_eq_true_iff, o2, Fl.abs_val]; norm_num at h ⊢; linarith
    refine ⟨?_, hlt⟩
    cases e : Fl.le (Fl.abs v) (Fl.lit f64 1)
    · rfl
    · rw [not_lt_of_le e] at hlt; simp at hlt
  have hpos : v.isFin = true → 0 ≤ v.val → Fl.lt v (Fl.lit f64 0) = false := fun hv h => by
    rw [Fl.lt_fin hv z1, z2]; simpa using h
  have hneg : v.isFin = true → v.val < 0 → Fl.lt v (Fl.lit f64 0) = true := fun hv h => by
    rw [Fl.lt_fin hv z1, z2]; simpa using h
  refine ⟨r.1, ?_, ?_, ?_, ?_, ?_, ?_⟩
  · intro hv h0 h1
    have := r.2.2.2.2.2 (hslow hv (by rw [abs_of_nonneg h0]; exact h1))
    rw [hpos hv h0] at this; exact this
  · intro hv h0 h1
    have := r.2.2.2.2.2 (hslow hv (by rw [abs_of_neg h0]; linarith))
    rw [hneg hv h0] at this; exact this
  · intro hv h1
    have h0 : 0 < v.val := by norm_num at h1 ⊢; linarith
    have ha : |v.val| = v.val := abs_of_pos h0
    obtain ⟨a1, a2⟩ := hfast hv (by rw [ha]; exact h1)
    obtain ⟨b1, b2⟩ := level64 hL I hv (by rw [ha]; exact h1)
    rw [ha] at b1 b2
    have hr := radial_eq (comp := L.log) (min := Fl.lit f64 (-63 / 2)) (max := Fl.lit f64 (63 / 2)) I (Fl.isFin_ne_nan hv)
    rw [a1, hpos hv h0.le] at hr
    refine ⟨_, hr, b1, fun h2 => ?_⟩
    have := k3 v a2 (b2 h2)
    rw [hpos hv h0.le, hr] at this
    exact congrArg RGBA.r this
  · intro hv h1
    have h0 : v.val < 0 := by norm_num at h1 ⊢; linarith
    have ha : |v.val| = -v.val := abs_of_neg h0
    obtain ⟨a1, a2⟩ := hfast hv (by rw [ha]; linarith)
    obtain ⟨b1, b2⟩ := level64 hL I hv (by rw [ha]; linarith)
    rw [ha] at b1 b2
    have hr := radial_eq (comp := L.log) (min := Fl.lit f64 (-63 / 2)) (max := Fl.lit f64 (63 / 2)) I (Fl.isFin_ne_nan hv)
    rw [a1, hneg hv h0] at hr
    refine ⟨_, hr, fun h2 => ?_, fun h2 => ?_⟩
    · have := b1 (by linarith)
      push_cast at this; exact this
    · have := k3 v a2 (b2 (h2.imp (fun h => by linarith) (fun h => by linarith)))
      rw [hneg hv h0, hr] at this
      exact congrArg RGBA.g this
  · rintro rfl
    have := k3 (.inf false) (by decide +kernel) (by
      show Fl.le _ (L.log (.inf false)) = true
      rw [hL.inf]; exact (inf_lt lb1).2)
    exact this
  · rintro rfl
    have := k3 (.inf true) (by decide +kernel) (by
      show Fl.le _ (L.log (.inf false)) = true
      rw [hL.inf]; exact (inf_lt lb1).2)
    exact this

end

/-- half way between -32.5 dBZ and 75 dBZ, 1 mm in the hourly and 100 mm in the daily gradient, half brightness, and
-10 m/s -/
example (I : Impl) :
    IsHeat (HeatmapReflectivityWide I (Fl.lit f64 (85 / 4))) (1 / 2) ∧
    HeatmapReflectivityShort I (Fl.lit f64 (85 / 4)) ≠ ⟨0, 0, 0, 255⟩ ∧
    HeatmapReflectivityShort I (Fl.lit f64 2) = ⟨0, 0, 0, 255⟩ ∧
    IsHeat (HeatmapAccumulatedHour I logMath (Fl.lit f64 1)) (Real.log (1 / (1 / 10)) / Real.log (100 / (1 / 10))) ∧
    HeatmapAccumulatedHour I logMath (Fl.lit f64 100) = ⟨191, 127, 255, 255⟩ ∧
    IsHeat (HeatmapAccumulatedDay I logMath (Fl.lit f64 100)) (Real.log (100 / (1 / 10)) / Real.log (200 / (1 / 10))) ∧
    (∃ l, GraymapLinear I (Fl.lit f64 (819 / 4)) = ⟨l, l, l, 255⟩ ∧ Brightness l (1 / 2)) ∧
    (∃ l, HeatmapRadialVelocity I logMath (Fl.lit f64 (-10)) = ⟨0, l, l, 255⟩ ∧
      Brightness l (Real.log 10 / Real.log (63 / 2))) := by
  have f1 : (Fl.lit f64 (85 / 4)).isFin = true ∧ (Fl.lit f64 (85 / 4)).val = 85 / 4 := by decide +kernel
  have f2 : (Fl.lit f64 100).isFin = true ∧ (Fl.lit f64 100).val = 100 := by decide +kernel
  have f3 : (Fl.lit f64 (819 / 4)).isFin = true ∧ (Fl.lit f64 (819 / 4)).val = 819 / 4 := by decide +kernel
  have f4 : (Fl.lit f64 (-10)).isFin = true ∧ (Fl.lit f64 (-10)).val = -10 := by decide +kernel
  have f5 : (Fl.lit f64 1).isFin = true ∧ (Fl.lit f64 1).val = 1 := by decide +kernel
  refine ⟨?_, ?_, ?_, ?_, ?_, ?_, ?_, ?_⟩
  · have := (C66_reflectivity I (Fl.lit f64 (85 / 4))).2.2.2.1 f1.1 (by rw [f1.2]; norm_num) (by rw [f1.2]; norm_num)
    rw [f1.2] at this; norm_num at this; norm_num; exact this
  · have := ((C44_heatmap (id_bounds (a := 5) (b := 75) (by decide +kernel) (by decide +kernel) (by norm_num) (by decide +kernel)) I).2.2.1
      (Fl.lit f64 (85 / 4)) (by decide +kernel)).2
    intro h
    change 127 ≤ (HeatmapReflectivityShort I (Fl.lit f64 (85 / 4))).r ∨ 127 ≤ (HeatmapReflectivityShort I (Fl.lit f64 (85 / 4))).g ∨
      127 ≤ (HeatmapReflectivityShort I (Fl.lit f64 (85 / 4))).b at this
    rw [h] at this
    revert this; decide
  · exact (C66_reflectivity I (Fl.lit f64 2)).1.1 (Or.inr (by decide +kernel))
  · have := (C66_rain logMath_accurate I (Fl.lit f64 1)).1.2.1 f5.1 (by rw [f5.2]; norm_num) (by rw [f5.2]; norm_num)
    rw [f5.2, Rat.cast_one] at this; exact this
  · exact (C66_rain logMath_accurate I (Fl.lit f64 100)).1.2.2.1 (Or.inr ⟨f2.1, Or.inl f2.2⟩)
  · have := (C66_rain logMath_accurate I (Fl.lit f64 100)).2.2.1 f2.1 (by rw [f2.2]; norm_num) (by rw [f2.2]; norm_num)
    rw [f2.2, show (((100 : ℚ)) : ℝ) = 100 by norm_num] at this; exact this
  · have := (C66_gray I (Fl.lit f64 (819 / 4))).1.2.1 f3.1 (by rw [f3.2]; norm_num) (by rw [f3.2]; norm_num)
    rw [f3.2] at this; norm_num at this; norm_num; exact this
  · obtain ⟨l, h1, h2, -⟩ := (C66_velocity logMath_accurate I (Fl.lit f64 (-10))).2.2.2.2.1 f4.1 (by rw [f4.2]; norm_num)
    have := h2 (by rw [f4.2]; norm_num)
    rw [f4.2] at this; norm_num at this
    exact ⟨l, h1, this⟩

end Props
