/-
C82: the colours of a picture under every permitted floating point evaluation.
-/
import Verif.Props.Hue
import Verif.Props.Fusion
import Verif.Lemmas.FusedColors

namespace Props
open Go Radolan Spec Radolan.Vis Spec.Fusion Radolan.Fusion

/-! ### separate rounding -/

theorem sep_limited {a : Inter → Prop} {x : F64} (h : a (.word x)) :
    limited a (.word (if Fl.lt (Fl.lit f64 1) x then Fl.lit f64 1 else x)) := by
  split
  · rename_i hl; exact Or.inl ⟨rfl, _, _, h, rfl, hl⟩
  · rename_i hl; exact Or.inr ⟨h, _, rfl, by simpa using hl⟩

theorem sep_plus {a b : Inter → Prop} {x y : F64} (ha : a (.word x)) (hb : b (.word y)) : plus a b (.word (Fl.add x y)) :=
  ⟨_, _, ha, hb, .separate rfl rfl⟩
theorem sep_minus {a b : Inter → Prop} {x y : F64} (ha : a (.word x)) (hb : b (.word y)) : minus a b (.word (Fl.sub x y)) :=
  ⟨_, _, ha, hb, .separate rfl rfl⟩
theorem sep_times {a b : Inter → Prop} {x y : F64} (ha : a (.word x)) (hb : b (.word y)) : times a b (.word (Fl.mul x y)) :=
  ⟨_, _, ha, hb, .separate rfl rfl⟩
theorem sep_over {a b : Inter → Prop} {x y : F64} (ha : a (.word x)) (hb : b (.word y)) : over a b (.word (Fl.div x y)) :=
  ⟨_, _, ha, hb, .separate rfl rfl⟩
theorem sep_rem {a b : Inter → Prop} {x y : F64} (ha : a (.word x)) (hb : b (.word y)) : remainder a b (.word (Fl.fmod x y)) :=
  ⟨_, _, _, _, ha, hb, rfl, rfl, rfl⟩
theorem sep_abs {a : Inter → Prop} {x : F64} (ha : a (.word x)) : absolute a (.word (Fl.abs x)) :=
  ⟨_, ha, Or.inl ⟨_, rfl, rfl⟩⟩
theorem sep_byte {I : Impl} {a : Inter → Prop} {x : F64} (ha : a (.word x)) : toByte I a (Fl.toU8 I.u8 x) :=
  ⟨_, _, ha, rfl, rfl⟩
theorem sep_num (q : ℚ) : num q (.word (Fl.lit f64 q)) := rfl

theorem sep_sector (h : Int) {a b z : Inter → Prop} {c x w : F64} (ha : a (.word c)) (hb : b (.word x)) (hz : z (.word w)) :
    (bySector h a b z).1 (.word (bySector h c x w).1) ∧ (bySector h a b z).2.1 (.word (bySector h c x w).2.1) ∧
    (bySector h a b z).2.2 (.word (bySector h c x w).2.2) := by
  unfold bySector
  split_ifs <;> exact ⟨by assumption, by assumption, by assumption⟩

theorem sep_heat (I : Impl) {p : Inter → Prop} {x : F64} (hp : p (.word x)) : permittedHeatColor I p (heatColor I x) := by
  have hl := sep_limited hp
  unfold permittedHeatColor heatColor
  simp only
  generalize (if Fl.lt (Fl.lit f64 1) x = true then Fl.lit f64 1 else x) = y at hl ⊢
  have hh := sep_over (sep_rem (sep_plus (sep_minus (sep_num 360) (sep_times (sep_num 330) hl)) (sep_num 240)) (sep_num 360)) (sep_num 60)
  have ll := sep_plus (sep_times (sep_num (1 / 2)) hl) (sep_num (1 / 4))
  have cc := sep_times (sep_minus (sep_num 1) (sep_abs (sep_minus (sep_times (sep_num 2) ll) (sep_num 1)))) (sep_num 1)
  have xx := sep_times cc (sep_minus (sep_num 1) (sep_abs (sep_minus (sep_rem hh (sep_num 2)) (sep_num 1))))
  have mm := sep_minus ll (sep_over cc (sep_num 2))
  refine ⟨_, _, hh, rfl, ?_⟩
  simp only [and_true]
  obtain ⟨k1, k2, k3⟩ := sep_sector (Fl.toInt I.int (if Fl.div (Fl.fmod (Fl.add (Fl.sub (Fl.lit f64 360) (Fl.mul (Fl.lit f64 330) y))
    (Fl.lit f64 240)) (Fl.lit f64 360)) (Fl.lit f64 60) = .nan then Fl.lit f64 (-1) else Fl.div (Fl.fmod (Fl.add (Fl.sub (Fl.lit f64 360)
    (Fl.mul (Fl.lit f64 330) y)) (Fl.lit f64 240)) (Fl.lit f64 360)) (Fl.lit f64 60))) cc xx (sep_num 0)
  exact ⟨sep_byte (sep_times (sep_num 255) (sep_plus k1 mm)), sep_byte (sep_times (sep_num 255) (sep_plus k2 mm)),
    sep_byte (sep_times (sep_num 255) (sep_plus k3 mm))⟩

theorem sep_heatmap (I : Impl) (min max : F64) (comp : F64 → F64) (v : F64) :
    permittedHeatmap I min max comp v (Heatmap I min max comp v) := by
  unfold permittedHeatmap Heatmap
  simp only
  split
  · rfl
  · exact sep_heat I (sep_over (sep_minus rfl rfl) (sep_minus rfl rfl))

theorem sep_graymap (I : Impl) (min max : F64) (comp : F64 → F64) (v : F64) :
    permittedGraymap I min max comp v (Graymap I min max comp v) := by
  unfold permittedGraymap Graymap
  simp only
  split
  · rfl
  · exact ⟨_, sep_byte (sep_times (sep_num 255) (sep_limited (sep_over (sep_minus rfl rfl) (sep_minus rfl rfl)))), rfl⟩

theorem sep_radialmap (I : Impl) (min max : F64) (comp : F64 → F64) (v : F64) :
    permittedRadialmap I min max comp v (Radialmap I min max comp v) := by
  unfold permittedRadialmap Radialmap
  simp only
  split
  · rfl
  · by_cases h : Fl.le (Fl.abs v) (Fl.lit f64 1) = true
    · simp only [if_pos h]
      exact ⟨_, _, ⟨rfl, rfl⟩, rfl⟩
    · simp only [if_neg h]
      exact ⟨_, _, ⟨rfl, sep_byte (sep_times (sep_num 255) (sep_limited (sep_over rfl rfl)))⟩, rfl⟩

/-- C82. The colour the model computes, with every operation rounded, is one of the permitted ones, for all composites and
all values, on every implementation. -/
theorem C82_separate_rounding (I : Impl) (L : MathLib) {c : Composite} {f : ColorFunc} (h : Cli.colorFunc I L c = some f) (v : F64) :
    permittedColor I L c v (f v) := by
  unfold Cli.colorFunc at h
  unfold permittedColor
  simp only at h ⊢
  have hh : Cli.hour = 3600 * 10 ^ 9 := rfl
  split at h
  · rename_i h1
    cases h
    rw [if_pos h1]
    rw [hh, show (3600 * 10 ^ 9 * 24 * 7 : Int) = 7 * 24 * (3600 * 10 ^ 9) by norm_num]
    exact sep_heatmap I _ _ _ v
  rename_i h1
  rw [if_neg h1]
  split at h
  · rename_i h2
    cases h
    rw [if_pos h2]; exact sep_heatmap I _ _ _ v
  rename_i h2
  rw [if_neg h2]
  split at h
  · rename_i h3
    cases h
    rw [if_pos h3]; exact sep_graymap I _ _ _ v
  rename_i h3
  rw [if_neg h3]
  split at h
  · rename_i h4
    cases h
    exact ⟨h4, sep_radialmap I _ _ _ v⟩
  · simp at h

/-- C82. In particular both a multiply-add with a single rounding and separate roundings are among the permitted results of
`0.5*p + 0.25`, the lightness. -/
theorem C82_multiply_add {p : F64} (hp : p.isFin = true) (neg : Bool) :
    plus (times (num (1 / 2)) (just p)) (num (1 / 4)) (.word (Fl.mk f64 neg (1 / 2 * p.val + 1 / 4))) ∧
    plus (times (num (1 / 2)) (just p)) (num (1 / 4)) (.word (Fl.add (Fl.mul (Fl.lit f64 (1 / 2)) p) (Fl.lit f64 (1 / 4)))) := by
  have h1 : (Fl.lit f64 (1 / 2)).isFin = true ∧ (Fl.lit f64 (1 / 2)).val = 1 / 2 := by decide +kernel
  have h2 : (Fl.lit f64 (1 / 4)).isFin = true ∧ (Fl.lit f64 (1 / 4)).val = 1 / 4 := by decide +kernel
  refine ⟨⟨.exact (1 / 2 * p.val), _, ⟨_, _, rfl, rfl, .kept ⟨h1.1, h1.2.symm⟩ ⟨hp, rfl⟩ trivial⟩, rfl, ?_⟩,
    sep_plus (sep_times (sep_num _) rfl) (sep_num _)⟩
  exact .fused (p := 1 / 2 * p.val) (q := 1 / 4) neg rfl ⟨h2.1, h2.2.symm⟩ trivial

/-! ### reflectivity -/

theorem fused_below {I : Impl} {min max : F64} {comp : F64 → F64} {v : F64} {col : RGBA} (h : permittedHeatmap I min max comp v col)
    (hv : Fl.lt (comp v) (comp min) = true) : col = ⟨0, 0, 0, 255⟩ := by
  unfold permittedHeatmap at h
  rwa [if_pos hv] at h

theorem fused_above {I : Impl} {min max : F64} {comp : F64 → F64} {v : F64} {col : RGBA} (h : permittedHeatmap I min max comp v col)
    (hv : Fl.le (comp min) (comp v) = true) {r : ℝ} (hr : 0 ≤ r ∧ r ≤ 1)
    (hp : SetAp (limited (over (minus (just (comp v)) (just (comp min))) (minus (just (comp max)) (just (comp min))))) r (1 / 10 ^ 12)) :
    IsHeat col r := by
  unfold permittedHeatmap at h
  rw [if_neg (by rw [not_lt_of_le hv]; simp)] at h
  exact heatColor_limited hr hp h

theorem lit_ap {q : ℚ} (h : IsRep f64 q) : SetAp (just (Fl.lit f64 q)) q 0 := num_ap h

/-- the position of a value in a linear gradient -/
theorem linear_position {a b : ℚ} (ha : IsRep f64 a) (hb : IsRep f64 b) (hab : 1 ≤ b - a) (hbig : b - a ≤ 1000)
    {v : F64} (hv : v.isFin = true) (h1 : a ≤ v.val) (hmax : v.val ≤ 10 ^ 40) (ha0 : -1000 ≤ a) :
    SetAp (limited (over (minus (just v) (just (Fl.lit f64 a))) (minus (just (Fl.lit f64 b)) (just (Fl.lit f64 a)))))
      (min 1 (((v.val : ℝ) - a) / (b - a))) (1 / 10 ^ 12) := by
  have h1r : (a : ℝ) ≤ v.val := by exact_mod_cast h1
  have habr : (1 : ℝ) ≤ (b : ℝ) - a := by exact_mod_cast hab
  have hbigr : (b : ℝ) - a ≤ 1000 := by exact_mod_cast hbig
  have hmaxr : (v.val : ℝ) ≤ 10 ^ 40 := by
    have := (Rat.cast_le (K := ℝ)).mpr hmax; push_cast at this; exact this
  have ha0r : (-1000 : ℝ) ≤ a := by
    have := (Rat.cast_le (K := ℝ)).mpr ha0; push_cast at this; exact this
  have v0 := just_ap (Fl.Ap.exact hv)
  have a0 := lit_ap ha
  have b0 := lit_ap hb
  have w := minus_ap (M := (b : ℝ) - a) (t := ((b : ℝ) - a) * (12 / 10 ^ 17)) b0 a0 (by rw [abs_of_nonneg (by linarith)]; linarith)
    (by norm_num; linarith) (by norm_num; linarith) (by linarith)
  generalize hW : (b : ℝ) - a = W at *
  generalize hD : (v.val : ℝ) - a = D at *
  have hD0 : 0 ≤ D := by linarith
  have hW0 : 0 < W := by linarith
  rcases le_total D W with hl | hl
  · have hr : D / W ≤ 1 := by rw [div_le_one hW0]; exact hl
    rw [min_eq_right hr]
    refine limited_ap hr ?_
    have s := minus_ap (M := 2 * W) (t := W * (24 / 10 ^ 17)) v0 a0 (by rw [hD, abs_of_nonneg hD0]; linarith) (by norm_num; linarith)
      (by norm_num; linarith) (by linarith)
    rw [hD] at s
    refine over_ap (m := W / 2) (q := 1) (e := 1 / 10 ^ 14) s w (by linarith) (by rw [abs_of_pos hW0]; norm_num; linarith)
      (by rw [abs_of_nonneg hD0, abs_of_pos hW0]; linarith) ?_ (by norm_num) (by norm_num) (by norm_num)
    rw [div_le_iff₀ (by linarith)]; norm_num; linarith
  · have hr : 1 ≤ D / W := by rw [le_div_iff₀ hW0]; linarith
    rw [min_eq_left hr]
    have s := minus_ap (M := 2 * D) (t := D * (24 / 10 ^ 17)) v0 a0 (by rw [hD, abs_of_nonneg hD0]; linarith) (by norm_num; linarith)
      (by norm_num; norm_num at hmaxr; linarith) (by linarith)
    rw [hD] at s
    have hDW : D / W * W = D := by field_simp
    have hDW2 : D / W ≤ D := by rw [div_le_iff₀ hW0]; nlinarith
    have k := over_ap (m := W / 2) (q := D / W) (e := D / W * (1 / 10 ^ 14)) (t := 1 / 10 ^ 13 * (D / W)) s w (by linarith)
      (by rw [abs_of_pos hW0]; norm_num; linarith) (by rw [abs_of_nonneg hD0, abs_of_pos hW0, hDW]) (by
        rw [div_le_iff₀ (by linarith), show D / W * (W * (12 / 10 ^ 17)) = D * (12 / 10 ^ 17) by rw [← mul_assoc, hDW],
          show D / W * (1 / 10 ^ 14) * (W / 2) = D * (1 / 10 ^ 14 / 2) by
            rw [show D / W * (1 / 10 ^ 14) * (W / 2) = D / W * W * (1 / 10 ^ 14 / 2) by ring, hDW]]
        norm_num; linarith) (by norm_num; norm_num at hr; linarith) (by norm_num; norm_num at hmaxr; linarith) (by norm_num; linarith)
    exact SetAp.mono (limited_high k hr le_rfl (by norm_num)) (by norm_num)

theorem f32_lt {v : F32} : |v.val| < pow2 128 := by
  cases v with
  | fin q h => exact h.2
  | _ => simp [Fl.val, pow2_pos]

theorem f32_max {v : F32} : |v.val| ≤ 10 ^ 40 := by
  have e : pow2 128 ≤ 10 ^ 40 := by rw [pow2_eq]; norm_num
  have := f32_lt (v := v)
  linarith

/-- C82. Reflectivity images, under every permitted evaluation: black below 1 dBZ; the colour at the position
(v - 1) / 74 of the gradient from 1 to 75 dBZ; the colour at the end of the gradient above. -/
theorem C82_reflectivity {E : Env} {input : Bytes} {c : Composite} (h : NewComposite E input = .ret c none)
    (hc : c.product ∈ productsIn .dBZ) (L : MathLib) (I : Impl) (v : F32) (col : RGBA)
    (hp : permittedColor I L c (v.conv f64) col) :
    (Below v 1 → col = ⟨0, 0, 0, 255⟩) ∧
    (v.isFin = true → 1 ≤ v.val → v.val ≤ 75 → IsHeat col ((v.val - 1) / 74)) ∧
    (v.isFin = true → 75 ≤ v.val → IsHeat col 1) := by
  obtain ⟨_, _, hu, _⟩ := (C25_product_unit E input c).1 (Or.inl h)
  replace hu := hu _ hc rfl
  unfold permittedColor at hp
  rw [hu, if_neg (by decide), if_pos rfl] at hp
  obtain ⟨a1, a2, b1, b2⟩ := refl_facts
  have key : v.isFin = true → 1 ≤ v.val → IsHeat col (min 1 ((v.val - 1) / 74)) := by
    intro hv h1
    obtain ⟨e1, e2⟩ := conv_exact hv
    have k := linear_position (a := 1) (b := 75) (by decide +kernel) (by decide +kernel) (by norm_num) (by norm_num) e1 (by rw [e2]; exact h1)
      (by rw [e2]; exact (le_abs_self _).trans f32_max) (by norm_num)
    have h1r : (1 : ℝ) ≤ v.val := by exact_mod_cast h1
    rw [e2] at k
    push_cast at k
    rw [show (75 - 1 : ℝ) = 74 by norm_num] at k
    exact fused_above hp ((Fl.le_fin a1 e1).mpr (by show _ ≤ (v.conv f64).val; rw [a2, e2]; exact h1))
      ⟨le_min zero_le_one (by apply div_nonneg <;> linarith), min_le_left _ _⟩ k
  refine ⟨fun hb => fused_below hp (conv_lt a1 a2 hb), fun hv h1 h2 => ?_, fun hv h2 => ?_⟩
  · have := key hv h1
    have h2r : (v.val : ℝ) ≤ 75 := by exact_mod_cast h2
    rwa [min_eq_right (by rw [div_le_one (by norm_num)]; linarith)] at this
  · have := key hv (by linarith)
    have h2r : (75 : ℝ) ≤ v.val := by exact_mod_cast h2
    rwa [min_eq_left (by rw [le_div_iff₀ (by norm_num)]; linarith)] at this

/-! ### precipitation -/

/-- the position of an amount in a logarithmic gradient from 0.1 -/
theorem log_position {L : MathLib} (hL : AccurateLog L) {Q : ℚ} (hq : Q = 100 ∨ Q = 200 ∨ Q = 400) {v : F64}
    (hv : v.isFin = true) (h1 : (Fl.lit f64 (1 / 10)).val * (1 + 1 / 10 ^ 9) ≤ v.val) (hmax : v.val ≤ pow2 128) :
    SetAp (limited (over (minus (just (L.log v)) (just (L.log (Fl.lit f64 (1 / 10)))))
      (minus (just (L.log (Fl.lit f64 Q))) (just (L.log (Fl.lit f64 (1 / 10)))))))
      (min 1 (Real.log (v.val / (1 / 10)) / Real.log (Q / (1 / 10)))) (1 / 10 ^ 12) := by
  obtain ⟨u1, u2, u3, h1r, hQ1, l0, l1, l6, l400⟩ := log_facts hL hq hv h1
  have lmax : Real.log v.val ≤ 128 := by
    have h2 := (Rat.cast_le (K := ℝ)).mpr hmax
    rw [Fl.pow2_real] at h2
    have h3 := Real.log_le_log (by linarith) h2
    rw [show ((2 : ℝ) ^ (128 : Int)) = 2 ^ (128 : ℕ) by norm_cast, Real.log_pow] at h3
    have := Real.log_le_sub_one_of_pos (x := 2) (by norm_num)
    push_cast at h3
    linarith
  rw [Real.log_div (x := (v.val : ℝ)) (y := 1 / 10) (by linarith) (by norm_num),
    Real.log_div (x := (Q : ℝ)) (y := 1 / 10) (by linarith) (by norm_num)]
  have lten : -10 ≤ Real.log (1 / 10) := by
    have := Real.one_sub_inv_le_log_of_pos (x := (1 / 10 : ℝ)) (by norm_num)
    norm_num at this ⊢; linarith
  generalize Real.log (1 / 10) = T at *
  generalize Real.log (v.val : ℝ) = A at *
  generalize Real.log (Q : ℝ) = B at *
  have s1 := minus_ap (M := 4001) (t := 27 / 10 ^ 13) (just_ap u1) (just_ap u3) (by rw [abs_of_nonneg (by linarith)]; norm_num; linarith)
    (by norm_num) (by norm_num) (by norm_num)
  have s2 := minus_ap (M := 4001) (t := 27 / 10 ^ 13) (just_ap u2) (just_ap u3) (by rw [abs_of_nonneg (by linarith)]; norm_num; linarith)
    (by norm_num) (by norm_num) (by norm_num)
  generalize hD : A - T = D at *
  generalize hW : B - T = W at *
  have hD0 : 0 ≤ D := by linarith
  have hW0 : 0 < W := by linarith
  rcases le_total D W with hl | hl
  · have hr : D / W ≤ 1 := by rw [div_le_one hW0]; exact hl
    rw [min_eq_right hr]
    exact limited_ap hr (over_ap (m := 59 / 10) (q := 1) (e := 95 / 10 ^ 14) s1 s2 (by norm_num)
      (by rw [abs_of_nonneg (by linarith)]; linarith [(by norm_num : (59 / 10 + 27 / 10 ^ 13 : ℝ) ≤ 6)])
      (by rw [abs_of_nonneg (by linarith), abs_of_nonneg (by linarith)]; linarith) (by norm_num) (by norm_num) (by norm_num)
      (by norm_num))
  · have hr : 1 ≤ D / W := by rw [le_div_iff₀ hW0]; linarith
    rw [min_eq_left hr]
    have hDW : D / W * W = D := by field_simp
    have hDW2 : D / W ≤ D := by rw [div_le_iff₀ hW0]; nlinarith
    have k := over_ap (m := 59 / 10) (q := D / W) (e := D / W * (95 / 10 ^ 14)) (t := 96 / 10 ^ 14 * (D / W)) s1 s2 (by norm_num)
      (by rw [abs_of_pos hW0]; linarith [(by norm_num : (59 / 10 + 27 / 10 ^ 13 : ℝ) ≤ 6)])
      (by rw [abs_of_nonneg hD0, abs_of_pos hW0, hDW]) (by
        rw [div_le_iff₀ (by norm_num)]
        norm_num; linarith) (by norm_num; norm_num at hr; linarith) (by norm_num; linarith) (by norm_num; linarith)
    exact SetAp.mono (limited_high k hr le_rfl (by norm_num)) (by norm_num)

/-- C82. Precipitation images, under every permitted evaluation: black below 0.1 mm; the colour at the position
log(v / 0.1) / log(max / 0.1) of the gradient up to the maximum (100 mm, 200 mm or 400 mm by interval); the colour at the
end of the gradient above. -/
theorem C82_rain {L : MathLib} (hL : AccurateLog L) {E : Env} {input : Bytes} {c : Composite}
    (h : NewComposite E input = .ret c none) (hc : c.product ∈ productsIn .mm) (I : Impl) (v : F32) (col : RGBA)
    (hp : permittedColor I L c (v.conv f64) col) :
    (v.isFin = true → 0 ≤ v.val → v.val < 1 / 10 → col = ⟨0, 0, 0, 255⟩) ∧
    (v.isFin = true → 1 / 10 ≤ v.val → v.val ≤ rainMax c.interval →
      IsHeat col (Real.log (v.val / (1 / 10)) / Real.log (rainMax c.interval / (1 / 10)))) ∧
    (v.isFin = true → rainMax c.interval ≤ v.val → IsHeat col 1) := by
  obtain ⟨_, hu, _⟩ := (C25_product_unit E input c).1 (Or.inl h)
  replace hu := hu _ hc rfl
  unfold permittedColor at hp
  rw [hu, if_pos rfl] at hp
  simp only at hp
  rw [show (if (7 * 24 * (3600 * 10 ^ 9) : Int) ≤ c.interval then (400 : ℚ) else if c.interval ≤ 3600 * 10 ^ 9 then 100 else 200) =
      rainMax c.interval by
    unfold rainMax
    split_ifs <;> first | rfl | omega] at hp
  have hq := rainMax_cases c.interval
  generalize rainMax c.interval = Q at hp hq ⊢
  have hQ : 100 ≤ Q ∧ Q ≤ 400 := by rcases hq with e | e | e <;> rw [e] <;> norm_num
  obtain ⟨t1, t2, t3, t4⟩ := tenth_facts
  have key : v.isFin = true → 1 / 10 ≤ v.val → IsHeat col (min 1 (Real.log (v.val / (1 / 10)) / Real.log (Q / (1 / 10)))) := by
    intro hv h1
    obtain ⟨e1, e2⟩ := conv_exact hv
    have h1' := t3.trans (f32_tenth_ge h1)
    have k := log_position hL hq e1 (by rw [e2]; exact h1') (by rw [e2]; exact (le_abs_self _).trans f32_lt.le)
    rw [e2] at k
    obtain ⟨f1, f2, h3⟩ := log_lt hL t1 e1 t2 (by rw [e2]; exact h1')
    have h1r : (1 / 10 : ℝ) ≤ v.val := by have := (Rat.cast_le (K := ℝ)).mpr h1; push_cast at this; exact this
    have hQr : (100 : ℝ) ≤ Q := by exact_mod_cast hQ.1
    refine fused_above hp ((Fl.le_fin f1 f2).mpr h3.le) ⟨le_min zero_le_one (div_nonneg (Real.log_nonneg ?_) (Real.log_nonneg ?_)), min_le_left _ _⟩ k
    · rw [le_div_iff₀ (by norm_num)]; linarith
    · rw [le_div_iff₀ (by norm_num)]; linarith
  have hQr : (100 : ℝ) ≤ Q := by exact_mod_cast hQ.1
  have hlog : 0 < Real.log (Q / (1 / 10)) := Real.log_pos (by rw [lt_div_iff₀ (by norm_num)]; linarith)
  refine ⟨fun hv h0 h1 => ?_, fun hv h1 h2 => ?_, fun hv h2 => ?_⟩
  · obtain ⟨e1, e2⟩ := conv_exact hv
    refine fused_below hp ?_
    rcases h0.eq_or_lt with h0 | h0
    · rw [hL.zero _ e1 (by rw [e2]; exact h0.symm)]
      exact (inf_lt (rain_bounds hL hq).lo).1
    · have := f32_tenth_lt h1
      obtain ⟨f1, f2, h3⟩ := log_lt hL e1 t1 (by rw [e2]; exact h0) (by rw [e2]; linarith)
      rw [Fl.lt_fin f1 f2, decide_eq_true_iff]; exact h3
  · have := key hv h1
    have h1r : (1 / 10 : ℝ) ≤ v.val := by have := (Rat.cast_le (K := ℝ)).mpr h1; push_cast at this; exact this
    have h2r : (v.val : ℝ) ≤ Q := by exact_mod_cast h2
    rwa [min_eq_right (by
      rw [div_le_one hlog]
      exact Real.log_le_log (by apply div_pos <;> linarith) (by linarith))] at this
  · have := key hv (by linarith)
    have h2r : (Q : ℝ) ≤ v.val := by exact_mod_cast h2
    rwa [min_eq_left (by
      rw [le_div_iff₀ hlog, one_mul]
      exact Real.log_le_log (by apply div_pos <;> linarith) (by linarith))] at this

/-! ### echo tops and velocities -/

theorem byte_limited {I : Impl} {a : Inter → Prop} {l : UInt8} {z : ℝ} (h : SetAp (limited a) z (2 / 10 ^ 11)) (hz : 0 ≤ z ∧ z ≤ 1)
    (hl : toByte I (times (num 255) (limited a)) l) : Brightness l z := by
  have n255 := num_ap (q := 255) (by decide +kernel)
  push_cast at n255
  have k := times_ap (B := 255) (C := 1) (e := 255 * (2 / 10 ^ 11)) (t := 256 * (2 / 10 ^ 11)) n255 h (by norm_num) (abs_le.mpr ⟨by linarith [hz.1], hz.2⟩)
    (by norm_num) (by norm_num) (by norm_num) (by norm_num)
  exact toByte_of k hl hz (by rw [sub_self, abs_zero]; norm_num)

/-- C82. Echo top images, under every permitted evaluation: grays of the brightness v / 15 km from 0 km on, at most white;
black below. -/
theorem C82_echo_tops {E : Env} {input : Bytes} {c : Composite} (h : NewComposite E input = .ret c none)
    (hc : c.product ∈ productsIn .km) (L : MathLib) (I : Impl) (v : F32) (col : RGBA)
    (hp : permittedColor I L c (v.conv f64) col) :
    (Below v 0 → col = ⟨0, 0, 0, 255⟩) ∧
    (v.isFin = true → 0 ≤ v.val → ∃ l, col = ⟨l, l, l, 255⟩ ∧ Brightness l (min 1 (v.val / 15))) := by
  obtain ⟨_, _, _, hu, _⟩ := (C25_product_unit E input c).1 (Or.inl h)
  replace hu := hu _ hc rfl
  unfold permittedColor at hp
  rw [hu, if_neg (by decide), if_neg (by decide), if_pos rfl] at hp
  have h00 : (Fl.lit f64 0).isFin = true ∧ (Fl.lit f64 0).val = 0 := by decide +kernel
  unfold permittedGraymap at hp
  refine ⟨fun hb => ?_, fun hv h0 => ?_⟩
  · rwa [if_pos (show Fl.lt (id (v.conv f64)) (id (Fl.lit f64 0)) = true from conv_lt h00.1 h00.2 hb)] at hp
  · obtain ⟨e1, e2⟩ := conv_exact hv
    have hle : Fl.le (Fl.lit f64 0) (v.conv f64) = true := (Fl.le_fin h00.1 e1).mpr (by rw [e2, h00.2]; exact h0)
    rw [if_neg (by show ¬ Fl.lt (v.conv f64) (Fl.lit f64 0) = true; rw [not_lt_of_le hle]; simp)] at hp
    obtain ⟨l, hl, rfl⟩ := hp
    refine ⟨l, rfl, ?_⟩
    have k := linear_position (a := 0) (b := 15) (by decide +kernel) (by decide +kernel) (by norm_num) (by norm_num) e1 (by rw [e2]; exact h0)
      (by rw [e2]; exact (le_abs_self _).trans f32_max) (by norm_num)
    have h0r : (0 : ℝ) ≤ v.val := by exact_mod_cast h0
    rw [e2] at k
    push_cast at k
    rw [sub_zero, sub_zero] at k
    exact byte_limited (SetAp.mono k (by norm_num)) ⟨le_min zero_le_one (by apply div_nonneg <;> linarith), min_le_left _ _⟩ hl

/-- C82. Velocity images, under every permitted evaluation: missing values black; up to 1 m/s pale red and pale cyan; above,
red for positive and cyan for negative velocities with the brightness log|v| / log 31.5, at most full. -/
theorem C82_velocity {L : MathLib} (hL : AccurateLog L) {E : Env} {input : Bytes} {c : Composite} (h : NewComposite E input = .ret c none)
    (hc : c.product ∈ productsIn .mps) (I : Impl) (v : F32) (col : RGBA) (hp : permittedColor I L c (v.conv f64) col) :
    (v = .nan → col = ⟨0, 0, 0, 255⟩) ∧
    (v.isFin = true → 0 ≤ v.val → v.val ≤ 1 → col = ⟨255, 204, 204, 255⟩) ∧
    (v.isFin = true → v.val < 0 → -1 ≤ v.val → col = ⟨204, 255, 255, 255⟩) ∧
    (v.isFin = true → 1 < v.val → ∃ l, col = ⟨l, 0, 0, 255⟩ ∧ Brightness l (min 1 (Real.log v.val / Real.log (63 / 2)))) ∧
    (v.isFin = true → v.val < -1 → ∃ l, col = ⟨0, l, l, 255⟩ ∧ Brightness l (min 1 (Real.log (-v.val) / Real.log (63 / 2)))) := by
  obtain ⟨_, _, _, _, hu, _⟩ := (C25_product_unit E input c).1 (Or.inl h)
  replace hu := hu _ hc rfl
  unfold permittedColor at hp
  rw [hu, if_neg (by decide), if_neg (by decide), if_neg (by decide)] at hp
  replace hp := hp.2
  obtain ⟨o1, o2, o3, m1, m2, m3, hbase, z1, z2⟩ := one_facts
  unfold permittedRadialmap at hp
  rw [hbase] at hp
  have hself : v.isFin = true → (!(Fl.beq (v.conv f64) (v.conv f64))) = false := by
    intro hv
    rw [(Fl.beq_self _).mpr (Fl.isFin_ne_nan (conv_exact hv).1)]; rfl
  have hle : v.isFin = true → Fl.le (Fl.abs (v.conv f64)) (Fl.lit f64 1) = decide (|v.val| ≤ 1) := by
    intro hv
    obtain ⟨e1, e2⟩ := conv_abs hv
    rw [Bool.eq_iff_iff, Fl.le_fin e1 o1, e2, o2, decide_eq_true_iff]
  have hlt : v.isFin = true → Fl.lt (v.conv f64) (Fl.lit f64 0) = decide (v.val < 0) := by
    intro hv
    obtain ⟨e1, e2⟩ := conv_exact hv
    rw [Fl.lt_fin e1 z1, e2, z2]
  have key : v.isFin = true → 1 < |v.val| → ∀ l, toByte I (times (num 255) (limited (over (just (L.log (Fl.abs (v.conv f64))))
      (just (L.log (Fl.lit f64 (63 / 2))))))) l → Brightness l (min 1 (Real.log ((|v.val| : ℚ) : ℝ) / Real.log (63 / 2))) := by
    intro hv h1 l hl
    obtain ⟨e1, e2⟩ := conv_abs hv
    have h1r : (1 : ℝ) < ((|v.val| : ℚ) : ℝ) := by exact_mod_cast h1
    have p1 := hL.log _ e1 (by rw [e2]; linarith)
    rw [e2] at p1
    have p2 := hL.log _ m1 (by rw [m2]; norm_num)
    rw [m2, show (((63 / 2 : ℚ)) : ℝ) = 63 / 2 by norm_num] at p2
    have l0 : 0 ≤ Real.log ((|v.val| : ℚ) : ℝ) := Real.log_nonneg h1r.le
    have lmax : Real.log ((|v.val| : ℚ) : ℝ) ≤ 128 := by
      have h2 := (Rat.cast_le (K := ℝ)).mpr (f32_lt (v := v)).le
      rw [Fl.pow2_real] at h2
      have h3 := Real.log_le_log (by linarith) h2
      rw [show ((2 : ℝ) ^ (128 : Int)) = 2 ^ (128 : ℕ) by norm_cast, Real.log_pow] at h3
      have := Real.log_le_sub_one_of_pos (x := 2) (by norm_num)
      push_cast at h3
      push_cast
      linarith
    have l2 : 1 - (63 / 2 : ℝ)⁻¹ ≤ Real.log (63 / 2) := Real.one_sub_inv_le_log_of_pos (by norm_num)
    have l3 : (9 / 10 : ℝ) ≤ 1 - (63 / 2 : ℝ)⁻¹ := by norm_num
    replace l3 := l3.trans l2
    clear l2
    generalize Real.log ((|v.val| : ℚ) : ℝ) = D at *
    generalize Real.log (63 / 2) = W at *
    have hW0 : 0 < W := by linarith
    have hz : 0 ≤ min 1 (D / W) ∧ min 1 (D / W) ≤ 1 := ⟨le_min zero_le_one (div_nonneg l0 hW0.le), min_le_left _ _⟩
    refine byte_limited ?_ hz hl
    rcases le_total D W with hle | hle
    · have hr : D / W ≤ 1 := by rw [div_le_one hW0]; exact hle
      rw [min_eq_right hr]
      exact limited_ap hr (over_ap (m := 1 / 2) (q := 1) (e := 4 / 10 ^ 12) (just_ap p1) (just_ap p2) (by norm_num)
        (by rw [abs_of_pos hW0]; linarith [(by norm_num : (1 / 2 + 1 / 10 ^ 12 : ℝ) ≤ 9 / 10)])
        (by rw [abs_of_nonneg l0, abs_of_pos hW0]; linarith) (by norm_num) (by norm_num) (by norm_num) (by norm_num))
    · have hr : 1 ≤ D / W := by rw [le_div_iff₀ hW0]; linarith
      rw [min_eq_left hr]
      have hDW : D / W * W = D := by field_simp
      have hDW2 : D / W ≤ 1000 := by rw [div_le_iff₀ hW0]; linarith
      have k := over_ap (m := 1 / 2) (q := D / W) (e := D / W * (4 / 10 ^ 12)) (t := 5 / 10 ^ 12 * (D / W)) (just_ap p1) (just_ap p2) (by norm_num)
        (by rw [abs_of_pos hW0]; linarith [(by norm_num : (1 / 2 + 1 / 10 ^ 12 : ℝ) ≤ 9 / 10)])
        (by rw [abs_of_nonneg l0, abs_of_pos hW0, hDW]) (by
          rw [div_le_iff₀ (by norm_num)]
          norm_num; linarith) (by norm_num; norm_num at hr; linarith) (by norm_num; linarith) (by norm_num; linarith)
      exact SetAp.mono (limited_high k hr le_rfl (by norm_num)) (by norm_num)
  refine ⟨?_, fun hv h0 h1 => ?_, fun hv h0 h1 => ?_, fun hv h1 => ?_, fun hv h1 => ?_⟩
  · rintro rfl
    rwa [if_pos (show (!(Fl.beq ((.nan : F32).conv f64) ((.nan : F32).conv f64))) = true from rfl)] at hp
  · rw [if_neg (by rw [hself hv]; simp)] at hp
    obtain ⟨lev, non, hx, rfl⟩ := hp
    rw [hle hv, if_pos (by simpa [abs_of_nonneg h0] using h1)] at hx
    rw [hlt hv, if_neg (by simpa using h0), hx.1, hx.2]
  · rw [if_neg (by rw [hself hv]; simp)] at hp
    obtain ⟨lev, non, hx, rfl⟩ := hp
    rw [hle hv, if_pos (by rw [decide_eq_true_iff, abs_of_neg h0]; linarith)] at hx
    rw [hlt hv, if_pos (by simpa using h0), hx.1, hx.2]
  · have habs : |v.val| = v.val := abs_of_pos (by linarith)
    rw [if_neg (by rw [hself hv]; simp)] at hp
    obtain ⟨lev, non, hx, rfl⟩ := hp
    rw [hle hv, if_neg (by rw [decide_eq_true_iff, habs]; linarith)] at hx
    refine ⟨lev, by rw [hlt hv, if_neg (by rw [decide_eq_true_iff]; linarith), hx.1], ?_⟩
    have := key hv (by rw [habs]; exact h1) _ hx.2
    rwa [habs] at this
  · have habs : |v.val| = -v.val := abs_of_neg (by linarith)
    rw [if_neg (by rw [hself hv]; simp)] at hp
    obtain ⟨lev, non, hx, rfl⟩ := hp
    rw [hle hv, if_neg (by rw [decide_eq_true_iff, habs]; linarith)] at hx
    refine ⟨lev, by rw [hlt hv, if_pos (by rw [decide_eq_true_iff]; linarith), hx.1], ?_⟩
    have := key hv (by rw [habs]; linarith) _ hx.2
    rw [habs] at this
    push_cast at this
    exact this

/-- some colour is permitted for 38 dBZ, and every permitted one is 3/4 red, full green, no blue -/
example (I : Impl) : ∃ c, NewComposite env0 sampleRX = .ret c none ∧
    (∃ col, permittedColor I logMath c ((Fl.lit f32 38).conv f64) col) ∧
    ∀ col, permittedColor I logMath c ((Fl.lit f32 38).conv f64) col → IsHeat col (1 / 2) := by
  obtain ⟨c, h, hp⟩ := parsesWith (b := sampleRX) (p := fun c => c.product == str "RX") (by decide +kernel)
  simp only [beq_iff_eq] at hp
  obtain ⟨f, hf, _⟩ := C65_reflectivity h (by rw [hp]; decide) logMath I
  refine ⟨c, h, ⟨_, C82_separate_rounding I logMath hf _⟩, fun col hcol => ?_⟩
  have v1 : (Fl.lit f32 38).isFin = true ∧ (Fl.lit f32 38).val = 38 := by decide +kernel
  have := (C82_reflectivity h (by rw [hp]; decide) logMath I _ col hcol).2.1 v1.1 (by rw [v1.2]; norm_num) (by rw [v1.2]; norm_num)
  rw [v1.2] at this
  norm_num at this
  norm_num
  exact this

/-- the velocity -10 m/s -/
example : ∃ c, NewComposite env0 (str "PV021310100000217BY  1LV 2-10.0 20.0BG002004" ++ [3] ++
      [1, 17, 0x21, 0x12, 10, 2, 16, 0x4F, 10]) = .ret c none ∧
    (∃ col, permittedColor impl0 logMath c ((Fl.lit f32 (-10)).conv f64) col) ∧
    ∀ col, permittedColor impl0 logMath c ((Fl.lit f32 (-10)).conv f64) col →
      ∃ l, col = ⟨0, l, l, 255⟩ ∧ Brightness l (min 1 (Real.log 10 / Real.log (63 / 2))) := by
  obtain ⟨c, h, hp⟩ := parsesWith (b := str "PV021310100000217BY  1LV 2-10.0 20.0BG002004" ++ [3] ++
      [1, 17, 0x21, 0x12, 10, 2, 16, 0x4F, 10]) (p := fun c => c.product == str "PV") (by decide +kernel)
  simp only [beq_iff_eq] at hp
  have hc : c.product ∈ productsIn .mps := by rw [hp]; decide
  obtain ⟨f, hf, _⟩ := C64_velocity logMath_accurate h hc
  refine ⟨c, h, ⟨_, C82_separate_rounding impl0 logMath (hf impl0) _⟩, fun col hcol => ?_⟩
  have v1 : (Fl.lit f32 (-10)).isFin = true ∧ (Fl.lit f32 (-10)).val = -10 := by decide +kernel
  obtain ⟨l, h1, h2⟩ := (C82_velocity logMath_accurate h hc impl0 _ col hcol).2.2.2.2 v1.1 (by rw [v1.2]; norm_num)
  rw [v1.2] at h2
  refine ⟨l, h1, ?_⟩
  push_cast at h2
  rwa [neg_neg] at h2

end Props
