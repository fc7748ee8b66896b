/- Missing values and values at or beyond the end of a gradient, under every permitted evaluation. -/
import Verif.Lemmas.FusedLinear

namespace Props
open Go Radolan Radolan.Vis Radolan.Fusion Spec Spec.Fusion

/-- a float32 beyond another one is well beyond -/
theorem f32_beyond {b : ℚ} (hb : (Fl.lit f32 b).val = b) (h1 : 1 ≤ b) {v : F32} (h : b < v.val) : b * (1 + 1 / 10 ^ 9) ≤ v.val := by
  have := f32_ratio (v := Fl.lit f32 b) (w := v) (by
    rw [hb]
    have : pow2 (-126) ≤ pow2 0 := pow2_le.mpr (by norm_num)
    rw [show pow2 0 = 1 by rw [pow2_eq]; norm_num] at this
    exact this.trans h1) (by rw [hb]; exact h)
  rwa [hb] at this

theorem f32_at_or_beyond {b : ℚ} (hb : (Fl.lit f32 b).val = b) (h1 : 1 ≤ b) {v : F32} (h : b ≤ v.val) :
    v.val = b ∨ b + 1 / 10 ^ 9 ≤ v.val := by
  rcases h.eq_or_lt with h | h
  · exact Or.inl h.symm
  · have := f32_beyond hb h1 h
    refine Or.inr ?_
    nlinarith

theorem nan_conv : (.nan : F32).conv f64 = .nan := rfl

theorem fin_unique {x y : F64} (hx : x.isFin = true) (hy : y.isFin = true) (h : x.val = y.val) (h0 : y.val ≠ 0) : x = y := by
  cases x <;> cases y <;> simp_all [Fl.isFin, Fl.val]

/-- reflectivities -/
theorem reflectivity_extremes {E : Env} {input : Bytes} {c : Composite} (h : NewComposite E input = .ret c none)
    (hc : c.product ∈ productsIn .dBZ) (L : MathLib) (I : Impl) (v : F32) (col : RGBA)
    (hp : permittedColor I L c (v.conv f64) col) :
    (v = .nan → col = ⟨I.u8 .nan, I.u8 .nan, I.u8 .nan, 255⟩) ∧
    (v.isFin = true → 75 ≤ v.val → col = ⟨191, 127, 255, 255⟩) := by
  obtain ⟨_, _, hu, _⟩ := (C25_product_unit E input c).1 (Or.inl h)
  replace hu := hu _ hc rfl
  unfold permittedColor at hp
  rw [hu, if_neg (by decide), if_pos rfl] at hp
  obtain ⟨a1, a2, b1, b2⟩ := refl_facts
  unfold permittedHeatmap at hp
  refine ⟨?_, fun hv h2 => ?_⟩
  · rintro rfl
    rw [nan_conv, if_neg (by decide)] at hp
    exact heat_missing (missing_position rfl) hp
  · obtain ⟨e1, e2⟩ := conv_exact hv
    rw [if_neg (by
      show ¬ Fl.lt (v.conv f64) (Fl.lit f64 1) = true
      rw [not_lt_of_le ((Fl.le_fin a1 e1).mpr (by rw [a2, e2]; linarith))]; simp)] at hp
    refine heat_end (linear_end (a := 1) (b := 75) (by decide +kernel) (by decide +kernel) (by decide +kernel) (by norm_num) (by norm_num) e1 ?_
      (by rw [e2]; exact (le_abs_self _).trans f32_max) (by norm_num)) hp
    rw [e2]
    exact f32_at_or_beyond (by decide +kernel) (by norm_num) h2

/-- echo tops -/
theorem echo_top_extremes {E : Env} {input : Bytes} {c : Composite} (h : NewComposite E input = .ret c none)
    (hc : c.product ∈ productsIn .km) (L : MathLib) (I : Impl) (v : F32) (col : RGBA)
    (hp : permittedColor I L c (v.conv f64) col) :
    (v = .nan → col = ⟨I.u8 .nan, I.u8 .nan, I.u8 .nan, 255⟩) ∧
    (v.isFin = true → 15 ≤ v.val → col = ⟨255, 255, 255, 255⟩) := by
  obtain ⟨_, _, _, hu, _⟩ := (C25_product_unit E input c).1 (Or.inl h)
  replace hu := hu _ hc rfl
  unfold permittedColor at hp
  rw [hu, if_neg (by decide), if_neg (by decide), if_pos rfl] at hp
  have h00 : (Fl.lit f64 0).isFin = true ∧ (Fl.lit f64 0).val = 0 := by decide +kernel
  unfold permittedGraymap at hp
  refine ⟨?_, fun hv h2 => ?_⟩
  · rintro rfl
    rw [nan_conv, if_neg (by decide)] at hp
    obtain ⟨l, hl, rfl⟩ := hp
    rw [bright_missing (missing_position rfl) hl]
  · obtain ⟨e1, e2⟩ := conv_exact hv
    rw [if_neg (by
      show ¬ Fl.lt (v.conv f64) (Fl.lit f64 0) = true
      rw [not_lt_of_le ((Fl.le_fin h00.1 e1).mpr (by rw [h00.2, e2]; linarith))]; simp)] at hp
    obtain ⟨l, hl, rfl⟩ := hp
    rw [bright_end (linear_end (a := 0) (b := 15) (by decide +kernel) (by decide +kernel) (by decide +kernel) (by norm_num) (by norm_num) e1
      (by rw [e2]; exact f32_at_or_beyond (by decide +kernel) (by norm_num) h2)
      (by rw [e2]; exact (le_abs_self _).trans f32_max) (by norm_num)) hl]

/-- an amount beyond the end of a logarithmic gradient from 0.1 -/
theorem log_end {L : MathLib} (hL : AccurateLog L) {Q : ℚ} (hq : Q = 100 ∨ Q = 200 ∨ Q = 400) {v : F64}
    (hv : v.isFin = true) (h1 : Q * (1 + 1 / 10 ^ 9) ≤ v.val) (hmax : v.val ≤ pow2 128) :
    AtEnd (over (minus (just (L.log v)) (just (L.log (Fl.lit f64 (1 / 10)))))
      (minus (just (L.log (Fl.lit f64 Q))) (just (L.log (Fl.lit f64 (1 / 10)))))) := by
  obtain ⟨t1, t2, t3, t4⟩ := tenth_facts
  have hQ : 100 ≤ Q ∧ Q ≤ 400 := by rcases hq with e | e | e <;> rw [e] <;> norm_num
  obtain ⟨u1, u2, u3, h1r, hQ1, l0, l1, l6, _⟩ := log_facts hL hq hv (by
    refine (t3.trans ?_).trans h1
    nlinarith [hQ.1])
  have h1R : (Q : ℝ) * (1 + 1 / 10 ^ 9) ≤ v.val := by
    have := (Rat.cast_le (K := ℝ)).mpr h1; push_cast at this; exact this
  have lmax : Real.log v.val ≤ 128 := by
    have h2 := (Rat.cast_le (K := ℝ)).mpr hmax
    rw [Fl.pow2_real] at h2
    have h3 := Real.log_le_log (by linarith) h2
    rw [show ((2 : ℝ) ^ (128 : Int)) = 2 ^ (128 : ℕ) by norm_cast, Real.log_pow] at h3
    have := Real.log_le_sub_one_of_pos (x := 2) (by norm_num)
    push_cast at h3
    linarith
  have lgap : (5 : ℝ) / 10 ^ 10 ≤ Real.log v.val - Real.log Q := by
    have h3 := Real.log_le_log (by positivity) h1R
    rw [Real.log_mul (by linarith) (by norm_num)] at h3
    have h4 := Real.one_sub_inv_le_log_of_pos (x := (1 + 1 / 10 ^ 9 : ℝ)) (by norm_num)
    have h5 : (5 : ℝ) / 10 ^ 10 ≤ 1 - (1 + 1 / 10 ^ 9 : ℝ)⁻¹ := by norm_num
    linarith
  have lW : Real.log Q - Real.log (1 / 10) ≤ 12 := by
    have hQr : (Q : ℝ) ≤ 400 := by exact_mod_cast hQ.2
    rw [← Real.log_div (by linarith) (by norm_num)]
    have h3 := Real.log_le_log (x := (Q : ℝ) / (1 / 10)) (y := 2 ^ 12) (by apply div_pos <;> linarith) (by
      rw [div_le_iff₀ (by norm_num)]; norm_num; linarith)
    rw [Real.log_pow] at h3
    have := Real.log_le_sub_one_of_pos (x := 2) (by norm_num)
    push_cast at h3
    linarith
  have lten : -10 ≤ Real.log (1 / 10) := by
    have := Real.one_sub_inv_le_log_of_pos (x := (1 / 10 : ℝ)) (by norm_num)
    norm_num at this ⊢; linarith
  generalize Real.log (1 / 10) = T at *
  generalize Real.log (v.val : ℝ) = A at *
  generalize Real.log (Q : ℝ) = B at *
  have s1 := minus_ap (M := 4001) (t := 27 / 10 ^ 13) (just_ap u1) (just_ap u3) (by rw [abs_of_nonneg (by linarith)]; norm_num; linarith)
    (by norm_num) (by norm_num) (by norm_num)
  have s2 := minus_ap (M := 4001) (t := 27 / 10 ^ 13) (just_ap u2) (just_ap u3) (by rw [abs_of_nonneg (by linarith)]; norm_num; linarith)
    (by norm_num) (by norm_num) (by norm_num)
  have hgap : B - T + 5 / 10 ^ 10 ≤ A - T := by linarith
  generalize hD : A - T = D at *
  generalize hW : B - T = W at *
  have hD0 : 0 ≤ D := by linarith
  have hW0 : 0 < W := by linarith
  have hr : 1 ≤ D / W := by rw [le_div_iff₀ hW0]; norm_num at hgap; linarith
  have hDW : D / W * W = D := by field_simp
  have hDW2 : D / W ≤ D := by rw [div_le_iff₀ hW0]; nlinarith
  have k := over_ap (m := 59 / 10) (q := D / W) (e := D / W * (95 / 10 ^ 14)) (t := 96 / 10 ^ 14 * (D / W)) s1 s2 (by norm_num)
    (by rw [abs_of_pos hW0]; linarith [(by norm_num : (59 / 10 + 27 / 10 ^ 13 : ℝ) ≤ 6)])
    (by rw [abs_of_nonneg hD0, abs_of_pos hW0, hDW]) (by
      rw [div_le_iff₀ (by norm_num)]
      norm_num; linarith) (by norm_num; norm_num at hr; linarith) (by norm_num; linarith) (by norm_num; linarith)
  refine atEnd_above k ?_
  have h2 : (W + 5 / 10 ^ 10) / W ≤ D / W := div_le_div_of_nonneg_right hgap hW0.le
  rw [add_div, div_self hW0.ne'] at h2
  have h3 : (4 : ℝ) / 10 ^ 11 ≤ 5 / 10 ^ 10 / W := by rw [le_div_iff₀ hW0]; norm_num; linarith
  have h4 : (1 : ℝ) + 4 / 10 ^ 11 ≤ D / W := by linarith
  have h5 : D / W - 96 / 10 ^ 14 * (D / W) = D / W * (1 - 96 / 10 ^ 14) := by ring
  rw [h5]
  calc (1 : ℝ) < (1 + 4 / 10 ^ 11) * (1 - 96 / 10 ^ 14) := by norm_num
    _ ≤ D / W * (1 - 96 / 10 ^ 14) := mul_le_mul_of_nonneg_right h4 (by norm_num)

/-- precipitation -/
theorem rain_extremes {L : MathLib} (hL : AccurateLog L) {E : Env} {input : Bytes} {c : Composite}
    (h : NewComposite E input = .ret c none) (hc : c.product ∈ productsIn .mm) (I : Impl) (v : F32) (col : RGBA)
    (hp : permittedColor I L c (v.conv f64) col) :
    (v = .nan ∨ v.isFin = true ∧ v.val < 0 → col = ⟨I.u8 .nan, I.u8 .nan, I.u8 .nan, 255⟩) ∧
    (v.isFin = true → rainMax c.interval < v.val → col = ⟨191, 127, 255, 255⟩) := by
  obtain ⟨_, hu, _⟩ := (C25_product_unit E input c).1 (Or.inl h)
  replace hu := hu _ hc rfl
  unfold permittedColor at hp
  rw [hu, if_pos rfl] at hp
  simp only at hp
  rw [show (if (7 * 24 * (3600 * 10 ^ 9) : Int) ≤ c.interval then (400 : ℚ) else if c.interval ≤ 3600 * 10 ^ 9 then 100 else 200) =
      rainMax c.interval by
    unfold rainMax
    split_ifs <;> first | rfl | omega] at hp
  have hq := rainMax_cases c.interval
  generalize rainMax c.interval = Q at hp hq ⊢
  have hQ : 100 ≤ Q ∧ Q ≤ 400 := by rcases hq with e | e | e <;> rw [e] <;> norm_num
  obtain ⟨t1, t2, t3, t4⟩ := tenth_facts
  unfold permittedHeatmap at hp
  refine ⟨fun hn => ?_, fun hv h2 => ?_⟩
  · have hl : L.log (v.conv f64) = .nan := by
      rcases hn with rfl | ⟨hv, h0⟩
      · exact hL.nan
      · obtain ⟨e1, e2⟩ := conv_exact hv
        exact hL.neg _ (Or.inl ⟨e1, by rw [e2]; exact h0⟩)
    have hlt : Fl.lt (.nan : F64) (L.log (Fl.lit f64 (1 / 10))) = false := by
      cases L.log (Fl.lit f64 (1 / 10)) <;> rfl
    rw [if_neg (by rw [hl, hlt]; simp)] at hp
    exact heat_missing (missing_position hl) hp
  · obtain ⟨e1, e2⟩ := conv_exact hv
    have hbig := f32_beyond (lit_max32 hq) (by linarith [hQ.1]) h2
    obtain ⟨f1, f2, h3⟩ := log_lt hL t1 e1 t2 (by
      rw [e2]
      refine (t3.trans ?_).trans hbig
      nlinarith [hQ.1])
    rw [if_neg (by rw [not_lt_of_le ((Fl.le_fin f1 f2).mpr h3.le)]; simp)] at hp
    exact heat_end (log_end hL hq e1 (by rw [e2]; exact hbig) (by rw [e2]; exact (le_abs_self _).trans f32_lt.le)) hp

/-- velocities -/
theorem velocity_extremes {L : MathLib} (hL : AccurateLog L) {E : Env} {input : Bytes} {c : Composite} (h : NewComposite E input = .ret c none)
    (hc : c.product ∈ productsIn .mps) (I : Impl) (v : F32) (col : RGBA) (hp : permittedColor I L c (v.conv f64) col) :
    (v.isFin = true → 63 / 2 ≤ v.val → col = ⟨255, 0, 0, 255⟩) ∧
    (v.isFin = true → v.val ≤ -63 / 2 → col = ⟨0, 255, 255, 255⟩) := by
  obtain ⟨_, _, _, _, hu, _⟩ := (C25_product_unit E input c).1 (Or.inl h)
  replace hu := hu _ hc rfl
  unfold permittedColor at hp
  rw [hu, if_neg (by decide), if_neg (by decide), if_neg (by decide)] at hp
  replace hp := hp.2
  obtain ⟨o1, o2, o3, m1, m2, m3, hbase, z1, z2⟩ := one_facts
  unfold permittedRadialmap at hp
  rw [hbase] at hp
  have key : v.isFin = true → 63 / 2 ≤ |v.val| → ∀ l, toByte I (times (num 255) (limited (over (just (L.log (Fl.abs (v.conv f64))))
      (just (L.log (Fl.lit f64 (63 / 2))))))) l → l = 255 := by
    intro hv h1 l hl
    obtain ⟨e1, e2⟩ := conv_abs hv
    have p2 := hL.log _ m1 (by rw [m2]; norm_num)
    rw [m2, show (((63 / 2 : ℚ)) : ℝ) = 63 / 2 by norm_num] at p2
    have l2 : 1 - (63 / 2 : ℝ)⁻¹ ≤ Real.log (63 / 2) := Real.one_sub_inv_le_log_of_pos (by norm_num)
    have l3 : (9 / 10 : ℝ) ≤ 1 - (63 / 2 : ℝ)⁻¹ := by norm_num
    replace l3 := l3.trans l2
    clear l2
    refine bright_end ?_ hl
    rcases h1.eq_or_lt with h1 | h1
    · -- the same number over itself
      have hx : Fl.abs (v.conv f64) = Fl.lit f64 (63 / 2) := by
        exact fin_unique e1 m1 (by rw [e2, m2]; exact h1.symm) (by rw [m2]; norm_num)
      rw [hx]
      have hne : (L.log (Fl.lit f64 (63 / 2))).val ≠ 0 := by
        intro h0
        have := (abs_le.mp p2.2).1
        rw [h0] at this
        norm_num at this
        linarith
      refine atEnd_exact (exactly_over (exactly_just p2.1) (exactly_just p2.1) hne (by rw [div_self hne]) (Fl.val_repr _) (Fl.val_repr _)
        (by decide +kernel))
    have hbig : 63 / 2 * (1 + 1 / 10 ^ 9) ≤ |v.val| := by
      have e : (Fl.abs v).val = |v.val| := Fl.abs_val v
      have := f32_beyond (b := 63 / 2) m3 (by norm_num) (v := Fl.abs v) (by rw [e]; exact h1)
      rwa [e] at this
    have hbigr : (63 / 2 : ℝ) * (1 + 1 / 10 ^ 9) ≤ ((|v.val| : ℚ) : ℝ) := by
      have := (Rat.cast_le (K := ℝ)).mpr hbig; push_cast at this ⊢; exact this
    have hpos : (0 : ℝ) < ((|v.val| : ℚ) : ℝ) := lt_of_lt_of_le (by norm_num) hbigr
    have p1 := hL.log _ e1 (by rw [e2]; exact hpos)
    rw [e2] at p1
    have lgap : (5 : ℝ) / 10 ^ 10 ≤ Real.log ((|v.val| : ℚ) : ℝ) - Real.log (63 / 2) := by
      have h3 := Real.log_le_log (by norm_num) hbigr
      rw [Real.log_mul (by norm_num) (by norm_num)] at h3
      have h4 := Real.one_sub_inv_le_log_of_pos (x := (1 + 1 / 10 ^ 9 : ℝ)) (by norm_num)
      have h5 : (5 : ℝ) / 10 ^ 10 ≤ 1 - (1 + 1 / 10 ^ 9 : ℝ)⁻¹ := by norm_num
      linarith
    have lmax : Real.log ((|v.val| : ℚ) : ℝ) ≤ 128 := by
      have h2 := (Rat.cast_le (K := ℝ)).mpr (f32_lt (v := v)).le
      rw [Fl.pow2_real] at h2
      have h3 := Real.log_le_log hpos h2
      rw [show ((2 : ℝ) ^ (128 : Int)) = 2 ^ (128 : ℕ) by norm_cast, Real.log_pow] at h3
      have := Real.log_le_sub_one_of_pos (x := 2) (by norm_num)
      push_cast at h3
      push_cast
      linarith
    have lW : Real.log (63 / 2) ≤ 61 / 2 := by
      have := Real.log_le_sub_one_of_pos (x := 63 / 2) (by norm_num)
      linarith
    generalize Real.log ((|v.val| : ℚ) : ℝ) = D at *
    generalize Real.log (63 / 2) = W at *
    have hW0 : 0 < W := by linarith
    have hD0 : 0 ≤ D := by norm_num at lgap; linarith
    have hr : 1 ≤ D / W := by rw [le_div_iff₀ hW0]; norm_num at lgap; linarith
    have hDW : D / W * W = D := by field_simp
    have hDW2 : D / W ≤ 1000 := by rw [div_le_iff₀ hW0]; linarith
    have k := over_ap (m := 1 / 2) (q := D / W) (e := D / W * (4 / 10 ^ 12)) (t := 5 / 10 ^ 12 * (D / W)) (just_ap p1) (just_ap p2) (by norm_num)
      (by rw [abs_of_pos hW0]; linarith [(by norm_num : (1 / 2 + 1 / 10 ^ 12 : ℝ) ≤ 9 / 10)])
      (by rw [abs_of_nonneg hD0, abs_of_pos hW0, hDW]) (by
        rw [div_le_iff₀ (by norm_num)]
        norm_num; linarith) (by norm_num; norm_num at hr; linarith) (by norm_num; linarith) (by norm_num; linarith)
    refine atEnd_above k ?_
    have hgap : W + 5 / 10 ^ 10 ≤ D := by linarith
    have h2 : (W + 5 / 10 ^ 10) / W ≤ D / W := div_le_div_of_nonneg_right hgap hW0.le
    rw [add_div, div_self hW0.ne'] at h2
    have h3 : (16 : ℝ) / 10 ^ 12 ≤ 5 / 10 ^ 10 / W := by rw [le_div_iff₀ hW0]; norm_num; linarith
    have h4 : (1 : ℝ) + 16 / 10 ^ 12 ≤ D / W := by linarith
    have h5 : D / W - 5 / 10 ^ 12 * (D / W) = D / W * (1 - 5 / 10 ^ 12) := by ring
    rw [h5]
    calc (1 : ℝ) < (1 + 16 / 10 ^ 12) * (1 - 5 / 10 ^ 12) := by norm_num
      _ ≤ D / W * (1 - 5 / 10 ^ 12) := mul_le_mul_of_nonneg_right h4 (by norm_num)
  have hself : v.isFin = true → (!(Fl.beq (v.conv f64) (v.conv f64))) = false := by
    intro hv
    rw [(Fl.beq_self _).mpr (Fl.isFin_ne_nan (conv_exact hv).1)]; rfl
  have hle : v.isFin = true → Fl.le (Fl.abs (v.conv f64)) (Fl.lit f64 1) = decide (|v.val| ≤ 1) := by
    intro hv
    obtain ⟨e1, e2⟩ := conv_abs hv
    rw [Bool.eq_iff_iff, Fl.le_fin e1 o1, e2, o2, decide_eq_true_iff]
  have hlt : v.isFin = true → Fl.lt (v.conv f64) (Fl.lit f64 0) = decide (v.val < 0) := by
    intro hv
    obtain ⟨e1, e2⟩ := conv_exact hv
    rw [Fl.lt_fin e1 z1, e2, z2]
  refine ⟨fun hv h1 => ?_, fun hv h1 => ?_⟩
  · have habs : |v.val| = v.val := abs_of_pos (by linarith)
    rw [if_neg (by rw [hself hv]; simp)] at hp
    obtain ⟨lev, non, hx, rfl⟩ := hp
    rw [hle hv, if_neg (by rw [decide_eq_true_iff, habs]; linarith)] at hx
    rw [hlt hv, if_neg (by rw [decide_eq_true_iff]; linarith), hx.1, key hv (by rw [habs]; exact h1) _ hx.2]
  · have habs : |v.val| = -v.val := abs_of_neg (by linarith)
    rw [if_neg (by rw [hself hv]; simp)] at hp
    obtain ⟨lev, non, hx, rfl⟩ := hp
    rw [hle hv, if_neg (by rw [decide_eq_true_iff, habs]; linarith)] at hx
    rw [hlt hv, if_pos (by rw [decide_eq_true_iff]; linarith), hx.1, key hv (by rw [habs]; linarith) _ hx.2]

end Props
