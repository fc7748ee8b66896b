/-
C64: the colours radolan2png gives to the values of a composite.
-/
import Verif.Props.Colors
import Verif.Props.FloatConversion
import Verif.Props.FloatProjection
import Verif.Lemmas.Nearest
import Verif.Spec.Palette

namespace Props
open Go Radolan Spec Radolan.Vis

theorem conv_exact {v : F32} (hv : v.isFin = true) : (v.conv f64).isFin = true ∧ (v.conv f64).val = v.val := by
  have e := rnd_f64_of_f32 v.rnd_val
  have h := v.val_repr.2
  have : pow2 f32.emax ≤ pow2 f64.emax := pow2_le.mpr (by decide)
  have := Fl.conv_val (g := f64) hv (by rw [e]; exact lt_of_lt_of_le h this)
  rw [e] at this; exact this

/-- float32 numbers from 2^k on are multiples of 2^(k-23) -/
theorem f32_grid {v : F32} {k : Int} (hk : -126 ≤ k) (h : pow2 k ≤ v.val) : ∃ n : Int, v.val = n * pow2 (k - 23) := by
  have hp := pow2_pos k
  have h0 : 0 < v.val := lt_of_lt_of_le hp h
  refine rep_multiple v.rnd_val ?_
  rw [abs_of_pos h0]
  have h1 : ilog2 (pow2 k) ≤ ilog2 v.val := ilog2_mono hp h
  rw [ilog2_unique (e := k) le_rfl (pow2_lt.mpr (by omega))] at h1
  unfold ulpExp
  have : f32.prec = 24 := rfl
  rw [this]
  refine le_trans ?_ (le_max_left _ _)
  push_cast; omega

/-- not below a tenth -/
theorem f32_tenth_ge {v : F32} (h : 1 / 10 ≤ v.val) : 13421773 / 134217728 ≤ v.val := by
  have e1 : pow2 (-4) = 1 / 16 := by rw [pow2_eq]; norm_num
  obtain ⟨n, hn⟩ := f32_grid (v := v) (k := -4) (by norm_num) (by rw [e1]; linarith)
  have e2 : pow2 (-4 - 23) = 1 / 134217728 := by rw [pow2_eq]; norm_num
  rw [e2] at hn
  rw [hn] at h ⊢
  have h2 : (13421772.8 : ℚ) ≤ n := by linarith
  have h3 : (13421772 : ℚ) < n := by linarith
  have h4 : (13421772 : Int) < n := by exact_mod_cast h3
  have h5 : (13421773 : ℚ) ≤ n := by exact_mod_cast h4
  linarith

theorem f32_tenth_lt {v : F32} (h : v.val < 1 / 10) : v.val ≤ 13421772 / 134217728 := by
  have e1 : pow2 (-4) = 1 / 16 := by rw [pow2_eq]; norm_num
  by_cases h16 : v.val < 1 / 16
  · linarith
  obtain ⟨n, hn⟩ := f32_grid (v := v) (k := -4) (by norm_num) (by rw [e1]; linarith)
  have e2 : pow2 (-4 - 23) = 1 / 134217728 := by rw [pow2_eq]; norm_num
  rw [e2] at hn
  rw [hn] at h ⊢
  have h3 : (n : ℚ) < 13421773 := by linarith
  have h4 : n < 13421773 := by exact_mod_cast h3
  have h5 : (n : ℚ) ≤ 13421772 := by exact_mod_cast Int.lt_add_one_iff.mp h4
  linarith

/-- different positive float32 numbers differ by a factor of more than 1 + 10^-9 -/
theorem f32_ratio {v w : F32} (h0 : pow2 (-126) ≤ v.val) (h : v.val < w.val) : v.val * (1 + 1 / 10 ^ 9) ≤ w.val := by
  have hp : 0 < v.val := lt_of_lt_of_le (pow2_pos _) h0
  obtain ⟨k1, k2⟩ := ilog2_spec hp
  have hk : -126 ≤ ilog2 v.val := by
    have := ilog2_mono (pow2_pos (-126)) h0
    rwa [ilog2_unique (e := -126) le_rfl (pow2_lt.mpr (by omega))] at this
  obtain ⟨n, hn⟩ := f32_grid hk k1
  obtain ⟨m, hm⟩ := f32_grid hk (k1.trans h.le)
  have hu := pow2_pos (ilog2 v.val - 23)
  have hnm : n < m := by
    rw [hn, hm] at h
    exact_mod_cast lt_of_mul_lt_mul_right h hu.le
  have h1 : v.val + pow2 (ilog2 v.val - 23) ≤ w.val := by
    have : (n : ℚ) + 1 ≤ m := by exact_mod_cast hnm
    have := mul_le_mul_of_nonneg_right this hu.le
    rw [hm]; rw [add_mul, one_mul, ← hn] at this; exact this
  have h2 : pow2 (ilog2 v.val + 1) = 16777216 * pow2 (ilog2 v.val - 23) := by
    rw [show ilog2 v.val + 1 = 24 + (ilog2 v.val - 23) by ring, pow2_add]
    congr 1
    try (rw [pow2_eq]; norm_num)
  rw [h2] at k2
  linarith

section
variable {L : MathLib} (hL : AccurateLog L)
include hL

/-- numbers whose ratio exceeds 1 + 10^-9 have different logarithms -/
theorem log_lt {x y : F64} (hx : x.isFin = true) (hy : y.isFin = true) (h0 : 0 < x.val)
    (h : x.val * (1 + 1 / 10 ^ 9) ≤ y.val) : (L.log x).isFin = true ∧ (L.log y).isFin = true ∧ (L.log x).val < (L.log y).val := by
  have hxr : (0 : ℝ) < x.val := by exact_mod_cast h0
  have hr : (x.val : ℝ) * (1 + 1 / 10 ^ 9) ≤ y.val := by
    have : ((x.val * (1 + 1 / 10 ^ 9) : ℚ) : ℝ) ≤ ((y.val : ℚ) : ℝ) := by exact_mod_cast h
    push_cast at this; exact this
  have hyr : (0 : ℝ) < y.val := lt_of_lt_of_le (by positivity) hr
  obtain ⟨f1, a1⟩ := hL.log x hx hxr
  obtain ⟨f2, a2⟩ := hL.log y hy hyr
  have h1 : Real.log (x.val * (1 + 1 / 10 ^ 9)) ≤ Real.log y.val := Real.log_le_log (by positivity) hr
  rw [Real.log_mul hxr.ne' (by norm_num)] at h1
  have h2 : 1 - (1 + 1 / 10 ^ 9 : ℝ)⁻¹ ≤ Real.log (1 + 1 / 10 ^ 9) := Real.one_sub_inv_le_log_of_pos (by norm_num)
  have h3 : (1 / 10 ^ 10 : ℝ) ≤ 1 - (1 + 1 / 10 ^ 9 : ℝ)⁻¹ := by norm_num
  obtain ⟨b1, b2⟩ := abs_le.mp a1
  obtain ⟨c1, c2⟩ := abs_le.mp a2
  have h4 : (1 / 10 ^ 10 : ℝ) > 2 / 10 ^ 12 := by norm_num
  have h5 : ((L.log x).val : ℝ) < (L.log y).val := by linarith
  exact ⟨f1, f2, by exact_mod_cast h5⟩

omit hL in
theorem tenth_facts : (Fl.lit f64 (1 / 10)).isFin = true ∧ 0 < (Fl.lit f64 (1 / 10)).val ∧
    (Fl.lit f64 (1 / 10)).val * (1 + 1 / 10 ^ 9) ≤ 13421773 / 134217728 ∧
    13421772 / 134217728 * (1 + 1 / 10 ^ 9) ≤ (Fl.lit f64 (1 / 10)).val := by decide +kernel

theorem logs_fin {x : F64} (hx : x.isFin = true) (h0 : 0 < x.val) : (L.log x).isFin = true :=
  (hL.log x hx (by exact_mod_cast h0)).1

/-- the order of logarithms -/
theorem log_cases {x : F64} (hx : x.isFin = true) (h0 : 0 < x.val) {v : F32} (hv : AtLeast v 0)
    (h : v.isFin = true → x.val * (1 + 1 / 10 ^ 9) ≤ v.val ∨ v.val = x.val) :
    Fl.le (L.log x) (L.log (v.conv f64)) = true := by
  have hf := logs_fin hL hx h0
  rcases hv with rfl | ⟨hv, _⟩
  · rw [show (Fl.inf false : F32).conv f64 = .inf false from rfl, hL.inf]
    exact Fl.le_iff.mpr ⟨Fl.isFin_ne_nan hf, by simp, by cases hx : L.log x <;> simp_all [Fl.isFin]⟩
  · obtain ⟨e1, e2⟩ := conv_exact hv
    rcases h hv with h | h
    · obtain ⟨f1, f2, h3⟩ := log_lt hL hx e1 h0 (by rw [e2]; exact h)
      exact (Fl.le_fin f1 f2).mpr h3.le
    · have : v.conv f64 = x := Fl.eq_of_val e1 hx (by rw [e2, h]) (by rw [e2, h]; exact h0.ne')
      rw [this]
      exact Fl.le_refl (Fl.isFin_ne_nan hf)

end

theorem conv_abs {v : F32} (hv : v.isFin = true) : (Fl.abs (v.conv f64)).isFin = true ∧ (Fl.abs (v.conv f64)).val = |v.val| := by
  obtain ⟨h1, h2⟩ := conv_exact hv
  exact ⟨by rw [Fl.abs_isFin]; exact h1, by rw [Fl.abs_val, h2]⟩

theorem nan_add (v : F64) : Fl.add v .nan = .nan := by cases v <;> rfl

/-- the colour of NaN -/
theorem heatColor_nan (I : Impl) : heatColor I .nan = ⟨I.u8 .nan, I.u8 .nan, I.u8 .nan, 255⟩ := by
  have h : ∀ v : F64, Fl.toU8 I.u8 (Fl.mul (Fl.lit f64 255) (Fl.add v .nan)) = I.u8 .nan := by
    intro v
    rw [nan_add, show Fl.mul (Fl.lit f64 255) (.nan : F64) = .nan by decide +kernel]; rfl
  have hm : Fl.sub (Fl.add (Fl.mul (Fl.lit f64 (1 / 2)) .nan) (Fl.lit f64 (1 / 4)))
      (Fl.div (Fl.mul (Fl.sub (Fl.lit f64 1) (Fl.abs (Fl.sub (Fl.mul (Fl.lit f64 2)
        (Fl.add (Fl.mul (Fl.lit f64 (1 / 2)) .nan) (Fl.lit f64 (1 / 4)))) (Fl.lit f64 1)))) (Fl.lit f64 1))
        (Fl.lit f64 2)) = (.nan : F64) := by decide +kernel
  have hp : (if Fl.lt (Fl.lit f64 1) (.nan : F64) = true then Fl.lit f64 1 else .nan) = .nan := by decide +kernel
  unfold heatColor
  simp only [hp, hm, h]

theorem nan_pos {a b : F64} : Fl.div (Fl.sub .nan a) b = .nan := by
  have : Fl.sub (.nan : F64) a = .nan := by unfold Fl.sub; cases Fl.neg a <;> rfl
  rw [this]; cases b <;> rfl

theorem heatmap_nan {comp : F64 → F64} {min max v : F64} (I : Impl) (h : comp v = .nan) :
    Heatmap I min max comp v = ⟨I.u8 .nan, I.u8 .nan, I.u8 .nan, 255⟩ := by
  rw [heatmap_above (by rw [h]; rfl), h, nan_pos, heatColor_nan]

theorem inf_lt {x : F64} (h : x.isFin = true) : Fl.lt (.inf true) x = true ∧ Fl.le x (.inf false) = true := by
  cases x <;> simp_all [Fl.isFin, Fl.lt, Fl.le, Fl.beq]

/-- a position known up to `ε` gives a brightness known up to the truncation -/
theorem byte_ap (i : F64 → UInt8) {p : F64} {r : ℝ} (hp : Fl.Ap p r (1 / 10 ^ 11)) (h0 : 0 ≤ p.val) (h1 : r ≤ 1) :
    Brightness (Fl.toU8 i (Fl.mul (Fl.lit f64 255) (Fl.clip p))) r := by
  have hc : Fl.Ap (Fl.clip p) r (1 / 10 ^ 11) ∧ 0 ≤ (Fl.clip p).val ∧ (Fl.clip p).val ≤ 1 := by
    unfold Fl.clip
    by_cases h : Fl.lt (Fl.lit f64 1) p = true
    · rw [if_pos h]
      obtain ⟨o1, o2⟩ := Fl.one_fin
      rw [Fl.lt_fin o1 hp.1, decide_eq_true_iff, o2] at h
      refine ⟨⟨o1, ?_⟩, by rw [o2]; norm_num, by rw [o2]⟩
      have h' : (1 : ℝ) < p.val := by exact_mod_cast h
      obtain ⟨b1, b2⟩ := abs_le.mp hp.2
      rw [o2, abs_le]; push_cast
      constructor <;> linarith [(by norm_num : (0 : ℝ) < 1 / 10 ^ 11)]
    · rw [if_neg h]
      obtain ⟨o1, o2⟩ := Fl.one_fin
      rw [Fl.lt_fin o1 hp.1, decide_eq_true_iff, o2] at h
      exact ⟨hp, h0, not_lt.mp h⟩
  obtain ⟨⟨f, a⟩, c0, c1⟩ := hc
  obtain ⟨e1, e2, -⟩ := Fl.byte_spec i f c0 c1
  have hb : |255 * (Fl.clip p).val| ≤ 1024 := by rw [abs_of_nonneg (by linarith)]; linarith
  have hn := abs_le.mp (rnd_near hb)
  rw [show pow2 (-43) = 1 / 8796093022208 by rw [pow2_eq]; norm_num] at hn
  obtain ⟨t1, t2⟩ := Fl.ratTrunc_nonneg_bounds e2
  have t0 : 0 ≤ Fl.ratTrunc (rnd f64 (255 * (Fl.clip p).val)) := by
    unfold Fl.ratTrunc; rw [if_pos e2]; exact Int.floor_nonneg.mpr e2
  have hcast : ((Fl.toU8 i (Fl.mul (Fl.lit f64 255) (Fl.clip p))).toNat : ℚ) = (Fl.ratTrunc (rnd f64 (255 * (Fl.clip p).val)) : ℚ) := by
    rw [e1]; exact_mod_cast Int.toNat_of_nonneg t0
  rw [← hcast] at t1 t2
  have u1 : ((Fl.toU8 i (Fl.mul (Fl.lit f64 255) (Fl.clip p))).toNat : ℚ) ≤ 255 * (Fl.clip p).val + 1 / 10 ^ 9 := by
    norm_num at hn ⊢; linarith [hn.2]
  have u2 : 255 * (Fl.clip p).val - 1 / 10 ^ 9 < ((Fl.toU8 i (Fl.mul (Fl.lit f64 255) (Fl.clip p))).toNat : ℚ) + 1 := by
    norm_num at hn ⊢; linarith [hn.1]
  have v1 : ((Fl.toU8 i (Fl.mul (Fl.lit f64 255) (Fl.clip p))).toNat : ℝ) ≤ 255 * ((Fl.clip p).val : ℝ) + 1 / 10 ^ 9 := by
    have := (Rat.cast_le (K := ℝ)).mpr u1
    push_cast at this; exact this
  have v2 : 255 * ((Fl.clip p).val : ℝ) - 1 / 10 ^ 9 < ((Fl.toU8 i (Fl.mul (Fl.lit f64 255) (Fl.clip p))).toNat : ℝ) + 1 := by
    have := (Rat.cast_lt (K := ℝ)).mpr u2
    push_cast at this; exact this
  obtain ⟨b1, b2⟩ := abs_le.mp a
  have w : (255 / 10 ^ 11 + 1 / 10 ^ 9 : ℝ) ≤ 1 / 10 ^ 8 := by norm_num
  constructor <;> linarith

/-! ### precipitation -/

theorem lit_max {q : ℚ} (hq : q = 100 ∨ q = 200 ∨ q = 400) : (Fl.lit f64 q).isFin = true ∧ (Fl.lit f64 q).val = q := by
  rcases hq with rfl | rfl | rfl <;> decide +kernel

theorem lit_max32 {q : ℚ} (hq : q = 100 ∨ q = 200 ∨ q = 400) : (Fl.lit f32 q).val = q := by
  rcases hq with rfl | rfl | rfl <;> decide +kernel

theorem rainMax_cases (n : Int) : rainMax n = 100 ∨ rainMax n = 200 ∨ rainMax n = 400 := by
  unfold rainMax; split
  · simp
  · split <;> simp

section
variable {L : MathLib} (hL : AccurateLog L)
include hL

theorem rain_bounds {q : ℚ} (hq : q = 100 ∨ q = 200 ∨ q = 400) : Bounds L.log (Fl.lit f64 (1 / 10)) (Fl.lit f64 q) := by
  obtain ⟨m1, m2⟩ := lit_max hq
  obtain ⟨t1, t2, t3, t4⟩ := tenth_facts
  have hq0 : 1 ≤ q ∧ q ≤ 400 := by rcases hq with rfl | rfl | rfl <;> norm_num
  obtain ⟨f1, f2, h⟩ := log_lt hL t1 m1 t2 (by rw [m2]; linarith [hq0.1])
  refine ⟨f1, f2, by rw [Fl.lt_fin f1 f2, decide_eq_true_iff]; exact h, ?_⟩
  refine (Fl.sub_near f2 f1 ?_).1
  have hl : 1 / 11 ≤ (Fl.lit f64 (1 / 10)).val := by linarith
  obtain ⟨_, a1⟩ := hL.log _ t1 (by exact_mod_cast t2)
  obtain ⟨_, a2⟩ := hL.log _ m1 (by rw [m2]; exact_mod_cast (by linarith [hq0.1] : 0 < q))
  rw [m2] at a2
  have hlr : (1 / 11 : ℝ) ≤ (Fl.lit f64 (1 / 10)).val := by
    have : (((1 / 11 : ℚ)) : ℝ) ≤ (((Fl.lit f64 (1 / 10)).val : ℚ) : ℝ) := by exact_mod_cast hl
    push_cast at this; exact this
  have hqr : (1 : ℝ) ≤ q ∧ (q : ℝ) ≤ 400 := ⟨by exact_mod_cast hq0.1, by exact_mod_cast hq0.2⟩
  have e1 : -10 ≤ Real.log (Fl.lit f64 (1 / 10)).val := by
    have h1 := Real.one_sub_inv_le_log_of_pos (x := ((Fl.lit f64 (1 / 10)).val : ℝ)) (by linarith)
    have h2 : (((Fl.lit f64 (1 / 10)).val : ℝ))⁻¹ ≤ 11 := by
      rw [inv_le_comm₀ (by linarith) (by norm_num)]; linarith
    linarith
  have e2 : Real.log q ≤ 399 := by
    have := Real.log_le_sub_one_of_pos (x := (q : ℝ)) (by linarith [hqr.1])
    linarith [hqr.2]
  obtain ⟨b1, b2⟩ := abs_le.mp a1
  obtain ⟨c1, c2⟩ := abs_le.mp a2
  have h5 : ((L.log (Fl.lit f64 q)).val : ℝ) - (L.log (Fl.lit f64 (1 / 10))).val ≤ 1024 := by norm_num at *; linarith
  rw [abs_of_pos (by linarith)]
  exact_mod_cast h5

/-- C64. Precipitation products: amounts below 0.1 mm are black; amounts from 0.1 mm on are clearly visible, and no
conversion involved is out of range (the colour does not depend on the implementation); amounts from the maximum on -
100 mm, 200 mm, or 400 mm by interval - are light violet. A missing (NaN) or negative amount is a gray of the brightness
the implementation's conversion of NaN to uint8 happens to give. -/
theorem C64_rain {E : Env} {input : Bytes} {c : Composite} (h : NewComposite E input = .ret c none)
    (hc : c.product ∈ productsIn .mm) :
    ∃ f : Impl → ColorFunc, (∀ I, Cli.colorFunc I L c = some (f I)) ∧ ∀ (I : Impl) (v : F32),
      (AtLeast v 0 → Below v (1 / 10) → pixelColor (f I) v = ⟨0, 0, 0, 255⟩) ∧
      (AtLeast v (1 / 10) → Visible (pixelColor (f I) v) ∧ ∀ J, pixelColor (f I) v = pixelColor (f J) v) ∧
      (AtLeast v (rainMax c.interval) → pixelColor (f I) v = ⟨191, 127, 255, 255⟩) ∧
      (v = .nan ∨ Below v 0 → pixelColor (f I) v = ⟨I.u8 .nan, I.u8 .nan, I.u8 .nan, 255⟩) := by
  obtain ⟨t1, t2, t3, t4⟩ := tenth_facts
  have hq := rainMax_cases c.interval
  have hb := rain_bounds hL hq
  refine ⟨fun I => Heatmap I (Fl.lit f64 (1 / 10)) (Fl.lit f64 (rainMax c.interval)) L.log,
    fun I => (C46_color_map h I L).1 hc, fun I v => ?_⟩
  obtain ⟨-, k2, k3, -, k5⟩ := C44_heatmap hb I
  unfold pixelColor
  refine ⟨?_, ?_, ?_, ?_⟩
  · intro h0 h1
    refine k2 _ ?_
    rcases h1 with rfl | ⟨hv, h1⟩
    · rcases h0 with h0 | ⟨h0, _⟩ <;> simp [Fl.isFin] at h0
    rcases h0 with rfl | ⟨_, h0⟩
    · simp [Fl.isFin] at hv
    obtain ⟨e1, e2⟩ := conv_exact hv
    rcases h0.eq_or_lt with h0 | h0
    · rw [hL.zero _ e1 (by rw [e2]; exact h0.symm)]
      exact (inf_lt hb.lo).1
    · have := f32_tenth_lt h1
      obtain ⟨f1, f2, h3⟩ := log_lt hL e1 t1 (by rw [e2]; exact h0) (by rw [e2]; linarith)
      rw [Fl.lt_fin f1 f2, decide_eq_true_iff]; exact h3
  · intro h1
    have := k3 (v.conv f64) (log_cases hL t1 t2 (h1.imp_right fun h => ⟨h.1, by linarith [h.2]⟩) (fun hv => by
      rcases h1 with rfl | ⟨_, h1⟩
      · simp [Fl.isFin] at hv
      · have := f32_tenth_ge h1
        left; linarith))
    exact ⟨this.2, this.1⟩
  · intro h1
    obtain ⟨m1, m2⟩ := lit_max hq
    have hq0 : 1 ≤ rainMax c.interval := by rcases hq with e | e | e <;> rw [e] <;> norm_num
    refine k5 _ (log_cases hL m1 (by rw [m2]; linarith) (h1.imp_right fun h => ⟨h.1, by linarith [h.2]⟩) (fun hv => ?_))
    rcases h1 with rfl | ⟨_, h1⟩
    · simp [Fl.isFin] at hv
    rw [m2]
    rcases h1.eq_or_lt with h1 | h1
    · right; exact h1.symm
    · left
      have e := lit_max32 hq
      have := f32_ratio (v := Fl.lit f32 (rainMax c.interval)) (w := v) (by
        rw [e]
        have : pow2 (-126) ≤ pow2 0 := pow2_le.mpr (by norm_num)
        rw [show pow2 0 = 1 by rw [pow2_eq]; norm_num] at this
        linarith) (by rw [e]; exact h1)
      rw [e] at this; exact this
  · intro h1
    refine heatmap_nan I ?_
    rcases h1 with rfl | rfl | ⟨hv, h1⟩
    · exact hL.nan
    · exact hL.neg _ (Or.inr rfl)
    · obtain ⟨e1, e2⟩ := conv_exact hv
      exact hL.neg _ (Or.inl ⟨e1, by rw [e2]; exact h1⟩)

end

/-! ### reflectivity -/

theorem refl_facts : (Fl.lit f64 1).isFin = true ∧ (Fl.lit f64 1).val = 1 ∧ (Fl.lit f64 75).isFin = true ∧
    (Fl.lit f64 75).val = 75 := by decide +kernel

theorem conv_le {x : F64} {q : ℚ} (hx : x.isFin = true) (hq : x.val = q) {v : F32} (h : AtLeast v q) :
    Fl.le x (v.conv f64) = true := by
  rcases h with rfl | ⟨hv, h⟩
  · exact (inf_lt hx).2
  · obtain ⟨e1, e2⟩ := conv_exact hv
    rw [Fl.le_fin hx e1, hq, e2]; exact h

theorem conv_lt {x : F64} {q : ℚ} (hx : x.isFin = true) (hq : x.val = q) {v : F32} (h : Below v q) :
    Fl.lt (v.conv f64) x = true := by
  rcases h with rfl | ⟨hv, h⟩
  · exact (inf_lt hx).1
  · obtain ⟨e1, e2⟩ := conv_exact hv
    rw [Fl.lt_fin e1 hx, hq, e2, decide_eq_true_iff]; exact h

/-- C64. Reflectivity products: values below 1 dBZ are black, values from 1 dBZ on clearly visible and the same on every
implementation, values from 75 dBZ on light violet. A missing value (NaN) is a gray of implementation-defined
brightness. -/
theorem C64_reflectivity {E : Env} {input : Bytes} {c : Composite} (h : NewComposite E input = .ret c none)
    (hc : c.product ∈ productsIn .dBZ) (L : MathLib) :
    ∃ f : Impl → ColorFunc, (∀ I, Cli.colorFunc I L c = some (f I)) ∧ ∀ (I : Impl) (v : F32),
      (Below v 1 → pixelColor (f I) v = ⟨0, 0, 0, 255⟩) ∧
      (AtLeast v 1 → Visible (pixelColor (f I) v) ∧ ∀ J, pixelColor (f I) v = pixelColor (f J) v) ∧
      (AtLeast v 75 → pixelColor (f I) v = ⟨191, 127, 255, 255⟩) ∧
      (v = .nan → pixelColor (f I) v = ⟨I.u8 .nan, I.u8 .nan, I.u8 .nan, 255⟩) := by
  obtain ⟨a1, a2, b1, b2⟩ := refl_facts
  have hb : Bounds Id (Fl.lit f64 1) (Fl.lit f64 75) :=
    id_bounds (by decide +kernel) (by decide +kernel) (by norm_num) (by decide +kernel)
  refine ⟨fun I => Heatmap I (Fl.lit f64 1) (Fl.lit f64 75) Id, fun I => (C46_color_map h I L).2.1 hc, fun I v => ?_⟩
  obtain ⟨-, k2, k3, -, k5⟩ := C44_heatmap hb I
  unfold pixelColor
  refine ⟨fun h1 => k2 _ (conv_lt a1 a2 h1), fun h1 => ?_, fun h1 => k5 _ (conv_le b1 b2 h1), ?_⟩
  · have := k3 (v.conv f64) (conv_le a1 a2 h1)
    exact ⟨this.2, this.1⟩
  · rintro rfl
    exact heatmap_nan I rfl

/-! ### echo tops -/

/-- C64. Echo top products: grays; black up to 0 km, white from 15 km on, never darker for a greater height, and the same
on every implementation for every number. A missing value (NaN) is a gray of implementation-defined brightness. -/
theorem C64_echo_tops {E : Env} {input : Bytes} {c : Composite} (h : NewComposite E input = .ret c none)
    (hc : c.product ∈ productsIn .km) (L : MathLib) :
    ∃ f : Impl → ColorFunc, (∀ I, Cli.colorFunc I L c = some (f I)) ∧ ∀ (I : Impl) (v : F32),
      (∃ l, pixelColor (f I) v = ⟨l, l, l, 255⟩) ∧
      (Below v 0 ∨ (v.isFin = true ∧ v.val = 0) → pixelColor (f I) v = ⟨0, 0, 0, 255⟩) ∧
      (AtLeast v 15 → pixelColor (f I) v = ⟨255, 255, 255, 255⟩) ∧
      (v.isFin = true → 0 ≤ v.val → v.val ≤ 15 → Brightness (pixelColor (f I) v).r (v.val / 15)) ∧
      (∀ w : F32, v.isFin = true → AtLeast w v.val → (pixelColor (f I) v).r ≤ (pixelColor (f I) w).r) ∧
      (v ≠ .nan → ∀ J, pixelColor (f I) v = pixelColor (f J) v) ∧
      (v = .nan → pixelColor (f I) v = ⟨I.u8 .nan, I.u8 .nan, I.u8 .nan, 255⟩) := by
  have hb : Bounds Id (Fl.lit f64 0) (Fl.lit f64 15) :=
    id_bounds (by decide +kernel) (by decide +kernel) (by norm_num) (by decide +kernel)
  have h15 : (Fl.lit f64 15).isFin = true ∧ (Fl.lit f64 15).val = 15 := by decide +kernel
  have h00 : (Fl.lit f64 0).isFin = true ∧ (Fl.lit f64 0).val = 0 := by decide +kernel
  have hn : ∀ w : F32, w ≠ .nan → Id (w.conv f64) ≠ .nan := by
    intro w hw
    show w.conv f64 ≠ .nan
    cases hf : w.isFin
    · cases w with
      | nan => exact absurd rfl hw
      | inf b => simp [Fl.conv]
      | _ => simp [Fl.isFin] at hf
    · exact Fl.isFin_ne_nan (conv_exact hf).1
  refine ⟨fun I => Graymap I (Fl.lit f64 0) (Fl.lit f64 15) Id, fun I => (C46_color_map h I L).2.2.1 hc, fun I v => ?_⟩
  obtain ⟨k1, k2, k3, k4, k5⟩ := C43_graymap hb id_mono I
  unfold pixelColor
  refine ⟨k1 _, ?_, fun h1 => k3 _ (conv_le h15.1 h15.2 h1), ?_, ?_, fun h1 J => k5 J _ (hn v h1), ?_⟩
  · rintro (h1 | ⟨h1, h2⟩)
    · have hlt := conv_lt h00.1 h00.2 h1
      exact graymap_below hlt
    · obtain ⟨e1, e2⟩ := conv_exact h1
      exact k2 _ (Fl.isFin_ne_nan e1) ((Fl.le_fin e1 h00.1).mpr (by rw [e2, h2, h00.2]))
  · intro hv h0 h1
    obtain ⟨e1, e2⟩ := conv_exact hv
    have hle : Fl.le (Id (Fl.lit f64 0)) (Id (v.conv f64)) = true :=
      (Fl.le_fin h00.1 e1).mpr (by show (Fl.lit f64 0).val ≤ (v.conv f64).val; rw [e2, h00.2]; exact h0)
    show Brightness (Graymap I (Fl.lit f64 0) (Fl.lit f64 15) Id (v.conv f64)).r _
    rw [graymap_above (not_lt_of_le hle)]
    have s1 : Fl.sub (Id (v.conv f64)) (Id (Fl.lit f64 0)) = Fl.mk f64 ((v.conv f64).sign && true) v.val := by
      show Fl.sub (v.conv f64) (Fl.lit f64 0) = _
      rw [Fl.sub_fin e1 h00.1, e2, h00.2, sub_zero]
      congr 2
    have h0r : (0 : ℝ) ≤ v.val := by exact_mod_cast h0
    have h1r : (v.val : ℝ) ≤ 15 := by exact_mod_cast h1
    have s2 : Fl.Ap (Fl.sub (Id (v.conv f64)) (Id (Fl.lit f64 0))) v.val (1 / 10 ^ 12) := by
      rw [s1]
      refine (Fl.mk_ap (ε := 0) (M := 15) (by simp) (by rw [abs_of_nonneg h0r]; linarith) (by norm_num) (by norm_num)).mono ?_
      norm_num
    have s3 : Fl.Ap (Fl.sub (Id (Fl.lit f64 15)) (Id (Fl.lit f64 0))) 15 0 := by
      have : (Fl.sub (Id (Fl.lit f64 15)) (Id (Fl.lit f64 0))).isFin = true ∧
        (Fl.sub (Id (Fl.lit f64 15)) (Id (Fl.lit f64 0))).val = 15 := by decide +kernel
      exact ⟨this.1, by rw [this.2]; norm_num⟩
    have s4 := Fl.div_ap (m := 1) (q := 1) (e := 1 / 10 ^ 12) (t := 1 / 10 ^ 11) s2 s3 (by norm_num) (by norm_num)
      (by rw [abs_of_nonneg h0r]; norm_num; linarith) (by norm_num) (by norm_num) (by norm_num) (by norm_num)
    refine byte_ap I.u8 s4 ?_ (by rw [div_le_iff₀ (by norm_num)]; linarith)
    have := Fl.pos_mono hb.lo hb.hi hb.lt hb.width hle
    rw [Fl.pos_min hb.lo hb.hi hb.lt hb.width] at this
    exact (Fl.le_fin rfl s4.1).mp this
  · intro w hv hw
    obtain ⟨e1, e2⟩ := conv_exact hv
    exact k4 _ _ (Fl.isFin_ne_nan e1) (conv_le e1 e2 hw)
  · rintro rfl
    show Graymap I (Fl.lit f64 0) (Fl.lit f64 15) Id (.nan : F64) = _
    rw [graymap_above (show Fl.lt (Id (.nan : F64)) (Id (Fl.lit f64 0)) = false by decide +kernel)]
    have e : Fl.mul (Fl.lit f64 255) (Fl.clip (Fl.div (Fl.sub (Id .nan) (Id (Fl.lit f64 0)))
      (Fl.sub (Id (Fl.lit f64 15)) (Id (Fl.lit f64 0))))) = .nan := by decide +kernel
    rw [e]; rfl

/-! ### velocities -/

theorem one_facts : (Fl.lit f64 1).isFin = true ∧ (Fl.lit f64 1).val = 1 ∧ (Fl.lit f32 1).val = 1 ∧
    (Fl.lit f64 (63 / 2)).isFin = true ∧ (Fl.lit f64 (63 / 2)).val = 63 / 2 ∧ (Fl.lit f32 (63 / 2)).val = 63 / 2 ∧
    fmax (Fl.abs (Fl.lit f64 (-63 / 2))) (Fl.abs (Fl.lit f64 (63 / 2))) = Fl.lit f64 (63 / 2) ∧
    (Fl.lit f64 0).isFin = true ∧ (Fl.lit f64 0).val = 0 := by decide +kernel

/-- a number of magnitude more than one -/
theorem fast {v : F32} (hv : v.isFin = true) (h : 1 < |v.val|) : 1 + 1 / 10 ^ 9 ≤ |v.val| := by
  have e : (Fl.abs v).val = |v.val| := Fl.abs_val v
  have := f32_ratio (v := Fl.lit f32 1) (w := Fl.abs v) (by
    rw [one_facts.2.2.1]
    have : pow2 (-126) ≤ pow2 0 := pow2_le.mpr (by norm_num)
    rwa [show pow2 0 = 1 by rw [pow2_eq]; norm_num] at this) (by rw [e, one_facts.2.2.1]; exact h)
  rw [one_facts.2.2.1, e, one_mul] at this; exact this

theorem abs_conv (v : F32) : Fl.abs (v.conv f64) = (Fl.abs v).conv f64 ∨ (v.isFin = true ∧ v.val = 0) := by
  cases hf : v.isFin
  · left; cases v with
    | nan => rfl
    | inf b => cases b <;> rfl
    | _ => simp [Fl.isFin] at hf
  · by_cases h0 : v.val = 0
    · exact Or.inr ⟨rfl, h0⟩
    · left
      have hv : (Fl.abs v).isFin = true := by rw [Fl.abs_isFin]; exact hf
      obtain ⟨e1, e2⟩ := conv_exact hv
      obtain ⟨d1, d2⟩ := conv_abs hf
      rw [Fl.abs_val] at e2
      exact Fl.eq_of_val d1 e1 (by rw [d2, e2]) (by rw [d2]; simpa using h0)

section
variable {L : MathLib} (hL : AccurateLog L)
include hL

theorem log_pos {x : F64} (hx : x.isFin = true) (h : 1 + 1 / 10 ^ 9 ≤ x.val) : (L.log x).isFin = true ∧ 0 < (L.log x).val := by
  have hr : (1 : ℝ) + 1 / 10 ^ 9 ≤ x.val := by
    have : ((1 + 1 / 10 ^ 9 : ℚ) : ℝ) ≤ ((x.val : ℚ) : ℝ) := by exact_mod_cast h
    push_cast at this; exact this
  obtain ⟨f1, a1⟩ := hL.log x hx (by linarith [(by norm_num : (0:ℝ) < 1 + 1 / 10 ^ 9)])
  have h2 : 1 - (x.val : ℝ)⁻¹ ≤ Real.log x.val := Real.one_sub_inv_le_log_of_pos (by linarith [(by norm_num : (0:ℝ) < 1 + 1 / 10 ^ 9)])
  have h3 : (x.val : ℝ)⁻¹ ≤ (1 + 1 / 10 ^ 9 : ℝ)⁻¹ := inv_anti₀ (by norm_num) hr
  have h4 : (1 / 10 ^ 10 : ℝ) ≤ 1 - (1 + 1 / 10 ^ 9 : ℝ)⁻¹ := by norm_num
  have h5 : (1 / 10 ^ 10 : ℝ) > 1 / 10 ^ 12 := by norm_num
  obtain ⟨b1, b2⟩ := abs_le.mp a1
  have : (0 : ℝ) < (L.log x).val := by linarith
  exact ⟨f1, by exact_mod_cast this⟩

theorem fast_log {v : F32} (hn : v ≠ .nan) (h : Fl.lt (Fl.lit f64 1) (Fl.abs (v.conv f64)) = true) :
    Fl.le Fl.zero (L.log (Fl.abs (v.conv f64))) = true := by
  cases hf : v.isFin
  · have : Fl.abs (v.conv f64) = .inf false := by
      cases v with
      | nan => exact absurd rfl hn
      | inf b => rfl
      | _ => simp [Fl.isFin] at hf
    rw [this, hL.inf]; exact (inf_lt rfl).2
  · obtain ⟨e1, e2⟩ := conv_abs hf
    rw [Fl.lt_fin one_facts.1 e1, decide_eq_true_iff, one_facts.2.1, e2] at h
    obtain ⟨g1, g2⟩ := log_pos hL e1 (by rw [e2]; exact fast hf h)
    exact (Fl.le_fin rfl g1).mpr g2.le

/-- logarithms of magnitudes are ordered like the magnitudes -/
theorem log_le {v w : F32} (hv : v.isFin = true) (h1 : 1 < |v.val|) (hw : w = .inf false ∨ w = .inf true ∨
    (w.isFin = true ∧ |v.val| ≤ |w.val|)) :
    Fl.le (L.log (Fl.abs (v.conv f64))) (L.log (Fl.abs (w.conv f64))) = true := by
  obtain ⟨e1, e2⟩ := conv_abs hv
  have hf := logs_fin hL e1 (by rw [e2]; linarith)
  have hi : ∀ b, Fl.abs ((.inf b : F32).conv f64) = .inf false := fun _ => rfl
  rcases hw with rfl | rfl | ⟨hw, h⟩
  · rw [hi, hL.inf]; exact (inf_lt hf).2
  · rw [hi, hL.inf]; exact (inf_lt hf).2
  · obtain ⟨d1, d2⟩ := conv_abs hw
    rcases h.eq_or_lt with h | h
    · have : Fl.abs (v.conv f64) = Fl.abs (w.conv f64) :=
        Fl.eq_of_val e1 d1 (by rw [e2, d2, h]) (by rw [e2]; linarith)
      rw [← this]; exact Fl.le_refl (Fl.isFin_ne_nan hf)
    · have := f32_ratio (v := Fl.abs v) (w := Fl.abs w) (by
        rw [Fl.abs_val]
        have : pow2 (-126) ≤ pow2 0 := pow2_le.mpr (by norm_num)
        rw [show pow2 0 = 1 by rw [pow2_eq]; norm_num] at this
        linarith) (by rw [Fl.abs_val, Fl.abs_val]; exact h)
      rw [Fl.abs_val, Fl.abs_val] at this
      obtain ⟨f1, f2, h3⟩ := log_lt hL e1 d1 (by rw [e2]; linarith) (by rw [e2, d2]; exact this)
      exact (Fl.le_fin f1 f2).mpr h3.le

/-- C64. Velocity products: the colour of every value is the same on every implementation; missing values (NaN) are
black; positive values are red and negative values cyan, up to 1 m/s pale, from 31.5 m/s on saturated; above 1 m/s the
colour never gets darker with the speed. -/
theorem C64_velocity {E : Env} {input : Bytes} {c : Composite} (h : NewComposite E input = .ret c none)
    (hc : c.product ∈ productsIn .mps) :
    ∃ f : Impl → ColorFunc, (∀ I, Cli.colorFunc I L c = some (f I)) ∧ ∀ (I : Impl) (v : F32),
      (∀ J, pixelColor (f I) v = pixelColor (f J) v) ∧
      (v = .nan → pixelColor (f I) v = ⟨0, 0, 0, 255⟩) ∧
      (v.isFin = true → 0 ≤ v.val → v.val ≤ 1 → pixelColor (f I) v = ⟨255, 204, 204, 255⟩) ∧
      (v.isFin = true → v.val < 0 → -1 ≤ v.val → pixelColor (f I) v = ⟨204, 255, 255, 255⟩) ∧
      (v.isFin = true → 1 < v.val → ∃ l, pixelColor (f I) v = ⟨l, 0, 0, 255⟩ ∧
        (v.val ≤ 63 / 2 → Brightness l (Real.log v.val / Real.log (63 / 2)))) ∧
      (v.isFin = true → v.val < -1 → ∃ l, pixelColor (f I) v = ⟨0, l, l, 255⟩ ∧
        (-63 / 2 ≤ v.val → Brightness l (Real.log (-v.val) / Real.log (63 / 2)))) ∧
      (AtLeast v (63 / 2) → pixelColor (f I) v = ⟨255, 0, 0, 255⟩) ∧
      (v = .inf true ∨ (v.isFin = true ∧ v.val ≤ -63 / 2) → pixelColor (f I) v = ⟨0, 255, 255, 255⟩) ∧
      (∀ w : F32, v.isFin = true → w.isFin = true → 1 < v.val → v.val ≤ w.val →
        (pixelColor (f I) v).r ≤ (pixelColor (f I) w).r) ∧
      (∀ w : F32, v.isFin = true → w.isFin = true → v.val < -1 → w.val ≤ v.val →
        (pixelColor (f I) v).g ≤ (pixelColor (f I) w).g) := by
  obtain ⟨o1, o2, o3, m1, m2, m3, hbase, z1, z2⟩ := one_facts
  obtain ⟨lb1, lb2⟩ := log_pos hL m1 (by rw [m2]; norm_num)
  refine ⟨fun I => Radialmap I (Fl.lit f64 (-63 / 2)) (Fl.lit f64 (63 / 2)) L.log,
    fun I => (C46_color_map h I L).2.2.2.1 hc, fun I v => ?_⟩
  obtain ⟨k1, k2, k3⟩ := in_range_fmax (comp := L.log) (min := Fl.lit f64 (-63 / 2)) (max := Fl.lit f64 (63 / 2)) I
    (by rw [hbase]; exact lb1) (by rw [hbase]; exact lb2)
  rw [hbase] at k3
  have hnan : ∀ w : F32, w.conv f64 ≠ .nan → w ≠ .nan := by rintro _ h rfl; exact h rfl
  have hgt : ∀ w : F32, w.isFin = true → 1 < |w.val| → Fl.lt (Fl.lit f64 1) (Fl.abs (w.conv f64)) = true := by
    intro w hw h1
    obtain ⟨e1, e2⟩ := conv_abs hw
    rw [Fl.lt_fin o1 e1, decide_eq_true_iff, o2, e2]; exact h1
  have hpos : ∀ w : F32, w.isFin = true → 0 ≤ w.val → Fl.lt (w.conv f64) (Fl.lit f64 0) = false ∧
      Fl.le (Fl.lit f64 0) (w.conv f64) = true := by
    intro w hw h0
    obtain ⟨e1, e2⟩ := conv_exact hw
    exact ⟨by rw [Fl.lt_fin e1 z1, z2, e2]; simpa using h0, (Fl.le_fin z1 e1).mpr (by rw [z2, e2]; exact h0)⟩
  have hneg : ∀ w : F32, w.isFin = true → w.val < 0 → Fl.lt (w.conv f64) (Fl.lit f64 0) = true := by
    intro w hw h0
    obtain ⟨e1, e2⟩ := conv_exact hw
    rw [Fl.lt_fin e1 z1, z2, e2]; simpa using h0
  have hslow : ∀ w : F32, w.isFin = true → |w.val| ≤ 1 → Fl.le (Fl.abs (w.conv f64)) (Fl.lit f64 1) = true := by
    intro w hw h0
    obtain ⟨e1, e2⟩ := conv_abs hw
    exact (Fl.le_fin e1 o1).mpr (by rw [e2, o2]; exact h0)
  have hnn : ∀ w : F32, w.isFin = true → w.conv f64 ≠ .nan := fun w hw => Fl.isFin_ne_nan (conv_exact hw).1
  have hbl : ∀ w : F32, w.isFin = true → 63 / 2 ≤ |w.val| →
      Fl.le (L.log (Fl.lit f64 (63 / 2))) (L.log (Fl.abs (w.conv f64))) = true := by
    intro w hw h0
    have := log_le hL (v := Fl.lit f32 (63 / 2)) (w := w) (by decide +kernel) (by rw [m3]; norm_num)
      (Or.inr (Or.inr ⟨hw, by rw [m3]; norm_num; norm_num at h0; exact h0⟩))
    rwa [show Fl.abs ((Fl.lit f32 (63 / 2)).conv f64) = Fl.lit f64 (63 / 2) by decide +kernel] at this
  have hlev : ∀ w : F32, w.isFin = true → 1 < |w.val| → |w.val| ≤ 63 / 2 →
      Brightness (level I L.log (Fl.lit f64 (-63 / 2)) (Fl.lit f64 (63 / 2)) (w.conv f64))
        (Real.log ((|w.val| : ℚ) : ℝ) / Real.log (63 / 2)) := by
    intro w hw h1 h2
    obtain ⟨e1, e2⟩ := conv_abs hw
    have h1r : (1 : ℝ) < ((|w.val| : ℚ) : ℝ) := by exact_mod_cast h1
    have h2r : ((|w.val| : ℚ) : ℝ) ≤ 63 / 2 := by
      have : ((|w.val| : ℚ) : ℝ) ≤ (((63 / 2 : ℚ)) : ℝ) := by exact_mod_cast h2
      push_cast at this ⊢; exact this
    have p1 := hL.log _ e1 (by rw [e2]; linarith)
    rw [e2] at p1
    have p2 := hL.log _ m1 (by rw [m2]; norm_num)
    rw [m2, show (((63 / 2 : ℚ)) : ℝ) = 63 / 2 by norm_num] at p2
    have l0 : 0 ≤ Real.log ((|w.val| : ℚ) : ℝ) := Real.log_nonneg h1r.le
    have l1 : Real.log ((|w.val| : ℚ) : ℝ) ≤ Real.log (63 / 2) := Real.log_le_log (by linarith) h2r
    have l2 : 1 - (63 / 2 : ℝ)⁻¹ ≤ Real.log (63 / 2) := Real.one_sub_inv_le_log_of_pos (by norm_num)
    have l3 : (9 / 10 : ℝ) ≤ 1 - (63 / 2 : ℝ)⁻¹ := by norm_num
    have l4 : |Real.log (63 / 2)| = Real.log (63 / 2) := abs_of_nonneg (by linarith)
    have s4 := Fl.div_ap (m := 1 / 2) (q := 1) (e := 4 / 10 ^ 12) (t := 1 / 10 ^ 11) p1 p2 (by norm_num)
      (by rw [l4]; linarith [(by norm_num : (1 / 2 + 1 / 10 ^ 12 : ℝ) ≤ 9 / 10)])
      (by rw [abs_of_nonneg l0, l4]; linarith) (by norm_num) (by norm_num) (by norm_num) (by norm_num)
    unfold level
    rw [hbase]
    refine byte_ap I.u8 s4 ?_ (by rw [div_le_one₀ (by linarith)]; exact l1)
    have g := fast_log hL (hnan w (Fl.isFin_ne_nan (conv_exact hw).1)) (hgt w hw h1)
    have hz : Fl.div Fl.zero (L.log (Fl.lit f64 (63 / 2))) = Fl.zero := by
      rw [Fl.div_fin rfl lb1 lb2.ne', Fl.sign_of_pos lb1 lb2]; simp [Fl.mk, Fl.zero, Fl.val, Fl.sign]
    have := Fl.div_mono lb1 lb2 g
    rw [hz] at this
    exact (Fl.le_fin rfl s4.1).mp this
  unfold pixelColor
  refine ⟨?_, ?_, ?_, ?_, ?_, ?_, ?_, ?_, ?_, ?_⟩
  · intro J
    exact k1 J _ fun hv hl => fast_log hL (hnan _ hv) hl
  · rintro rfl
    exact (C45_radialmap I (.nan : F64)).1 rfl
  · intro hv h0 h1
    have := (C45_radialmap (comp := L.log) (min := Fl.lit f64 (-63 / 2)) (max := Fl.lit f64 (63 / 2)) I (v.conv f64)).2.2.2.2.2
      (hslow v hv (by rw [abs_of_nonneg h0]; exact h1))
    rw [(hpos v hv h0).1] at this
    exact this
  · intro hv h0 h1
    have := (C45_radialmap (comp := L.log) (min := Fl.lit f64 (-63 / 2)) (max := Fl.lit f64 (63 / 2)) I (v.conv f64)).2.2.2.2.2
      (hslow v hv (by rw [abs_of_neg h0]; linarith))
    rw [hneg v hv h0] at this
    exact this
  · intro hv h1
    have a1 := hgt v hv (by rw [abs_of_pos (by linarith)]; exact h1)
    have a2 : Fl.le (Fl.abs (v.conv f64)) (Fl.lit f64 1) = false := by
      cases e : Fl.le (Fl.abs (v.conv f64)) (Fl.lit f64 1)
      · rfl
      · rw [not_lt_of_le e] at a1; simp at a1
    refine ⟨level I L.log (Fl.lit f64 (-63 / 2)) (Fl.lit f64 (63 / 2)) (v.conv f64), (radial_eq I (hnn v hv)).trans ?_, fun h2 => ?_⟩
    · rw [a2, (hpos v hv (by linarith)).1]; rfl
    · have := hlev v hv (by rw [abs_of_pos (by linarith)]; linarith) (by rw [abs_of_pos (by linarith)]; linarith)
      rw [abs_of_pos (by linarith)] at this
      push_cast at this
      exact this
  · intro hv h1
    have a1 := hgt v hv (by rw [abs_of_neg (by linarith)]; linarith)
    have a2 : Fl.le (Fl.abs (v.conv f64)) (Fl.lit f64 1) = false := by
      cases e : Fl.le (Fl.abs (v.conv f64)) (Fl.lit f64 1)
      · rfl
      · rw [not_lt_of_le e] at a1; simp at a1
    refine ⟨level I L.log (Fl.lit f64 (-63 / 2)) (Fl.lit f64 (63 / 2)) (v.conv f64), (radial_eq I (hnn v hv)).trans ?_, fun h2 => ?_⟩
    · rw [a2, hneg v hv (by linarith)]; rfl
    · have := hlev v hv (by rw [abs_of_neg (by linarith)]; linarith) (by rw [abs_of_neg (by linarith)]; linarith)
      rw [abs_of_neg (by linarith)] at this
      push_cast at this
      exact this
  · rintro (rfl | ⟨hv, h1⟩)
    · have := k3 ((.inf false : F32).conv f64) (by decide +kernel) (by
        show Fl.le _ (L.log (.inf false)) = true
        rw [hL.inf]; exact (inf_lt lb1).2)
      rw [show Fl.lt ((.inf false : F32).conv f64) (Fl.lit f64 0) = false by decide +kernel] at this
      exact this
    · have := k3 (v.conv f64) (hgt v hv (by rw [abs_of_pos (by linarith)]; linarith))
        (hbl v hv (by rw [abs_of_pos (by linarith)]; exact h1))
      rw [(hpos v hv (by linarith)).1] at this
      exact this
  · rintro (rfl | ⟨hv, h1⟩)
    · have := k3 ((.inf true : F32).conv f64) (by decide +kernel) (by
        show Fl.le _ (L.log (.inf false)) = true
        rw [hL.inf]; exact (inf_lt lb1).2)
      rw [show Fl.lt ((.inf true : F32).conv f64) (Fl.lit f64 0) = true by decide +kernel] at this
      exact this
    · have := k3 (v.conv f64) (hgt v hv (by rw [abs_of_neg (by linarith)]; linarith))
        (hbl v hv (by rw [abs_of_neg (by linarith)]; linarith))
      rw [hneg v hv (by linarith)] at this
      exact this
  · intro w hv hw h1 h2
    have a1 : 1 < |v.val| := by rw [abs_of_pos (by linarith)]; exact h1
    have a2 : |v.val| ≤ |w.val| := by rw [abs_of_pos (by linarith), abs_of_pos (by linarith)]; exact h2
    exact (k2 (v.conv f64) (w.conv f64) (hgt v hv a1)
      ((Fl.le_fin (conv_abs hv).1 (conv_abs hw).1).mpr (by rw [(conv_abs hv).2, (conv_abs hw).2]; exact a2))
      (fast_log hL (hnan _ (hnn v hv)) (hgt v hv a1)) (log_le hL hv a1 (Or.inr (Or.inr ⟨hw, a2⟩)))).2
      (hpos v hv (by linarith)).2 (hpos w hw (by linarith)).2
  · intro w hv hw h1 h2
    have a1 : 1 < |v.val| := by rw [abs_of_neg (by linarith)]; linarith
    have a2 : |v.val| ≤ |w.val| := by rw [abs_of_neg (by linarith), abs_of_neg (by linarith)]; linarith
    exact (k2 (v.conv f64) (w.conv f64) (hgt v hv a1)
      ((Fl.le_fin (conv_abs hv).1 (conv_abs hw).1).mpr (by rw [(conv_abs hv).2, (conv_abs hw).2]; exact a2))
      (fast_log hL (hnan _ (hnn v hv)) (hgt v hv a1)) (log_le hL hv a1 (Or.inr (Or.inr ⟨hw, a2⟩)))).1
      (hneg v hv (by linarith)) (hneg w hw (by linarith))

end

/-! ### the hypotheses can be met -/

theorem log_pow2 (e : Int) : Real.log (pow2 e : ℝ) = e * Real.log 2 := by
  rw [pow2_eq]; push_cast; rw [Real.log_zpow]

/-- logarithms of float64 numbers are at most 1100 -/
theorem log_range {x : F64} (hx : x.isFin = true) (h0 : 0 < x.val) : |Real.log (x.val : ℝ)| ≤ 1100 := by
  obtain ⟨n, hn⟩ := Fl.val_multiple x
  have hp := pow2_pos f64.emin
  have h1 : pow2 f64.emin ≤ x.val := by
    rw [hn] at h0 ⊢
    have : (0 : ℚ) < n := by
      by_contra hc
      have := mul_nonpos_of_nonpos_of_nonneg (not_lt.mp hc) hp.le
      linarith
    have : (1 : ℚ) ≤ n := by exact_mod_cast this
    nlinarith
  have h2 : x.val < pow2 f64.emax := lt_of_abs_lt x.val_repr.2
  have h1r : (pow2 f64.emin : ℝ) ≤ x.val := by exact_mod_cast h1
  have h2r : (x.val : ℝ) ≤ pow2 f64.emax := by exact_mod_cast h2.le
  have hpr : (0 : ℝ) < pow2 f64.emin := by exact_mod_cast hp
  have l1 := Real.log_le_log hpr h1r
  have l2 := Real.log_le_log (lt_of_lt_of_le hpr h1r) h2r
  rw [log_pow2] at l1 l2
  have e1 : f64.emin = -1074 := rfl
  have e2 : f64.emax = 1024 := rfl
  rw [e1] at l1
  rw [e2] at l2
  push_cast at l1 l2
  have g0 : 0 ≤ Real.log 2 := Real.log_nonneg (by norm_num)
  have g1 : Real.log 2 ≤ 1 := by
    have := Real.log_le_sub_one_of_pos (x := (2 : ℝ)) (by norm_num); linarith
  rw [abs_le]; constructor <;> linarith

/-- a library with the special cases of math.Log and otherwise rounded (nearly) exact logarithms -/
noncomputable def logMath : MathLib := { exactMath with
  log := fun x => match x with
    | .nan => .nan
    | .inf b => if b then .nan else .inf false
    | x => if x.val = 0 then .inf true else if x.val < 0 then .nan else Fl.lit f64 (ratNear (Real.log x.val)) }

theorem logMath_fin {x : F64} (h : x.isFin = true) : logMath.log x =
    if x.val = 0 then .inf true else if x.val < 0 then .nan else Fl.lit f64 (ratNear (Real.log x.val)) := by
  cases x with
  | nan => simp [Fl.isFin] at h
  | inf b => simp [Fl.isFin] at h
  | _ => rfl

theorem logMath_accurate : AccurateLog logMath where
  log x hx h0 := by
    have h0' : 0 < x.val := by exact_mod_cast h0
    rw [logMath_fin hx, if_neg h0'.ne', if_neg (not_lt.mpr h0'.le)]
    exact Fl.lit_ap (M := 1101) (ratNear_spec _) (by linarith [log_range hx h0', (by norm_num : (1 / 10 ^ 20 : ℝ) ≤ 1)])
      (by norm_num) (by norm_num) (by norm_num)
  zero x hx h0 := by rw [logMath_fin hx, if_pos h0]
  neg x h := by
    rcases h with ⟨hx, h⟩ | rfl
    · rw [logMath_fin hx, if_neg h.ne, if_pos h]
    · rfl
  inf := rfl
  nan := rfl

theorem parsesWith {b : Bytes} {p : Composite → Bool}
    (h : (match NewComposite env0 b with | .ret c none => p c | _ => false) = true) :
    ∃ c, NewComposite env0 b = .ret c none ∧ p c = true := by
  split at h
  · rename_i c hc; exact ⟨c, hc, h⟩
  · simp at h

/-- a missing value, 409.5 mm, 0.1 mm and -0.2 mm -/
example (I : Impl) : ∃ c f, NewComposite env0 sampleRW = .ret c none ∧ Cli.colorFunc I logMath c = some f ∧
    c.plainData = [[.nan, Fl.lit f32 (4095 / 10)], [Fl.lit f32 (1 / 10), Fl.lit f32 (-2 / 10)]] ∧
    pixelColor f .nan = ⟨I.u8 .nan, I.u8 .nan, I.u8 .nan, 255⟩ ∧
    pixelColor f (Fl.lit f32 (4095 / 10)) = ⟨191, 127, 255, 255⟩ ∧
    Visible (pixelColor f (Fl.lit f32 (1 / 10))) ∧
    pixelColor f (Fl.lit f32 (-2 / 10)) = ⟨I.u8 .nan, I.u8 .nan, I.u8 .nan, 255⟩ := by
  obtain ⟨c, h, hp⟩ := parsesWith (b := sampleRW) (p := fun c => c.product == str "RW" && c.plainData ==
    [[.nan, Fl.lit f32 (4095 / 10)], [Fl.lit f32 (1 / 10), Fl.lit f32 (-2 / 10)]]) (by decide +kernel)
  simp only [Bool.and_eq_true, beq_iff_eq] at hp
  obtain ⟨f, hf, hv⟩ := C64_rain logMath_accurate h (by rw [hp.1]; decide)
  refine ⟨c, f I, h, hf I, hp.2, ?_, ?_, ?_, ?_⟩
  · exact (hv I .nan).2.2.2 (Or.inl rfl)
  · refine (hv I _).2.2.1 (Or.inr ?_)
    rcases rainMax_cases c.interval with e | e | e <;> rw [e] <;> decide +kernel
  · exact ((hv I _).2.1 (Or.inr (by decide +kernel))).1
  · exact (hv I _).2.2.2 (Or.inr (Or.inr (by decide +kernel)))

/-- a radial velocity product with the levels -10 and 20 m/s -/
example : ∃ c f, NewComposite env0 (str "PV021310100000217BY  1LV 2-10.0 20.0BG002004" ++ [3] ++
      [1, 17, 0x21, 0x12, 10, 2, 16, 0x4F, 10]) = .ret c none ∧ Cli.colorFunc impl0 logMath c = some f ∧
    c.plainData = [[.nan, Fl.lit f32 (-10), Fl.lit f32 (-10), Fl.lit f32 20], [.nan, .nan, .nan, .nan]] ∧
    pixelColor f .nan = ⟨0, 0, 0, 255⟩ ∧
    (∃ l, pixelColor f (Fl.lit f32 (-10)) = ⟨0, l, l, 255⟩ ∧ Brightness l (Real.log 10 / Real.log (63 / 2))) ∧
    (∃ l, pixelColor f (Fl.lit f32 20) = ⟨l, 0, 0, 255⟩ ∧ Brightness l (Real.log 20 / Real.log (63 / 2))) := by
  obtain ⟨c, h, hp⟩ := parsesWith (b := str "PV021310100000217BY  1LV 2-10.0 20.0BG002004" ++ [3] ++
      [1, 17, 0x21, 0x12, 10, 2, 16, 0x4F, 10]) (p := fun c => c.product == str "PV" && c.plainData ==
    [[.nan, Fl.lit f32 (-10), Fl.lit f32 (-10), Fl.lit f32 20], [.nan, .nan, .nan, .nan]]) (by decide +kernel)
  simp only [Bool.and_eq_true, beq_iff_eq] at hp
  obtain ⟨f, hf, hv⟩ := C64_velocity logMath_accurate h (by rw [hp.1]; decide)
  have v1 : (Fl.lit f32 (-10)).isFin = true ∧ (Fl.lit f32 (-10)).val = -10 := by decide +kernel
  have v2 : (Fl.lit f32 20).isFin = true ∧ (Fl.lit f32 20).val = 20 := by decide +kernel
  refine ⟨c, f impl0, h, hf impl0, hp.2, (hv impl0 .nan).2.1 rfl, ?_, ?_⟩
  · obtain ⟨l, h1, h2⟩ := (hv impl0 (Fl.lit f32 (-10))).2.2.2.2.2.1 v1.1 (by rw [v1.2]; norm_num)
    have := h2 (by rw [v1.2]; norm_num)
    rw [v1.2] at this
    norm_num at this
    exact ⟨l, h1, this⟩
  · obtain ⟨l, h1, h2⟩ := (hv impl0 (Fl.lit f32 20)).2.2.2.2.1 v2.1 (by rw [v2.2]; norm_num)
    have := h2 (by rw [v2.2]; norm_num)
    rw [v2.2] at this
    norm_num at this
    exact ⟨l, h1, this⟩

/-- an echo top product with the levels 1.0 and 9.0 km, and a reflectivity product: -12.5 dBZ is black -/
example (I : Impl) : ∃ c f, NewComposite env0 (str "PE021310100000217BY  1LV 2  1.0  9.0BG002004" ++ [3] ++
      [1, 17, 0x21, 0x12, 10, 2, 16, 0x4F, 10]) = .ret c none ∧ Cli.colorFunc I logMath c = some f ∧
    c.plainData = [[.nan, Fl.lit f32 1, Fl.lit f32 1, Fl.lit f32 9], [.nan, .nan, .nan, .nan]] ∧
    Brightness (pixelColor f (Fl.lit f32 9)).r (9 / 15) := by
  obtain ⟨c, h, hp⟩ := parsesWith (b := str "PE021310100000217BY  1LV 2  1.0  9.0BG002004" ++ [3] ++
      [1, 17, 0x21, 0x12, 10, 2, 16, 0x4F, 10]) (p := fun c => c.product == str "PE" && c.plainData ==
    [[.nan, Fl.lit f32 1, Fl.lit f32 1, Fl.lit f32 9], [.nan, .nan, .nan, .nan]]) (by decide +kernel)
  simp only [Bool.and_eq_true, beq_iff_eq] at hp
  obtain ⟨f, hf, hv⟩ := C64_echo_tops h (by rw [hp.1]; decide) logMath
  have v1 : (Fl.lit f32 9).isFin = true ∧ (Fl.lit f32 9).val = 9 := by decide +kernel
  refine ⟨c, f I, h, hf I, hp.2, ?_⟩
  have := (hv I (Fl.lit f32 9)).2.2.2.1 v1.1 (by rw [v1.2]; norm_num) (by rw [v1.2]; norm_num)
  rw [v1.2] at this
  push_cast at this
  exact this

example (I : Impl) : ∃ c f, NewComposite env0 sampleRX = .ret c none ∧ Cli.colorFunc I logMath c = some f ∧
    pixelColor f (Fl.lit f32 (-25 / 2)) = ⟨0, 0, 0, 255⟩ ∧ Visible (pixelColor f (Fl.lit f32 20)) := by
  obtain ⟨c, h, hp⟩ := parsesWith (b := sampleRX) (p := fun c => c.product == str "RX") (by decide +kernel)
  simp only [beq_iff_eq] at hp
  obtain ⟨f, hf, hv⟩ := C64_reflectivity h (by rw [hp]; decide) logMath
  exact ⟨c, f I, h, hf I, (hv I _).1 (Or.inr (by decide +kernel)), ((hv I _).2.1 (Or.inr (by decide +kernel))).1⟩

end Props
