/-
C09, C10: accuracy and monotonicity of decoded pixel values.
-/
import Mathlib.Tactic.Linarith
import Mathlib.Tactic.IntervalCases
import Verif.Go.Float
import Verif.Spec.Pixels

namespace Props
open Go Spec

/-- 10^p as a rational, computable -/
def tenPow (p : Int) : ℚ := if 0 ≤ p then ((10 ^ p.toNat : Nat) : ℚ) else mkRat 1 (10 ^ (-p).toNat)

theorem tenPow_eq (p : Int) : tenPow p = (10 : ℚ) ^ p := by
  unfold tenPow
  by_cases h : 0 ≤ p
  · rw [if_pos h]
    obtain ⟨n, rfl⟩ := Int.eq_ofNat_of_zero_le h
    simp
  · rw [if_neg h]
    obtain ⟨n, rfl⟩ : ∃ n : Nat, p = -(n : Int) := ⟨(-p).toNat, by omega⟩
    rw [Rat.mkRat_eq_div]
    simp

/-- the scale factor: float32 of Pow10, on the whole range of usable exponents -/
theorem pow10_table : ∀ k : Fin 72, let P : F32 := (Fl.pow10 ((k.val : Int) - 37)).conv f32
    P.isFin = true ∧ pow2 (-126) ≤ P.val ∧ P.val ≤ pow2 113 ∧
      |P.val - tenPow ((k.val : Int) - 37)| * 16000000 ≤ tenPow ((k.val : Int) - 37) ∧
      (k.val = 37 → P.val = 1) := by decide +kernel

theorem pow10_f32 {p : Int} (h1 : -37 ≤ p) (h2 : p ≤ 34) :
    ((Fl.pow10 p).conv f32).isFin = true ∧ pow2 (-126) ≤ ((Fl.pow10 p).conv f32).val ∧
    ((Fl.pow10 p).conv f32).val ≤ pow2 113 ∧
    |((Fl.pow10 p).conv f32).val - (10 : ℚ) ^ p| ≤ (10 : ℚ) ^ p / 16000000 ∧
    (p = 0 → ((Fl.pow10 p).conv f32).val = 1) := by
  have := pow10_table ⟨(p + 37).toNat, by omega⟩
  have e : (((p + 37).toNat : Nat) : Int) - 37 = p := by omega
  simp only [e, tenPow_eq] at this
  obtain ⟨a, b, c, d, f⟩ := this
  refine ⟨a, b, c, ?_, fun hp => f (by omega)⟩
  rw [le_div_iff₀ (by norm_num)]
  exact d

theorem lit_int {v : Int} (h : |v| ≤ 4095) : (Fl.lit f32 (v : ℚ)).isFin = true ∧ (Fl.lit f32 (v : ℚ)).val = v := by
  have hr : rnd f32 (v : ℚ) = v := by
    have := rnd_exact f32 (n := v) (e := 0) (by decide) (le_trans h (by decide))
    simpa using this
  have hb : |(v : ℚ)| ≤ 4095 := by exact_mod_cast h
  have : |rnd f32 (v : ℚ)| < pow2 f32.emax := by
    rw [hr]
    refine lt_of_le_of_lt hb ?_
    decide +kernel
  obtain ⟨h1, h2⟩ := Fl.mk_fin (b := false) this
  exact ⟨h1, h2.trans hr⟩

theorem rnd_bound {f : Fmt} {q : ℚ} {e : Int} (he : f.emin ≤ e) (h : |q| ≤ pow2 e) : |rnd f q| ≤ pow2 e := by
  have key : ∀ r : ℚ, 0 ≤ r → r ≤ pow2 e → rnd f r ≤ pow2 e := by
    intro r h0 h1
    rcases h0.eq_or_lt with rfl | hp
    · rw [rnd_zero]; exact (pow2_pos e).le
    · exact rnd_le_pow2 f hp he h1
  rw [abs_le] at h ⊢
  rcases le_total 0 q with h0 | h0
  · have := key q h0 h.2
    have := rnd_nonneg f h0
    exact ⟨by linarith [(pow2_pos e).le], by linarith⟩
  · have h1 := key (-q) (by linarith) (by linarith)
    have h2 := rnd_nonneg f (q := -q) (by linarith)
    rw [rnd_neg] at h1 h2
    exact ⟨by linarith, by linarith [(pow2_pos e).le]⟩

/-- scaling a raw value: finite, and equal to the rounded product -/
theorem scaled_val {p v : Int} (h1 : -37 ≤ p) (h2 : p ≤ 34) (hv : |v| ≤ 4095) :
    (scaled p v).isFin = true ∧ (scaled p v).val = rnd f32 (v * ((Fl.pow10 p).conv f32).val) ∧
    |(scaled p v).val| ≤ pow2 126 := by
  obtain ⟨a, b, c, d, _⟩ := pow10_f32 h1 h2
  obtain ⟨l1, l2⟩ := lit_int hv
  have hb : |(v : ℚ)| ≤ 4095 := by exact_mod_cast hv
  have hpos : 0 < ((Fl.pow10 p).conv f32).val := lt_of_lt_of_le (pow2_pos _) b
  have hq : |(v : ℚ) * ((Fl.pow10 p).conv f32).val| ≤ pow2 126 := by
    rw [abs_mul, abs_of_pos hpos]
    calc |(v : ℚ)| * ((Fl.pow10 p).conv f32).val ≤ 4095 * pow2 113 := by
          apply mul_le_mul hb c hpos.le (by norm_num)
      _ ≤ pow2 126 := by decide +kernel
  have hr := rnd_bound (f := f32) (e := 126) (by decide) hq
  have hlt : |rnd f32 ((v : ℚ) * ((Fl.pow10 p).conv f32).val)| < pow2 f32.emax :=
    lt_of_le_of_lt hr (pow2_lt.mpr (by decide))
  unfold scaled
  rw [Fl.mul_fin l1 a, l2]
  obtain ⟨g1, g2⟩ := Fl.mk_fin (f := f32) (b := ((Fl.lit f32 (v : ℚ)).sign ^^ ((Fl.pow10 p).conv f32).sign)) hlt
  exact ⟨g1, g2, by rw [g2]; exact hr⟩

/-- C09. Decoded values are accurate: for products not in dBZ the float32 differs from raw value times power of ten
by a relative error of at most 2^-22. -/
theorem C09_accuracy {p v : Int} (h1 : -37 ≤ p) (h2 : p ≤ 34) (hv : |v| ≤ 4095) :
    (decoded false p v).isFin = true ∧
    |(decoded false p v).val - v * (10 : ℚ) ^ p| ≤ |v * (10 : ℚ) ^ p| / 2 ^ 22 := by
  obtain ⟨a, b, c, d, _⟩ := pow10_f32 h1 h2
  obtain ⟨g1, g2, _⟩ := scaled_val h1 h2 hv
  have e : decoded false p v = scaled p v := rfl
  rw [e]
  refine ⟨g1, ?_⟩
  rw [g2]
  generalize ((Fl.pow10 p).conv f32).val = P at *
  have hT : 0 < (10 : ℚ) ^ p := by positivity
  generalize (10 : ℚ) ^ p = T at *
  by_cases h0 : v = 0
  · subst h0; simp
  have hvr : 1 ≤ |(v : ℚ)| := by exact_mod_cast Int.one_le_abs h0
  have hpos : 0 < P := lt_of_lt_of_le (pow2_pos _) b
  have hnorm : pow2 (f32.emin + f32.prec - 1) ≤ |(v : ℚ) * P| := by
    rw [abs_mul, abs_of_pos hpos]
    have e2 : f32.emin + (f32.prec : Int) - 1 = -126 := by decide
    rw [e2]
    nlinarith
  have hrel := rnd_rel_err f32 hnorm
  have e3 : pow2 (-(f32.prec : Int)) = 1 / 16777216 := by decide +kernel
  rw [e3, abs_mul, abs_of_pos hpos] at hrel
  rw [abs_mul, abs_of_pos hT]
  have hvP : |(v : ℚ) * P - v * T| ≤ |(v : ℚ)| * (T / 16000000) := by
    rw [← mul_sub, abs_mul]; exact mul_le_mul_of_nonneg_left d (abs_nonneg _)
  have htri : |rnd f32 ((v : ℚ) * P) - v * T| ≤ |rnd f32 ((v : ℚ) * P) - v * P| + |(v : ℚ) * P - v * T| :=
    abs_sub_le _ _ _
  have hPT : P ≤ T + T / 16000000 := by have := (abs_le.mp d).2; linarith
  have hvP2 : |(v : ℚ)| * P ≤ |(v : ℚ)| * (T + T / 16000000) := mul_le_mul_of_nonneg_left hPT (abs_nonneg _)
  have hvT : 0 ≤ |(v : ℚ)| * T := by positivity
  generalize |(v : ℚ)| = a at *
  have e4 : a * (T / 16000000) = a * T / 16000000 := by ring
  have e5 : a * (T + T / 16000000) = a * T + a * T / 16000000 := by ring
  rw [e4] at hvP
  rw [e5] at hvP2
  norm_num
  linarith

/-- C09. With precision 0 the raw value is decoded exactly. -/
theorem C09_precision_zero {v : Int} (hv : |v| ≤ 4095) :
    (decoded false 0 v).isFin = true ∧ (decoded false 0 v).val = v := by
  obtain ⟨_, _, _, _, f⟩ := pow10_f32 (p := 0) (by decide) (by decide)
  obtain ⟨g1, g2, _⟩ := scaled_val (p := 0) (by decide) (by decide) hv
  refine ⟨g1, ?_⟩
  show (scaled 0 v).val = v
  rw [g2, f rfl, mul_one]
  have := rnd_exact f32 (n := v) (e := 0) (by decide) (le_trans hv (by decide))
  simpa using this

theorem lit_two : (Fl.lit f32 2).isFin = true ∧ (Fl.lit f32 2).val = 2 := by decide +kernel
theorem lit_325 : (Fl.lit f32 (65 / 2)).isFin = true ∧ (Fl.lit f32 (65 / 2)).val = 65 / 2 := by decide +kernel

/-- converting to dBZ: halved and shifted, rounding after each step -/
theorem dbz_val {x : F32} (hx : x.isFin = true) (hb : |x.val| ≤ pow2 126) :
    (Fl.sub (Fl.div x (Fl.lit f32 2)) (Fl.lit f32 (65 / 2))).isFin = true ∧
    (Fl.sub (Fl.div x (Fl.lit f32 2)) (Fl.lit f32 (65 / 2))).val = rnd f32 (rnd f32 (x.val / 2) - 65 / 2) := by
  have b1 : |x.val / 2| ≤ pow2 125 := by
    rw [abs_div, abs_of_pos (by norm_num : (0 : ℚ) < 2)]
    have := pow2_succ 125
    rw [show (125 : Int) + 1 = 126 from rfl] at this
    rw [div_le_iff₀ (by norm_num)]; linarith
  have b2 := rnd_bound (f := f32) (e := 125) (by decide) b1
  have hd := Fl.div_fin hx lit_two.1 (by rw [lit_two.2]; norm_num)
  rw [lit_two.2] at hd
  obtain ⟨g1, g2⟩ := Fl.mk_fin (f := f32) (b := (x.sign ^^ (Fl.lit f32 2).sign))
    (lt_of_le_of_lt b2 (pow2_lt.mpr (by decide)))
  rw [hd]
  rw [Fl.sub_fin g1 lit_325.1, lit_325.2, g2]
  apply Fl.mk_fin
  have : |rnd f32 (x.val / 2) - 65 / 2| ≤ pow2 126 := by
    have h1 : (65 : ℚ) / 2 ≤ pow2 125 := by decide +kernel
    have h2 := pow2_succ 125
    rw [show (125 : Int) + 1 = 126 from rfl] at h2
    rw [abs_le] at b2 ⊢
    constructor <;> linarith [pow2_pos 125]
  exact lt_of_le_of_lt (rnd_bound (f := f32) (e := 126) (by decide) this) (pow2_lt.mpr (by decide))

/-- C09. Reflectivities with precision 0 are exact: half the raw value minus 32.5. -/
theorem C09_dbz_exact {v : Int} (hv : |v| ≤ 4095) :
    (decoded true 0 v).isFin = true ∧ (decoded true 0 v).val = v / 2 - 65 / 2 := by
  obtain ⟨g1, g2⟩ := C09_precision_zero hv
  obtain ⟨_, _, g3⟩ := scaled_val (p := 0) (by decide) (by decide) hv
  have g2' : (scaled 0 v).val = v := g2
  obtain ⟨k1, k2⟩ := dbz_val (x := scaled 0 v) g1 g3
  refine ⟨k1, ?_⟩
  show (Fl.sub (Fl.div (scaled 0 v) (Fl.lit f32 2)) (Fl.lit f32 (65 / 2))).val = _
  have hp : pow2 (-1) = 1 / 2 := by decide +kernel
  have e1 : rnd f32 ((v : ℚ) / 2) = v / 2 := by
    have := rnd_exact f32 (n := v) (e := -1) (by decide) (le_trans hv (by decide))
    rw [hp] at this
    rw [show (v : ℚ) / 2 = v * (1 / 2) by ring]; exact this
  have e2 : rnd f32 ((v : ℚ) / 2 - 65 / 2) = v / 2 - 65 / 2 := by
    have hb : |v - 65| ≤ 2 ^ f32.prec := by
      have := abs_le.mp hv
      have e : (2 : Int) ^ f32.prec = 16777216 := by decide
      rw [e, abs_le]; omega
    have := rnd_exact f32 (n := v - 65) (e := -1) (by decide) hb
    rw [hp] at this
    push_cast at this
    rw [show (v : ℚ) / 2 - 65 / 2 = (v - 65) * (1 / 2) by ring]; exact this
  rw [k2, g2', e1, e2]

theorem decoded_val {dBZ : Bool} {p v : Int} (h1 : -37 ≤ p) (h2 : p ≤ 34) (hv : |v| ≤ 4095) :
    (decoded dBZ p v).isFin = true ∧ (decoded dBZ p v).val =
      if dBZ then rnd f32 (rnd f32 ((scaled p v).val / 2) - 65 / 2) else (scaled p v).val := by
  obtain ⟨g1, _, g3⟩ := scaled_val h1 h2 hv
  cases dBZ with
  | false => exact ⟨g1, rfl⟩
  | true => exact dbz_val g1 g3

/-- error of one rounding, normal or subnormal -/
theorem rnd_err32 (q : ℚ) : |rnd f32 q - q| ≤ |q| / 16777216 + 1 / 1000000000000 := by
  by_cases h : pow2 (f32.emin + f32.prec - 1) ≤ |q|
  · have := rnd_rel_err f32 h
    have e3 : pow2 (-(f32.prec : Int)) = 1 / 16777216 := by decide +kernel
    rw [e3] at this
    linarith
  · have h2 : |q| < pow2 (f32.emin + f32.prec) := by
      refine lt_trans (not_le.mp h) (pow2_lt.mpr (by decide))
    have := rnd_abs_err f32 h2
    have e3 : pow2 (f32.emin - 1) ≤ 1 / 1000000000000 := by decide +kernel
    have := abs_nonneg q
    linarith

/-- C09. Reflectivities with any precision: the decoded value is close to half the scaled raw value minus 32.5. -/
theorem C09_dbz_accuracy {p v : Int} (h1 : -37 ≤ p) (h2 : p ≤ 34) (hv : |v| ≤ 4095) :
    (decoded true p v).isFin = true ∧
    |(decoded true p v).val - (v * (10 : ℚ) ^ p / 2 - 65 / 2)| ≤ (|v * (10 : ℚ) ^ p| + 65) / 2 ^ 22 := by
  obtain ⟨g1, g2⟩ := decoded_val (dBZ := true) h1 h2 hv
  refine ⟨g1, ?_⟩
  rw [g2]
  simp only [if_true]
  have ha : |(scaled p v).val - v * (10 : ℚ) ^ p| ≤ |v * (10 : ℚ) ^ p| / 2 ^ 22 := (C09_accuracy h1 h2 hv).2
  generalize (scaled p v).val = x at *
  generalize (v : ℚ) * (10 : ℚ) ^ p = t at *
  have r1 := rnd_err32 (x / 2)
  generalize rnd f32 (x / 2) = y at *
  have r2 := rnd_err32 (y - 65 / 2)
  generalize rnd f32 (y - 65 / 2) = z at *
  norm_num at ha ⊢
  have b1 : |x| ≤ |t| + |t| / 4194304 := by
    have : |x| ≤ |t| + |x - t| := by
      have := abs_add_le t (x - t); rwa [add_sub_cancel] at this
    linarith
  have b2 : |x / 2| = |x| / 2 := by rw [abs_div]; norm_num
  rw [b2] at r1
  have b3 : |y| ≤ |x| / 2 + |y - x / 2| := by
    have := abs_add_le (x / 2) (y - x / 2); rwa [add_sub_cancel, b2] at this
  have b4 : |y - 65 / 2| ≤ |y| + 65 / 2 := by
    have := abs_sub y (65 / 2); rwa [abs_of_pos (by norm_num : (0 : ℚ) < 65 / 2)] at this
  have tri : |z - (t / 2 - 65 / 2)| ≤ |z - (y - 65 / 2)| + |y - x / 2| + |x - t| / 2 := by
    have e : z - (t / 2 - 65 / 2) = (z - (y - 65 / 2)) + (y - x / 2) + (x - t) / 2 := by ring
    rw [e]
    have := abs_add_three (z - (y - 65 / 2)) (y - x / 2) ((x - t) / 2)
    rwa [abs_div, abs_of_pos (by norm_num : (0 : ℚ) < 2)] at this
  have := abs_nonneg t
  linarith

/-- C10. Decoding preserves order: a larger raw value never decodes to a smaller value. -/
theorem C10_monotone {dBZ : Bool} {p v w : Int} (h1 : -37 ≤ p) (h2 : p ≤ 34) (hv : |v| ≤ 4095) (hw : |w| ≤ 4095)
    (hvw : v ≤ w) : Fl.lt (decoded dBZ p w) (decoded dBZ p v) = false := by
  obtain ⟨a1, a2⟩ := decoded_val (dBZ := dBZ) h1 h2 hv
  obtain ⟨b1, b2⟩ := decoded_val (dBZ := dBZ) h1 h2 hw
  rw [Fl.lt_fin b1 a1, decide_eq_false_iff_not, not_lt, a2, b2]
  obtain ⟨_, hb, _⟩ := pow10_f32 h1 h2
  have hpos := lt_of_lt_of_le (pow2_pos _) hb
  have hs : (scaled p v).val ≤ (scaled p w).val := by
    rw [(scaled_val h1 h2 hv).2.1, (scaled_val h1 h2 hw).2.1]
    apply rnd_mono
    apply mul_le_mul_of_nonneg_right _ hpos.le
    exact_mod_cast hvw
  cases dBZ with
  | false => exact hs
  | true =>
    simp only [if_true]
    apply rnd_mono
    have : rnd f32 ((scaled p v).val / 2) ≤ rnd f32 ((scaled p w).val / 2) := rnd_mono _ (by linarith)
    linarith

/-- C10. For products not in dBZ distinct raw values decode to distinct values, in the same order. -/
theorem C10_strict {p v w : Int} (h1 : -37 ≤ p) (h2 : p ≤ 34) (hv : |v| ≤ 4095) (hw : |w| ≤ 4095)
    (hvw : v < w) : Fl.lt (decoded false p v) (decoded false p w) = true := by
  obtain ⟨a1, a2⟩ := C09_accuracy h1 h2 hv
  obtain ⟨b1, b2⟩ := C09_accuracy h1 h2 hw
  rw [Fl.lt_fin a1 b1, decide_eq_true_iff]
  have hT : 0 < (10 : ℚ) ^ p := by positivity
  generalize (10 : ℚ) ^ p = T at *
  rw [abs_mul, abs_of_pos hT] at a2 b2
  have c1 : |(v : ℚ)| ≤ 4095 := by exact_mod_cast hv
  have c2 : |(w : ℚ)| ≤ 4095 := by exact_mod_cast hw
  have d1 : |(v : ℚ)| * T ≤ 4095 * T := mul_le_mul_of_nonneg_right c1 hT.le
  have d2 : |(w : ℚ)| * T ≤ 4095 * T := mul_le_mul_of_nonneg_right c2 hT.le
  have hd : (v : ℚ) + 1 ≤ w := by exact_mod_cast hvw
  have hd2 : ((v : ℚ) + 1) * T ≤ w * T := mul_le_mul_of_nonneg_right hd hT.le
  have e1 := (abs_le.mp a2).2
  have e2 := (abs_le.mp b2).1
  norm_num at e1 e2
  linarith

/-- C10. For reflectivities with four decimals at most as well. -/
theorem C10_strict_dbz {p v w : Int} (h1 : -4 ≤ p) (h2 : p ≤ 34) (hv : |v| ≤ 4095) (hw : |w| ≤ 4095) (hvw : v < w) :
    Fl.lt (decoded true p v) (decoded true p w) = true := by
  obtain ⟨a1, a2⟩ := C09_dbz_accuracy (by omega) h2 hv
  obtain ⟨b1, b2⟩ := C09_dbz_accuracy (by omega) h2 hw
  rw [Fl.lt_fin a1 b1, decide_eq_true_iff]
  have hT : (1 : ℚ) / 10000 ≤ 10 ^ p := by
    have := zpow_le_zpow_right₀ (by norm_num : (1 : ℚ) ≤ 10) h1
    norm_num at this ⊢; linarith
  generalize (10 : ℚ) ^ p = T at *
  have hT0 : 0 < T := by linarith
  rw [abs_mul, abs_of_pos hT0] at a2 b2
  have c1 : |(v : ℚ)| ≤ 4095 := by exact_mod_cast hv
  have c2 : |(w : ℚ)| ≤ 4095 := by exact_mod_cast hw
  have d1 : |(v : ℚ)| * T ≤ 4095 * T := mul_le_mul_of_nonneg_right c1 hT0.le
  have d2 : |(w : ℚ)| * T ≤ 4095 * T := mul_le_mul_of_nonneg_right c2 hT0.le
  have hd : (v : ℚ) + 1 ≤ w := by exact_mod_cast hvw
  have hd2 : ((v : ℚ) + 1) * T ≤ w * T := mul_le_mul_of_nonneg_right hd hT0.le
  have e1 := (abs_le.mp a2).2
  have e2 := (abs_le.mp b2).1
  norm_num at e1 e2
  linarith

/-- typical values: 0.1 mm steps, reflectivity 62 -/
example : (decoded false (-1) 1).val ≠ 1 / 10 ∧ |(decoded false (-1) 1).val - 1 / 10| ≤ 1 / 10 / 2 ^ 22 ∧
    (decoded true 0 62).val = -3 / 2 := by decide +kernel

end Props
