/-
C77: decoded values for every precision a header can announce.
-/
import Verif.Props.Accuracy
import Verif.Lemmas.FloatOrder

namespace Props
open Go Spec

/-! ### the scale factor -/

theorem scale_table : ∀ k : Fin 84, let P : F32 := (Fl.pow10 ((k.val : Int) - 45)).conv f32
    P.isFin = true ∧ 0 < P.val ∧
      |P.val - tenPow ((k.val : Int) - 45)| ≤ tenPow ((k.val : Int) - 45) / 16000000 + pow2 (-150) := by decide +kernel

theorem scale_small_table : ∀ k : Fin 278, let P : F32 := (Fl.pow10 ((k.val : Int) - 323)).conv f32
    P = Fl.zero := by decide +kernel

def isPosInf : F32 → Bool
  | .inf b => !b
  | _ => false

theorem isPosInf_eq {x : F32} (h : isPosInf x = true) : x = .inf false := by
  cases x with
  | inf b => cases b with
    | false => rfl
    | true => cases h
  | _ => cases h

theorem scale_large_table : ∀ k : Fin 270, isPosInf ((Fl.pow10 ((k.val : Int) + 39)).conv f32) = true := by decide +kernel

theorem scale_mid {p : Int} (h1 : -45 ≤ p) (h2 : p ≤ 38) :
    ((Fl.pow10 p).conv f32).isFin = true ∧ 0 < ((Fl.pow10 p).conv f32).val ∧
    |((Fl.pow10 p).conv f32).val - (10 : ℚ) ^ p| ≤ (10 : ℚ) ^ p / 16000000 + pow2 (-150) := by
  have := scale_table ⟨(p + 45).toNat, by omega⟩
  have e : (((p + 45).toNat : Nat) : Int) - 45 = p := by omega
  simpa only [e, tenPow_eq] using this

theorem scale_small {p : Int} (h : p ≤ -46) : (Fl.pow10 p).conv f32 = Fl.zero := by
  by_cases h1 : -323 ≤ p
  · have := scale_small_table ⟨(p + 323).toNat, by omega⟩
    have e : (((p + 323).toNat : Nat) : Int) - 323 = p := by omega
    simpa only [e] using this
  · unfold Fl.pow10
    rw [if_neg (by omega), if_neg (by omega), if_neg (by omega)]
    decide +kernel

theorem scale_large {p : Int} (h : 39 ≤ p) : (Fl.pow10 p).conv f32 = Fl.inf false := by
  by_cases h1 : p ≤ 308
  · have := scale_large_table ⟨(p - 39).toNat, by omega⟩
    have e : (((p - 39).toNat : Nat) : Int) + 39 = p := by omega
    rw [e] at this
    exact isPosInf_eq this
  · unfold Fl.pow10
    rw [if_neg (by omega), if_neg (by omega), if_pos (by omega)]
    rfl

/-- the scale factor is at most 2^-150 off, relatively 1/16000000, unless infinite -/
theorem scale_any {p : Int} (h2 : p ≤ 38) :
    ((Fl.pow10 p).conv f32).isFin = true ∧ 0 ≤ ((Fl.pow10 p).conv f32).val ∧
    |((Fl.pow10 p).conv f32).val - (10 : ℚ) ^ p| ≤ (10 : ℚ) ^ p / 16000000 + pow2 (-150) := by
  by_cases h1 : -45 ≤ p
  · obtain ⟨a, b, c⟩ := scale_mid h1 h2
    exact ⟨a, b.le, c⟩
  · rw [scale_small (by omega)]
    refine ⟨rfl, le_refl _, ?_⟩
    show |(0 : ℚ) - 10 ^ p| ≤ _
    have h3 : (10 : ℚ) ^ p ≤ (10 : ℚ) ^ (-46 : Int) := zpow_le_zpow_right₀ (by norm_num) (by omega)
    have h4 : (10 : ℚ) ^ (-46 : Int) ≤ pow2 (-150) := by rw [← tenPow_eq]; decide +kernel
    have h5 : 0 < (10 : ℚ) ^ p := by positivity
    rw [zero_sub, abs_neg, abs_of_pos h5]
    have : 0 < (10 : ℚ) ^ p / 16000000 := by positivity
    linarith

/-- error of one rounding, normal or subnormal -/
theorem rnd_err32_fine (q : ℚ) : |rnd f32 q - q| ≤ |q| / 16777216 + pow2 (-150) := by
  by_cases h : pow2 (f32.emin + f32.prec - 1) ≤ |q|
  · have := rnd_rel_err f32 h
    have e3 : pow2 (-(f32.prec : Int)) = 1 / 16777216 := by decide +kernel
    rw [e3] at this
    have := pow2_pos (-150)
    linarith
  · have h2 : |q| < pow2 (f32.emin + f32.prec) := by
      refine lt_trans (not_le.mp h) (pow2_lt.mpr (by decide))
    have := rnd_abs_err f32 h2
    have e3 : pow2 (f32.emin - 1) = pow2 (-150) := by decide +kernel
    rw [e3] at this
    have := abs_nonneg q
    linarith

/-! ### finite results -/

/-- no overflow below the largest float32 -/
theorem fin_of_le {q : ℚ} (h : |q| ≤ 340000100000000000000000000000000000000) : |rnd f32 q| < pow2 f32.emax := by
  have hM := rnd_exact f32 (n := 16777215) (e := 104) (by decide) (by decide)
  have hM2 : (340000100000000000000000000000000000000 : ℚ) ≤ ((16777215 : Int) : ℚ) * pow2 104 := by decide +kernel
  have hM3 : ((16777215 : Int) : ℚ) * pow2 104 < pow2 f32.emax := by decide +kernel
  generalize ((16777215 : Int) : ℚ) * pow2 104 = M at hM hM2 hM3
  rw [abs_le] at h
  rw [abs_lt]
  have a := rnd_mono f32 (a := q) (b := M) (by linarith)
  have b := rnd_mono f32 (a := -M) (b := q) (by linarith)
  rw [rnd_neg] at b
  rw [hM] at a b
  exact ⟨by linarith, by linarith⟩

theorem inf_of_ge {b : Bool} {q : ℚ} (h : pow2 128 ≤ |q|) : Fl.mk f32 b q = .inf (decide (q < 0)) := by
  have he : pow2 f32.emax = pow2 128 := by decide +kernel
  have hp := pow2_pos 128
  have key : pow2 128 ≤ |rnd f32 q| ∧ (rnd f32 q < 0 ↔ q < 0) := by
    rcases le_total 0 q with h0 | h0
    · rw [abs_of_nonneg h0] at h
      have := pow2_le_rnd f32 (e := 128) (by decide) h
      rw [abs_of_nonneg (by linarith)]
      exact ⟨this, by constructor <;> intro <;> linarith⟩
    · rw [abs_of_nonpos h0] at h
      have := pow2_le_rnd f32 (e := 128) (by decide) h
      rw [rnd_neg] at this
      rw [abs_of_nonpos (by linarith)]
      exact ⟨this, by constructor <;> intro <;> linarith⟩
  unfold Fl.mk
  rw [if_neg (by intro h0; rw [h0, abs_zero] at key; linarith [key.1]), dif_neg (by rw [he]; exact not_lt.mpr key.1)]
  congr 1
  simp only [key.2]

/-- C77. For every precision: as long as the exact value is below the range of float32 the decoded value is finite and
accurate to a relative error of 2^-22, or in the subnormal range to an absolute error of |raw| 2^-148. In particular
raw zeros are zero. -/
theorem C77_accuracy {p v : Int} (h2 : p ≤ 38) (hv : |v| ≤ 4095)
    (ht : |(v : ℚ) * (10 : ℚ) ^ p| ≤ 340000000000000000000000000000000000000) :
    (decoded false p v).isFin = true ∧
    |(decoded false p v).val - v * (10 : ℚ) ^ p| ≤ |(v : ℚ) * (10 : ℚ) ^ p| / 2 ^ 22 + |(v : ℚ)| * (1 / 2 ^ 148) := by
  obtain ⟨a, b, c⟩ := scale_any h2
  obtain ⟨l1, l2⟩ := lit_int hv
  show (scaled p v).isFin = true ∧ |(scaled p v).val - v * (10 : ℚ) ^ p| ≤ _
  unfold scaled
  rw [Fl.mul_fin l1 a, l2]
  generalize ((Fl.pow10 p).conv f32).val = P at *
  generalize ((Fl.lit f32 (v : ℚ)).sign ^^ ((Fl.pow10 p).conv f32).sign) = sg
  have hT : 0 < (10 : ℚ) ^ p := by positivity
  generalize (10 : ℚ) ^ p = T at *
  have hb : |(v : ℚ)| ≤ 4095 := by exact_mod_cast hv
  have hw : 0 ≤ |(v : ℚ)| := abs_nonneg _
  have e150 : pow2 (-150) = 1 / 2 ^ 150 := by decide +kernel
  rw [e150] at c
  have hd : |(v : ℚ) * P - v * T| ≤ |(v : ℚ) * T| / 16000000 + |(v : ℚ)| * (1 / 2 ^ 150) := by
    rw [← mul_sub, abs_mul, abs_mul, abs_of_pos hT]
    have := mul_le_mul_of_nonneg_left c hw
    linarith
  have ht0 : 0 ≤ |(v : ℚ) * T| := abs_nonneg _
  have hq : |(v : ℚ) * P| ≤ |(v : ℚ) * T| + |(v : ℚ) * P - v * T| := by
    have := abs_add_le ((v : ℚ) * T) ((v : ℚ) * P - v * T)
    rwa [add_sub_cancel] at this
  have h150 : (4095 : ℚ) * (1 / 2 ^ 150) ≤ 1 := by norm_num
  have hw150 : |(v : ℚ)| * (1 / 2 ^ 150) ≤ 4095 * (1 / 2 ^ 150) := mul_le_mul_of_nonneg_right hb (by norm_num)
  have hfin : |(v : ℚ) * P| ≤ 340000100000000000000000000000000000000 := by
    linarith
  obtain ⟨g1, g2⟩ := Fl.mk_fin (f := f32) (b := sg) (fin_of_le hfin)
  refine ⟨g1, ?_⟩
  rw [g2]
  by_cases h0 : v = 0
  · subst h0; simp
  have hvr : 1 ≤ |(v : ℚ)| := by exact_mod_cast Int.one_le_abs h0
  have hr := rnd_err32_fine ((v : ℚ) * P)
  rw [e150] at hr
  have htri : |rnd f32 ((v : ℚ) * P) - v * T| ≤ |rnd f32 ((v : ℚ) * P) - v * P| + |(v : ℚ) * P - v * T| := by
    have := abs_add_le (rnd f32 ((v : ℚ) * P) - v * P) ((v : ℚ) * P - v * T)
    rwa [sub_add_sub_cancel] at this
  have e148 : |(v : ℚ)| * (1 / 2 ^ 148) = 4 * (|(v : ℚ)| * (1 / 2 ^ 150)) := by ring
  have h1le : (1 : ℚ) / 2 ^ 150 ≤ |(v : ℚ)| * (1 / 2 ^ 150) := by
    have := mul_le_mul_of_nonneg_right hvr (by norm_num : (0 : ℚ) ≤ 1 / 2 ^ 150)
    linarith
  rw [e148]
  generalize |(v : ℚ)| * (1 / 2 ^ 150) = w at *
  generalize (1 : ℚ) / 2 ^ 150 = u at *
  generalize |(v : ℚ) * T| = t at *
  generalize |(v : ℚ) * P| = q at *
  generalize |(v : ℚ) * P - v * T| = d at *
  generalize |rnd f32 ((v : ℚ) * P) - v * P| = r at *
  generalize |rnd f32 ((v : ℚ) * P) - v * T| = z at *
  norm_num
  linarith

/-- C77. Beyond the range of float32 values are infinite, with the sign of the raw value: overflow never yields a
number. -/
theorem C77_overflow {dBZ : Bool} {p v : Int} (hv : |v| ≤ 4095)
    (ht : 341000000000000000000000000000000000000 ≤ |(v : ℚ) * (10 : ℚ) ^ p|) :
    decoded dBZ p v = .inf (decide (v < 0)) := by
  obtain ⟨l1, l2⟩ := lit_int hv
  have hv0 : v ≠ 0 := by rintro rfl; norm_num at ht
  have hvq : (v : ℚ) ≠ 0 := by exact_mod_cast hv0
  have hs : scaled p v = .inf (decide (v < 0)) := by
    unfold scaled
    by_cases h2 : p ≤ 38
    · obtain ⟨a, b, c⟩ := scale_any h2
      rw [Fl.mul_fin l1 a, l2]
      generalize ((Fl.pow10 p).conv f32).val = P at *
      generalize ((Fl.lit f32 (v : ℚ)).sign ^^ ((Fl.pow10 p).conv f32).sign) = sg
      have hT : 0 < (10 : ℚ) ^ p := by positivity
      generalize (10 : ℚ) ^ p = T at *
      have hw : 0 ≤ |(v : ℚ)| := abs_nonneg _
      have hb : |(v : ℚ)| ≤ 4095 := by exact_mod_cast hv
      have e150 : pow2 (-150) = 1 / 2 ^ 150 := by decide +kernel
      rw [e150] at c
      have h150 : (4095 : ℚ) * (1 / 2 ^ 150) ≤ 1 := by norm_num
      have hw150 : |(v : ℚ)| * (1 / 2 ^ 150) ≤ 4095 * (1 / 2 ^ 150) := mul_le_mul_of_nonneg_right hb (by norm_num)
      have hge : pow2 128 ≤ |(v : ℚ) * P| := by
        rw [abs_mul, abs_of_nonneg b]
        rw [abs_mul, abs_of_pos hT] at ht
        have c1 := (abs_le.mp c).1
        have := mul_le_mul_of_nonneg_left c1 hw
        have e128 : pow2 128 ≤ 340300000000000000000000000000000000000 := by decide +kernel
        linarith
      rw [inf_of_ge hge]
      have hP : 0 < P := by
        rcases b.eq_or_lt with h | h
        · rw [← h, mul_zero, abs_zero] at hge
          exact absurd hge (not_le.mpr (pow2_pos _))
        · exact h
      congr 1
      rw [decide_eq_decide]
      constructor
      · intro h
        by_contra hn
        have : 0 ≤ (v : ℚ) := by exact_mod_cast not_lt.mp hn
        have := mul_nonneg this hP.le
        linarith
      · intro h
        exact mul_neg_of_neg_of_pos (by exact_mod_cast h) hP
    · rw [scale_large (by omega)]
      have hsg : (Fl.lit f32 (v : ℚ)).sign = decide (v < 0) := by
        rcases Fl.isFin_cases l1 with h | ⟨q, hq, h⟩
        · rw [h] at l2; exact absurd l2.symm hvq
        · rw [h] at l2 ⊢
          have e : q = v := l2
          subst e
          simp only [Fl.sign, Int.cast_lt_zero]
      rw [← hsg]
      rcases Fl.isFin_cases l1 with h | ⟨q, hq, h⟩
      · rw [h] at l2; exact absurd l2.symm hvq
      · rw [h] at l2 ⊢
        have e : q = v := l2
        simp only [Fl.mul, Fl.val, e, hvq, if_false, Bool.xor_false]
  cases dBZ with
  | false => exact hs
  | true =>
    show Fl.sub (Fl.div (scaled p v) (Fl.lit f32 2)) (Fl.lit f32 (65 / 2)) = _
    rw [hs, Fl.div_inf_left _ lit_two.1 (by rw [lit_two.2]; norm_num), Fl.sub_inf_left _ lit_325.1]

/-- C77. With a precision of 39 or more raw zeros become NaN, "no data", while all other values are infinite. -/
theorem C77_zero_lost {dBZ : Bool} {p : Int} (h : 39 ≤ p) : decoded dBZ p 0 = .nan := by
  have hs : scaled p 0 = .nan := by
    unfold scaled
    rw [scale_large h]
    decide +kernel
  cases dBZ with
  | false => exact hs
  | true =>
    show Fl.sub (Fl.div (scaled p 0) (Fl.lit f32 2)) (Fl.lit f32 (65 / 2)) = _
    rw [hs]; rfl

/-- C77. Reflectivities for every precision. -/
theorem C77_dbz_accuracy {p v : Int} (h2 : p ≤ 38) (hv : |v| ≤ 4095)
    (ht : |(v : ℚ) * (10 : ℚ) ^ p| ≤ 340000000000000000000000000000000000000) :
    (decoded true p v).isFin = true ∧
    |(decoded true p v).val - (v * (10 : ℚ) ^ p / 2 - 65 / 2)| ≤ (|(v : ℚ) * (10 : ℚ) ^ p| + 65) / 2 ^ 22 := by
  obtain ⟨g1, ha⟩ := C77_accuracy h2 hv ht
  have hb : |(v : ℚ)| ≤ 4095 := by exact_mod_cast hv
  have hw : |(v : ℚ)| * (1 / 2 ^ 148) ≤ 1 / 1000000000000 := by
    have : (4095 : ℚ) * (1 / 2 ^ 148) ≤ 1 / 1000000000000 := by norm_num
    have := mul_le_mul_of_nonneg_right hb (by norm_num : (0 : ℚ) ≤ 1 / 2 ^ 148)
    linarith
  have g1' : (scaled p v).isFin = true := g1
  have ha' : |(scaled p v).val - v * (10 : ℚ) ^ p| ≤ |(v : ℚ) * (10 : ℚ) ^ p| / 2 ^ 22 + 1 / 1000000000000 := by
    have : (scaled p v).val = (decoded false p v).val := rfl
    rw [this]; linarith
  show (Fl.sub (Fl.div (scaled p v) (Fl.lit f32 2)) (Fl.lit f32 (65 / 2))).isFin = true ∧ _
  have e : decoded true p v = Fl.sub (Fl.div (scaled p v) (Fl.lit f32 2)) (Fl.lit f32 (65 / 2)) := rfl
  rw [e, Fl.div_fin g1' lit_two.1 (by rw [lit_two.2]; norm_num), lit_two.2]
  generalize ((scaled p v).sign ^^ (Fl.lit f32 2).sign) = sg
  have hx : |(scaled p v).val| ≤ |(v : ℚ) * (10 : ℚ) ^ p| + |(scaled p v).val - v * (10 : ℚ) ^ p| := by
    have := abs_add_le ((v : ℚ) * (10 : ℚ) ^ p) ((scaled p v).val - v * (10 : ℚ) ^ p)
    rwa [add_sub_cancel] at this
  generalize (scaled p v).val = x at *
  generalize (v : ℚ) * (10 : ℚ) ^ p = t at *
  have hb2 : |x / 2| = |x| / 2 := by rw [abs_div]; norm_num
  norm_num at ha' ⊢
  have f1 : |x / 2| ≤ 340000100000000000000000000000000000000 := by rw [hb2]; linarith
  obtain ⟨k1, k2⟩ := Fl.mk_fin (f := f32) (b := sg) (fin_of_le f1)
  have r1 := rnd_err32 (x / 2)
  rw [Fl.sub_fin k1 lit_325.1, lit_325.2, k2]
  generalize ((Fl.mk f32 sg (x / 2)).sign && (Fl.neg (Fl.lit f32 (65 / 2))).sign) = sg2
  have b3 : |rnd f32 (x / 2)| ≤ |x| / 2 + |rnd f32 (x / 2) - x / 2| := by
    have := abs_add_le (x / 2) (rnd f32 (x / 2) - x / 2)
    rwa [add_sub_cancel, hb2] at this
  generalize rnd f32 (x / 2) = y at *
  have b4 : |y - 65 / 2| ≤ |y| + 65 / 2 := by
    have := abs_sub y (65 / 2); rwa [abs_of_pos (by norm_num : (0 : ℚ) < 65 / 2)] at this
  rw [hb2] at r1
  have f2 : |y - 65 / 2| ≤ 340000100000000000000000000000000000000 := by linarith [abs_nonneg x]
  obtain ⟨q1, q2⟩ := Fl.mk_fin (f := f32) (b := sg2) (fin_of_le f2)
  refine ⟨q1, ?_⟩
  rw [q2]
  have r2 := rnd_err32 (y - 65 / 2)
  generalize rnd f32 (y - 65 / 2) = z at *
  have b5 : |z - (t / 2 - 65 / 2)| ≤ |z - (y - 65 / 2)| + |y - x / 2| + |x - t| / 2 := by
    rw [show z - (t / 2 - 65 / 2) = (z - (y - 65 / 2)) + (y - x / 2) + (x - t) / 2 by ring]
    have := abs_add_three (z - (y - 65 / 2)) (y - x / 2) ((x - t) / 2)
    rwa [abs_div, abs_of_pos (by norm_num : (0 : ℚ) < 2)] at this
  have := abs_nonneg t
  linarith

/-- C77. For every precision a larger raw value never decodes to a smaller value. -/
theorem C77_monotone {dBZ : Bool} {p v w : Int} (hv : |v| ≤ 4095) (hw : |w| ≤ 4095) (hvw : v ≤ w) :
    Fl.lt (decoded dBZ p w) (decoded dBZ p v) = false := by
  by_cases hn : decoded dBZ p w = .nan
  · rw [hn]; rfl
  by_cases hn' : decoded dBZ p v = .nan
  · rw [hn']; cases decoded dBZ p w <;> rfl
  rw [Fl.not_lt hn hn']
  obtain ⟨l1, l2⟩ := lit_int hv
  obtain ⟨m1, m2⟩ := lit_int hw
  have hvwq : (v : ℚ) ≤ w := by exact_mod_cast hvw
  have hs : Fl.le (scaled p v) (scaled p w) = true := by
    by_cases h2 : p ≤ 38
    · obtain ⟨a, b, c⟩ := scale_any h2
      unfold scaled
      rw [Fl.mul_fin l1 a, Fl.mul_fin m1 a, l2, m2]
      exact Fl.mk_mono (mul_le_mul_of_nonneg_right hvwq b)
    · have hz : ∀ x : Int, decoded dBZ p x ≠ .nan → x ≠ 0 := by
        rintro x h rfl; exact h (C77_zero_lost (by omega))
      have h39 : ∀ x : Int, x ≠ 0 → |x| ≤ 4095 → scaled p x = .inf (decide (x < 0)) := by
        intro x hx hx'
        have := C77_overflow (dBZ := false) (p := p) hx' (by
          rw [abs_mul]
          have h1 : (1 : ℚ) ≤ |(x : ℚ)| := by exact_mod_cast Int.one_le_abs hx
          have h3 : (10 : ℚ) ^ (39 : Int) ≤ (10 : ℚ) ^ p := zpow_le_zpow_right₀ (by norm_num) (by omega)
          have h4 : (0 : ℚ) < (10 : ℚ) ^ p := by positivity
          rw [abs_of_pos h4]
          have h5 : (10 : ℚ) ^ (39 : Int) = 1000000000000000000000000000000000000000 := by norm_num
          rw [h5] at h3
          nlinarith)
        exact this
      rw [h39 v (hz v hn') hv, h39 w (hz w hn) hw]
      by_cases a : v < 0
      · by_cases b : w < 0 <;> simp [a, b, Fl.le, Fl.lt, Fl.beq]
      · have b : ¬ w < 0 := by omega
        simp [a, b, Fl.le, Fl.lt, Fl.beq]
  cases dBZ with
  | false => exact hs
  | true =>
    exact Fl.sub_mono lit_325.1 (Fl.div_mono lit_two.1 (by rw [lit_two.2]; norm_num) hs)

/-- E-44: the values of pixels are subnormal numbers -/
example : (decoded false (-44) 7).isFin = true ∧
    |(decoded false (-44) 7).val - (7 : Int) * (10 : ℚ) ^ (-44 : Int)| ≤
      |((7 : Int) : ℚ) * (10 : ℚ) ^ (-44 : Int)| / 2 ^ 22 + |((7 : Int) : ℚ)| * (1 / 2 ^ 148) :=
  C77_accuracy (by decide) (by decide) (by norm_num)

/-- E+36: some values are numbers, larger ones infinite -/
example : (decoded false 36 340).isFin = true ∧ decoded false 36 (-341) = .inf true :=
  ⟨(C77_accuracy (by decide) (by decide) (by norm_num)).1, C77_overflow (by decide) (by norm_num)⟩

end Props
