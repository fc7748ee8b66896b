/-
C57: Z-R conversions in float64/float32.
-/
import Verif.Lemmas.FloatLog
import Verif.Props.FloatProjection

namespace Props
open Go Go.Fl Radolan Radolan.Num Spec Real

theorem log_ten : (23 / 10 : ℝ) ≤ log 10 ∧ log 10 ≤ 231 / 100 := by
  constructor
  · rw [le_log_iff_exp_le (by norm_num)]
    have h : exp (23 / 10 : ℝ) ^ 10 ≤ 10 ^ 10 := by
      rw [← exp_nat_mul, show ((10 : ℕ) : ℝ) * (23 / 10) = ((23 : ℕ) : ℝ) * 1 by norm_num, exp_nat_mul]
      refine (pow_le_pow_left₀ (exp_pos _).le exp_one_lt_d9.le 23).trans ?_
      norm_num
    exact (pow_le_pow_iff_left₀ (exp_pos _).le (by norm_num) (by norm_num)).mp h
  · rw [log_le_iff_le_exp (by norm_num)]
    have h : (10 : ℝ) ^ 100 ≤ exp (231 / 100 : ℝ) ^ 100 := by
      rw [← exp_nat_mul, show ((100 : ℕ) : ℝ) * (231 / 100) = ((231 : ℕ) : ℝ) * 1 by norm_num, exp_nat_mul]
      refine le_trans ?_ (pow_le_pow_left₀ (by norm_num) exp_one_gt_d9.le 231)
      norm_num
    exact (pow_le_pow_iff_left₀ (by norm_num) (exp_pos _).le (by norm_num)).mp h

/-- every float32 is a float64 -/
theorem rnd_f64_of_f32 {q : ℚ} (h : rnd f32 q = q) : rnd f64 q = q := by
  obtain ⟨n, e, he, hn, hq⟩ := rnd_form f32 q
  rw [h] at hq
  rw [hq]
  have h1 : f32.emin = -149 := by decide
  have h2 : f64.emin = -1074 := by decide
  have h3 : |n| ≤ 2 ^ 24 := hn
  exact rnd_exact f64 (by omega) (h3.trans (by decide))

/-- a parameter pair as in published Z-R relations: 1 ≤ a ≤ 10000, 1/2 ≤ b ≤ 10 -/
structure Parameters (a b : F64) : Prop where
  fa : a.isFin = true
  fb : b.isFin = true
  a1 : (1 : ℝ) ≤ a.val
  a2 : (a.val : ℝ) ≤ 10 ^ 4
  b1 : (1 / 2 : ℝ) ≤ b.val
  b2 : (b.val : ℝ) ≤ 10

theorem lit10 : Ap (lit f64 10) 10 0 := ⟨by decide +kernel, by
  rw [show (lit f64 10).val = 10 by decide +kernel]; norm_num⟩
theorem lit1 : Ap (lit f64 1) 1 0 := ⟨by decide +kernel, by
  rw [show (lit f64 1).val = 1 by decide +kernel]; norm_num⟩
theorem litm1 : Ap (lit f64 (-1)) (-1) 0 := ⟨by decide +kernel, by
  rw [show (lit f64 (-1)).val = -1 by decide +kernel]; norm_num⟩

theorem log_a {a b : F64} (h : Parameters a b) : 0 ≤ log (a.val : ℝ) ∧ log (a.val : ℝ) ≤ 924 / 100 := by
  refine ⟨log_nonneg h.a1, (log_le_log (by linarith [h.a1]) h.a2).trans ?_⟩
  rw [log_pow]; push_cast; linarith [log_ten.2]

/-- the constants of a Z-R relation -/
theorem zr_consts {M : MathLib} (hM : AccuratePowLog M) {a b : F64} (h : Parameters a b) :
    let z := NewZR (f64Arith M) a b
    Ap z.c1 (10 * b.val) (2 / 10 ^ 14) ∧ LogAp z.c2 (-1 / b.val * log a.val) (12 / 10 ^ 14) ∧
      LogAp z.c3 (1 / (10 * b.val) * log 10) (12 / 10 ^ 14) ∧ Ap z.c4 (10 * logb 10 a.val) (12 / 10 ^ 13) := by
  have hl := log_ten
  obtain ⟨fa, fb, a1, a2, b1, b2⟩ := h
  obtain ⟨la1, la2⟩ := log_a (b := b) ⟨fa, fb, a1, a2, b1, b2⟩
  have hb0 : (0 : ℝ) < b.val := by linarith
  have hb10 : (0 : ℝ) < 10 * b.val := by linarith
  have hc1 : Ap (mul (lit f64 10) b) (10 * b.val) (2 / 10 ^ 14) :=
    mul_ap (A := 10) (B := 10) (e := 0) lit10 (Ap.exact fb) (by norm_num) (by rw [abs_of_pos hb0]; exact b2)
      (by norm_num) (by norm_num) (by norm_num) (by norm_num)
  have hy : Ap (div (lit f64 (-1)) b) (-1 / b.val) (3 / 10 ^ 16) :=
    div_ap (m := 1 / 2) (q := 2) (e := 0) litm1 (Ap.exact fb) (by norm_num) (by rw [abs_of_pos hb0]; linarith)
      (by rw [abs_of_pos hb0]; norm_num; linarith) (by norm_num) (by norm_num) (by norm_num) (by norm_num)
  have hx : LogAp a (log a.val) 0 := ⟨fa, by linarith, by simp⟩
  have hc2 := pow_log hM (B := 2) (K := 924 / 100) (t := 3 / 10 ^ 15) hx a1 a2 hy
    (by rw [abs_div, abs_neg, abs_one, abs_of_pos hb0, div_le_iff₀ hb0]; linarith)
    (by rw [abs_of_nonneg la1]; exact la2) (by norm_num) (by norm_num) (by norm_num)
  have hy3 : Ap (div (lit f64 1) (mul (lit f64 10) b)) (1 / (10 * b.val)) (2 / 10 ^ 15) :=
    div_ap (m := 4) (q := 1 / 5) (e := 1 / 10 ^ 15) lit1 hc1 (by norm_num) (by rw [abs_of_pos hb10]; norm_num; linarith)
      (by rw [abs_of_pos hb10, abs_one]; linarith) (by norm_num) (by norm_num) (by norm_num) (by norm_num)
  have h10 : ((lit f64 10).val : ℝ) = 10 := by rw [show (lit f64 10).val = 10 by decide +kernel]; norm_num
  have hx3 : LogAp (lit f64 10) (log 10) 0 := ⟨lit10.1, by rw [h10]; norm_num, by rw [h10]; simp⟩
  have hc3 := pow_log hM (B := 1 / 5) (K := 231 / 100) (t := 5 / 10 ^ 15) hx3 (by rw [h10]; norm_num) (by rw [h10]; norm_num) hy3
    (by rw [abs_of_pos (by positivity), div_le_iff₀ (by positivity)]; linarith)
    (by rw [abs_of_nonneg (by linarith)]; exact hl.2) (by norm_num) (by norm_num) (by norm_num)
  have hlog : Ap (M.log10 a) (logb 10 a.val) (1 / 10 ^ 13) :=
    hM.log10 a fa (by linarith) (by rw [abs_of_nonneg la1]; linarith)
  have hlb : |logb 10 (a.val : ℝ)| ≤ 5 := by
    unfold logb
    rw [abs_of_nonneg (div_nonneg la1 (by linarith)), div_le_iff₀ (by linarith)]; linarith
  have hc4 : Ap (mul (lit f64 10) (M.log10 a)) (10 * logb 10 a.val) (12 / 10 ^ 13) :=
    mul_ap (A := 10) (B := 5) (e := 1 / 10 ^ 12) lit10 hlog (by norm_num) hlb
      (by norm_num) (by norm_num) (by norm_num) (by norm_num)
  exact ⟨hc1, hc2.mono (by norm_num), hc3.mono (by norm_num), hc4⟩

theorem conv64 {d : F32} (hd : d.isFin = true) (hr : |(d.val : ℝ)| ≤ 128) :
    (d.conv f64).isFin = true ∧ (d.conv f64).val = d.val := by
  have e := rnd_f64_of_f32 d.rnd_val
  have hr' : |d.val| ≤ 128 := by
    have : ((|d.val| : ℚ) : ℝ) ≤ ((128 : ℚ) : ℝ) := by push_cast; exact hr
    exact_mod_cast this
  have h128 : (128 : ℚ) < pow2 f64.emax := by
    have : pow2 8 ≤ pow2 f64.emax := pow2_le.mpr (by decide)
    refine lt_of_lt_of_le ?_ this
    rw [pow2_eq]; norm_num
  have := conv_val (g := f64) hd (by rw [e]; exact lt_of_le_of_lt hr' h128)
  rw [e] at this; exact this

/-- the logarithm of the exact rate -/
theorem log_realRate {a b d : ℝ} (ha : 0 < a) : log (realRate a b d) = (d / 10 * log 10 - log a) / b := by
  rw [realRate_eq ha, log_exp]

/-- the computed rate, logarithmically -/
theorem rate_log {M : MathLib} (hM : AccuratePowLog M) {a b : F64} (h : Parameters a b) {d : F32} (hd : d.isFin = true)
    (hr : |(d.val : ℝ)| ≤ 128) :
    LogAp (PrecipitationRate M (NewZR (f64Arith M) a b) d) (log (realRate a.val b.val d.val)) (16 / 10 ^ 12) ∧
      |log (realRate a.val b.val d.val)| ≤ 80 := by
  have hl := log_ten
  obtain ⟨la1, la2⟩ := log_a h
  obtain ⟨_, c2, c3, _⟩ := zr_consts hM h
  obtain ⟨fa, fb, a1, a2, b1, b2⟩ := h
  have hb0 : (0 : ℝ) < b.val := by linarith
  obtain ⟨k1, k2⟩ := conv64 hd hr
  have hy : Ap (d.conv f64) d.val 0 := ⟨k1, by rw [k2]; simp⟩
  have r1 : 23 / 1000 ≤ 1 / (10 * (b.val : ℝ)) * log 10 := by
    rw [one_div, ← div_eq_inv_mul, le_div_iff₀ (by positivity)]; nlinarith [hl.1]
  have r2 : 1 / (10 * (b.val : ℝ)) * log 10 ≤ 47 / 100 := by
    rw [one_div, ← div_eq_inv_mul, div_le_iff₀ (by positivity)]; nlinarith [hl.2]
  have l1 : |(-1 : ℝ) / b.val * log a.val| ≤ 1848 / 100 := by
    rw [abs_mul, abs_div, abs_neg, abs_one, abs_of_pos hb0, abs_of_nonneg la1, one_div, ← div_eq_inv_mul, div_le_iff₀ hb0]
    nlinarith
  obtain ⟨z1, z2, z3⟩ := c3
  have z4 := abs_le.mp z3
  have g1 : (1 : ℝ) ≤ (NewZR (f64Arith M) a b).c3.val := by
    rw [← log_nonneg_iff z2]
    linarith [z4.1]
  have g2 : ((NewZR (f64Arith M) a b).c3.val : ℝ) ≤ 10 ^ 4 := by
    have : log ((NewZR (f64Arith M) a b).c3.val : ℝ) ≤ 1 := by linarith [z4.2]
    rw [log_le_iff_le_exp z2] at this
    have := exp_one_lt_d9
    norm_num at this ⊢; linarith
  have hp := pow_log hM (B := 128) (K := 47 / 100) (t := 1536 / 10 ^ 14) (⟨z1, z2, z3⟩ : LogAp _ _ _) g1 g2 hy hr
    (by rw [abs_of_nonneg (by linarith)]; exact r2) (by norm_num) (by norm_num) (by norm_num)
  have m1 : |(d.val : ℝ) * (1 / (10 * (b.val : ℝ)) * log 10)| ≤ 6016 / 100 := by
    rw [abs_mul, abs_of_nonneg (by linarith : (0 : ℝ) ≤ 1 / (10 * (b.val : ℝ)) * log 10)]
    refine (mul_le_mul hr r2 (by linarith) (by norm_num)).trans (by norm_num)
  have hs := abs_add_le ((-1 : ℝ) / b.val * log a.val) ((d.val : ℝ) * (1 / (10 * (b.val : ℝ)) * log 10))
  have hm := mul_log (t := 16 / 10 ^ 12) c2 hp (by linarith) (by norm_num)
  have e : (-1 : ℝ) / b.val * log a.val + (d.val : ℝ) * (1 / (10 * (b.val : ℝ)) * log 10) = log (realRate a.val b.val d.val) := by
    rw [log_realRate (by linarith)]; field_simp; ring
  rw [e] at hm hs
  exact ⟨hm, by linarith⟩

/-- C57. With accurate powers and logarithms, PrecipitationRate returns for every float32 reflectivity up to 128 dBZ (in
absolute value) a finite positive number within a relative error of 10^-10 of the exact rate. -/
theorem C57_rate {M : MathLib} (hM : AccuratePowLog M) {a b : F64} (h : Parameters a b) {d : F32} (hd : d.isFin = true)
    (hr : |(d.val : ℝ)| ≤ 128) :
    let R := PrecipitationRate M (NewZR (f64Arith M) a b) d
    R.isFin = true ∧ 0 < R.val ∧ |(R.val : ℝ) - realRate a.val b.val d.val| ≤ realRate a.val b.val d.val / 10 ^ 10 := by
  obtain ⟨⟨h1, h2, h3⟩, _⟩ := rate_log hM h hd hr
  have hp : 0 < realRate a.val b.val d.val := by rw [realRate_eq (by linarith [h.a1])]; exact exp_pos _
  refine ⟨h1, by exact_mod_cast h2, (rel_of_log h2 hp h3 (by norm_num)).trans ?_⟩
  rw [div_eq_mul_inv]
  exact mul_le_mul_of_nonneg_left (by norm_num) hp.le

/-- the reflectivity before conversion to float32 -/
theorem refl_ap {M : MathLib} (hM : AccuratePowLog M) {a b : F64} (h : Parameters a b) {r : F64} {L δ : ℝ} (hr : LogAp r L δ)
    (hL : |L| ≤ 80) (hd : δ ≤ 16 / 10 ^ 12) :
    Ap (reflectivity (f64Arith M) (NewZR (f64Arith M) a b) r) (10 * logb 10 a.val + 10 * b.val * (L / log 10)) (8 / 10 ^ 10) := by
  have hl := log_ten
  obtain ⟨la1, la2⟩ := log_a h
  obtain ⟨c1, _, _, c4⟩ := zr_consts hM h
  obtain ⟨fa, fb, a1, a2, b1, b2⟩ := h
  obtain ⟨r1, r2, r3⟩ := hr
  have hlog : |log (r.val : ℝ)| ≤ 100 := by
    have := abs_add_le L (log (r.val : ℝ) - L)
    rw [add_sub_cancel] at this
    norm_num at hd; linarith
  have q1 : Ap (M.log10 r) (L / log 10) (71 / 10 ^ 13) := by
    obtain ⟨p1, p2⟩ := hM.log10 r r1 r2 hlog
    refine ⟨p1, ?_⟩
    have e : ((M.log10 r).val : ℝ) - L / log 10 = (((M.log10 r).val : ℝ) - logb 10 r.val) + (log r.val - L) / log 10 := by
      unfold logb; ring
    rw [e]
    refine (abs_add_le _ _).trans ?_
    have : |(log (r.val : ℝ) - L) / log 10| ≤ 70 / 10 ^ 13 := by
      rw [abs_div, abs_of_pos (by linarith : 0 < log 10), div_le_iff₀ (by linarith)]
      refine (r3.trans hd).trans ?_
      norm_num; linarith
    linarith
  have q2 : |L / log 10| ≤ 35 := by
    rw [abs_div, abs_of_pos (by linarith : 0 < log 10), div_le_iff₀ (by linarith)]; linarith
  have q3 : |10 * (b.val : ℝ)| ≤ 100 := by rw [abs_of_nonneg (by linarith)]; linarith
  have hm : Ap (mul (NewZR (f64Arith M) a b).c1 (M.log10 r)) (10 * b.val * (L / log 10)) (72 / 10 ^ 11) :=
    mul_ap (A := 100) (B := 35) (e := 711 / 10 ^ 12) c1 q1 q3 q2 (by norm_num) (by norm_num) (by norm_num) (by norm_num)
  have hlb : |10 * logb 10 (a.val : ℝ)| ≤ 50 := by
    unfold logb
    rw [abs_of_nonneg (by positivity), ← mul_div_assoc, div_le_iff₀ (by linarith)]; linarith
  refine add_ap (M := 3600) c4 hm ?_ (by norm_num) (by norm_num) (by norm_num)
  have s1 := abs_add_le (10 * logb 10 (a.val : ℝ)) (10 * (b.val : ℝ) * (L / log 10))
  have s2 : |10 * (b.val : ℝ) * (L / log 10)| ≤ 3500 := by
    rw [abs_mul]; refine (mul_le_mul q3 q2 (abs_nonneg _) (by norm_num)).trans (by norm_num)
  linarith

/-- conversion to float32 of a number of moderate size -/
theorem conv32 {x : F64} (hx : x.isFin = true) (hr : |(x.val : ℝ)| ≤ 4000) :
    (x.conv f32).isFin = true ∧ (x.conv f32).val = rnd f32 x.val ∧
      |(((x.conv f32).val : ℚ) : ℝ) - x.val| ≤ (|(x.val : ℝ)| + 1) * (6 / 10 ^ 8) := by
  have hr' : |x.val| ≤ 4000 := by
    have : ((|x.val| : ℚ) : ℝ) ≤ ((4000 : ℚ) : ℝ) := by push_cast; exact hr
    exact_mod_cast this
  have h24 : pow2 (-24) ≤ 6 / 10 ^ 8 := by rw [pow2_eq]; norm_num
  have herr : |rnd f32 x.val - x.val| ≤ (|x.val| + 1) * (6 / 10 ^ 8) := by
    by_cases hn : pow2 (f32.emin + f32.prec - 1) ≤ |x.val|
    · refine (rnd_rel_err f32 hn).trans ?_
      rw [show -(f32.prec : Int) = -24 by decide]
      exact mul_le_mul (by linarith) h24 (pow2_pos _).le (by positivity)
    · have hn := lt_of_not_ge hn
      have : |x.val| < pow2 (f32.emin + f32.prec) := lt_trans hn (pow2_lt.mpr (by decide))
      refine (rnd_abs_err f32 this).trans ?_
      have h2 : pow2 (f32.emin - 1) ≤ pow2 (-24) := pow2_le.mpr (by decide)
      have h3 := abs_nonneg x.val
      have h4 : 1 * (6 / 10 ^ 8 : ℚ) ≤ (|x.val| + 1) * (6 / 10 ^ 8) := mul_le_mul_of_nonneg_right (by linarith) (by norm_num)
      linarith
  have hb : |rnd f32 x.val| < pow2 f32.emax := by
    have h1 := abs_add_le (rnd f32 x.val - x.val) x.val
    rw [sub_add_cancel] at h1
    have h2 : (|x.val| + 1) * (6 / 10 ^ 8 : ℚ) ≤ 4001 * (6 / 10 ^ 8) := mul_le_mul_of_nonneg_right (by linarith) (by norm_num)
    have h3 : pow2 13 ≤ pow2 f32.emax := pow2_le.mpr (by decide)
    have h4 : pow2 13 = 8192 := by rw [pow2_eq]; norm_num
    have h5 : (4001 : ℚ) * (6 / 10 ^ 8) ≤ 1 := by norm_num
    linarith
  obtain ⟨c1, c2⟩ := conv_val (g := f32) hx hb
  refine ⟨c1, c2, ?_⟩
  rw [c2]
  have : ((|rnd f32 x.val - x.val| : ℚ) : ℝ) ≤ (((|x.val| + 1) * (6 / 10 ^ 8) : ℚ) : ℝ) := by exact_mod_cast herr
  push_cast at this
  exact this

theorem realRefl_log {a b r : ℝ} : realRefl a b r = 10 * logb 10 a + 10 * b * (log r / log 10) := by
  rw [realRefl_eq]; unfold logb
  have := log10_ne
  field_simp

/-- size of the exact reflectivity -/
theorem refl_size {a b : F64} (h : Parameters a b) {L : ℝ} (hL : |L| ≤ 80) :
    |10 * logb 10 (a.val : ℝ) + 10 * b.val * (L / log 10)| ≤ 3550 := by
  have hl := log_ten
  obtain ⟨la1, la2⟩ := log_a h
  obtain ⟨fa, fb, a1, a2, b1, b2⟩ := h
  have q2 : |L / log 10| ≤ 35 := by
    rw [abs_div, abs_of_pos (by linarith : 0 < log 10), div_le_iff₀ (by linarith)]; linarith
  have q3 : |10 * (b.val : ℝ)| ≤ 100 := by rw [abs_of_nonneg (by linarith)]; linarith
  have hlb : |10 * logb 10 (a.val : ℝ)| ≤ 50 := by
    unfold logb
    rw [abs_of_nonneg (by positivity), ← mul_div_assoc, div_le_iff₀ (by linarith)]; linarith
  have s1 := abs_add_le (10 * logb 10 (a.val : ℝ)) (10 * (b.val : ℝ) * (L / log 10))
  have s2 : |10 * (b.val : ℝ) * (L / log 10)| ≤ 3500 := by
    rw [abs_mul]; refine (mul_le_mul q3 q2 (abs_nonneg _) (by norm_num)).trans (by norm_num)
  linarith

/-- Reflectivity of a float within e^80 -/
theorem refl32 {M : MathLib} (hM : AccuratePowLog M) {a b : F64} (h : Parameters a b) {r : F64} {L δ : ℝ} (hr : LogAp r L δ)
    (hL : |L| ≤ 80) (hd : δ ≤ 16 / 10 ^ 12) :
    let D := 10 * logb 10 (a.val : ℝ) + 10 * b.val * (L / log 10)
    let q := reflectivity (f64Arith M) (NewZR (f64Arith M) a b) r
    let F := Reflectivity M (NewZR (f64Arith M) a b) r
    F.isFin = true ∧ F.val = rnd f32 q.val ∧ |(q.val : ℝ) - D| ≤ 8 / 10 ^ 10 ∧ |(F.val : ℝ) - D| ≤ (|D| + 1) * (7 / 10 ^ 8) := by
  intro D q F
  obtain ⟨q1, q2⟩ := refl_ap hM h hr hL hd
  have hs : |D| ≤ 3550 := refl_size h hL
  have hq : |(q.val : ℝ)| ≤ |D| + 8 / 10 ^ 10 := by
    have := abs_add_le D ((q.val : ℝ) - D)
    rw [add_sub_cancel] at this
    linarith
  obtain ⟨c1, c2, c3⟩ := conv32 q1 (hq.trans (by norm_num; linarith))
  refine ⟨c1, c2, q2, ?_⟩
  have e : (F.val : ℝ) - D = ((F.val : ℝ) - q.val) + (q.val - D) := by ring
  rw [e]
  refine (abs_add_le _ _).trans ((add_le_add c3 q2).trans ?_)
  have h0 := abs_nonneg D
  nlinarith

/-- C57. With accurate powers and logarithms, Reflectivity returns for every float64 rate from 10^-30 to 10^30 mm/h a
finite number which deviates from the exact reflectivity by at most 10^-7 dBZ plus 10^-7 of its value. -/
theorem C57_reflectivity {M : MathLib} (hM : AccuratePowLog M) {a b : F64} (h : Parameters a b) {r : F64} (hr : r.isFin = true)
    (h1 : 1 / 10 ^ 30 ≤ (r.val : ℝ)) (h2 : (r.val : ℝ) ≤ 10 ^ 30) :
    let F := Reflectivity M (NewZR (f64Arith M) a b) r
    F.isFin = true ∧ |(F.val : ℝ) - realRefl a.val b.val r.val| ≤ (|realRefl a.val b.val r.val| + 1) / 10 ^ 7 := by
  have hl := log_ten
  have hp : (0 : ℝ) < r.val := lt_of_lt_of_le (by norm_num) h1
  have hL : |log (r.val : ℝ)| ≤ 80 := by
    rw [abs_le]
    have e1 := log_le_log (by norm_num) h1
    have e2 := log_le_log hp h2
    rw [one_div, log_inv, log_pow] at e1
    rw [log_pow] at e2
    push_cast at e1 e2
    constructor <;> linarith
  obtain ⟨f1, _, _, f4⟩ := refl32 hM h (L := log r.val) (δ := 0) ⟨hr, hp, by simp⟩ hL (by norm_num)
  rw [← realRefl_log] at f4
  refine ⟨f1, f4.trans ?_⟩
  have h0 := abs_nonneg (realRefl (a.val : ℝ) b.val r.val)
  rw [div_eq_mul_inv]
  exact mul_le_mul_of_nonneg_left (by norm_num) (by linarith)

/-- float32 numbers from 1/16 are multiples of 2^-27 -/
theorem f32_multiple {q : ℚ} (hq : rnd f32 q = q) (h : 1 / 16 ≤ |q|) : ∃ n : Int, q = n * pow2 (-27) := by
  apply rep_multiple hq
  have h0 : 0 < |q| := by linarith
  have h1 : pow2 (-4) ≤ |q| := by rw [pow2_eq]; norm_num; linarith
  have h2 := (ilog2_spec h0).2
  have h3 : (-4 : Int) < ilog2 |q| + 1 := pow2_lt.mp (lt_of_le_of_lt h1 h2)
  unfold ulpExp
  have : (f32.prec : Int) = 24 := by decide
  omega

theorem pow2_27 : pow2 (-27) = 1 / 134217728 := by rw [pow2_eq]; norm_num

/-- two float32 numbers, one of them at least 1/8, that are closer than 2^-27 are equal -/
theorem f32_close {p q : ℚ} (hp : rnd f32 p = p) (hq : rnd f32 q = q) (h : 1 / 8 ≤ |q|) (hc : |p - q| < pow2 (-27)) : p = q := by
  have hp16 : 1 / 16 ≤ |p| := by
    have := abs_sub_abs_le_abs_sub q p
    rw [abs_sub_comm] at this
    rw [pow2_27] at hc
    have : (1 : ℚ) / 134217728 ≤ 1 / 16 := by norm_num
    linarith
  obtain ⟨m, hm⟩ := f32_multiple hp hp16
  obtain ⟨n, hn⟩ := f32_multiple hq (by linarith)
  by_contra hne
  have hmn : m ≠ n := by intro e; rw [e] at hm; exact hne (hm.trans hn.symm)
  have h1 : (1 : ℚ) ≤ |(m : ℚ) - n| := by
    have : 1 ≤ |m - n| := Int.one_le_abs (sub_ne_zero.mpr hmn)
    have : ((1 : Int) : ℚ) ≤ ((|m - n| : Int) : ℚ) := by exact_mod_cast this
    push_cast at this; exact this
  have h2 : |p - q| = |(m : ℚ) - n| * pow2 (-27) := by
    rw [hm, hn, ← sub_mul, abs_mul, abs_of_pos (pow2_pos _)]
  have h3 := pow2_pos (-27)
  nlinarith

/-- C57. Converting a reflectivity to a rate and back returns the same float32 number, for every float32 from 1/8 to
128 dBZ in absolute value; smaller ones are reproduced to 2e-9 dBZ. -/
theorem C57_round_trip {M : MathLib} (hM : AccuratePowLog M) {a b : F64} (h : Parameters a b) {d : F32} (hd : d.isFin = true)
    (hr : |d.val| ≤ 128) :
    let z := NewZR (f64Arith M) a b
    let F := Reflectivity M z (PrecipitationRate M z d)
    F.isFin = true ∧ |F.val - d.val| ≤ 2 / 10 ^ 9 ∧ (1 / 8 ≤ |d.val| → F = d) := by
  have hr' : |(d.val : ℝ)| ≤ 128 := by
    have : ((|d.val| : ℚ) : ℝ) ≤ ((128 : ℚ) : ℝ) := by exact_mod_cast hr
    push_cast at this; exact this
  obtain ⟨r1, r2⟩ := rate_log hM h hd hr'
  obtain ⟨f1, f2, f3, _⟩ := refl32 hM h r1 r2 (le_refl _)
  have ha : (0 : ℝ) < a.val := by linarith [h.a1]
  have hb : (b.val : ℝ) ≠ 0 := by have := h.b1; intro e; rw [e] at this; norm_num at this
  have hD : 10 * logb 10 (a.val : ℝ) + 10 * b.val * (log (realRate a.val b.val d.val) / log 10) = d.val := by
    rw [← realRefl_log]; exact (C39_inverse ha hb).1 _
  rw [hD] at f3
  intro z F
  have f3' : |(reflectivity (f64Arith M) z (PrecipitationRate M z d)).val - d.val| ≤ 8 / 10 ^ 10 := by
    have : ((|(reflectivity (f64Arith M) z (PrecipitationRate M z d)).val - d.val| : ℚ) : ℝ) ≤ ((8 / 10 ^ 10 : ℚ) : ℝ) := by
      push_cast; exact f3
    exact_mod_cast this
  have hn := rnd_nearest f32 (q := (reflectivity (f64Arith M) z (PrecipitationRate M z d)).val) d.rnd_val
  rw [← f2, abs_sub_comm d.val] at hn
  have hc : |F.val - d.val| ≤ 2 / 10 ^ 9 := by
    have e : F.val - d.val = (F.val - (reflectivity (f64Arith M) z (PrecipitationRate M z d)).val) +
      ((reflectivity (f64Arith M) z (PrecipitationRate M z d)).val - d.val) := by ring
    rw [e]
    refine (abs_add_le _ _).trans ((add_le_add (hn.trans f3') f3').trans (by norm_num))
  refine ⟨f1, hc, fun h8 => ?_⟩
  have heq : F.val = d.val := f32_close F.rnd_val d.rnd_val h8 (lt_of_le_of_lt hc (by rw [pow2_27]; norm_num))
  refine eq_of_val f1 hd heq ?_
  rw [heq]; intro h0; rw [h0] at h8; norm_num at h8

/-- C57. Converting a rate to a reflectivity and back reproduces the rate to 10^-5, wherever the reflectivity is at
most 127 dBZ. -/
theorem C57_rate_round_trip {M : MathLib} (hM : AccuratePowLog M) {a b : F64} (h : Parameters a b) {r : F64}
    (hr : r.isFin = true) (h0 : 0 < r.val) (hz : |realRefl a.val b.val r.val| ≤ 127) :
    let z := NewZR (f64Arith M) a b
    let R := PrecipitationRate M z (Reflectivity M z r)
    R.isFin = true ∧ |R.val - r.val| ≤ r.val / 10 ^ 5 := by
  have hl := log_ten
  obtain ⟨la1, la2⟩ := log_a h
  have hb1 := h.b1
  have hb0 : (0 : ℝ) < b.val := by linarith
  have ha : (0 : ℝ) < a.val := by linarith [h.a1]
  have hp : (0 : ℝ) < r.val := by exact_mod_cast h0
  have hL : |log (r.val : ℝ)| ≤ 80 := by
    have e : log (r.val : ℝ) = (realRefl a.val b.val r.val / 10 * log 10 - log a.val) / b.val := by
      rw [← log_realRate ha, (C39_inverse ha hb0.ne').2 _ hp]
    rw [e, abs_div, abs_of_pos hb0, div_le_iff₀ hb0]
    have h1 := abs_sub (realRefl (a.val : ℝ) b.val r.val / 10 * log 10) (log a.val)
    rw [abs_of_nonneg la1, abs_mul, abs_div, abs_of_pos (by linarith : (0 : ℝ) < log 10), abs_of_pos (by norm_num : (0 : ℝ) < 10)] at h1
    have h2 : |realRefl (a.val : ℝ) b.val r.val| / 10 * log 10 ≤ 127 / 10 * (231 / 100) :=
      mul_le_mul (by linarith) hl.2 (by linarith) (by norm_num)
    linarith
  obtain ⟨f1, _, _, f4⟩ := refl32 hM h (L := log r.val) (δ := 0) ⟨hr, hp, by simp⟩ hL (by norm_num)
  rw [← realRefl_log] at f4
  intro z R
  set F := Reflectivity M z r with hF
  have f5 : |(F.val : ℝ) - realRefl a.val b.val r.val| ≤ 9 / 10 ^ 6 := by
    refine f4.trans ?_
    norm_num; linarith
  have f6 : |(F.val : ℝ)| ≤ 128 := by
    have := abs_add_le (realRefl (a.val : ℝ) b.val r.val) ((F.val : ℝ) - realRefl a.val b.val r.val)
    rw [add_sub_cancel] at this
    linarith
  obtain ⟨⟨g1, g2, g3⟩, _⟩ := rate_log hM h f1 f6
  refine ⟨g1, ?_⟩
  have e : log (realRate a.val b.val F.val) - log (r.val : ℝ) = ((F.val : ℝ) - realRefl a.val b.val r.val) * (log 10 / (10 * b.val)) := by
    conv_lhs => rw [← (C39_inverse ha hb0.ne').2 _ hp, log_realRate ha, log_realRate ha]
    field_simp; ring
  have k1 : log 10 / (10 * (b.val : ℝ)) ≤ 47 / 100 := by
    rw [div_le_iff₀ (by positivity)]; linarith
  have k2 : |log (realRate a.val b.val F.val) - log (r.val : ℝ)| ≤ 9 / 10 ^ 6 * (47 / 100) := by
    rw [e, abs_mul, abs_of_pos (div_pos (by linarith) (by positivity) : 0 < log 10 / (10 * (b.val : ℝ)))]
    exact mul_le_mul f5 k1 (div_pos (by linarith) (by positivity)).le (by norm_num)
  have k3 : |log (R.val : ℝ) - log r.val| ≤ 5 / 10 ^ 6 := by
    have e : log (R.val : ℝ) - log r.val = (log (R.val : ℝ) - log (realRate a.val b.val F.val)) + (log (realRate a.val b.val F.val) - log r.val) := by ring
    rw [e]
    refine (abs_add_le _ _).trans ((add_le_add g3 k2).trans (by norm_num))
  have k4 := rel_of_log g2 hp k3 (by norm_num)
  have : ((|R.val - r.val| : ℚ) : ℝ) ≤ ((r.val / 10 ^ 5 : ℚ) : ℝ) := by
    push_cast
    refine k4.trans (le_of_eq ?_)
    ring
  exact_mod_cast this

/-- C57. PrecipitationRate is strictly increasing on the float32 reflectivities up to 128 dBZ, apart from pairs that
both are smaller than 1/8 dBZ. -/
theorem C57_increasing {M : MathLib} (hM : AccuratePowLog M) {a b : F64} (h : Parameters a b) {d d' : F32}
    (hd : d.isFin = true) (hd' : d'.isFin = true) (hr : |d.val| ≤ 128) (hr' : |d'.val| ≤ 128)
    (h8 : 1 / 8 ≤ |d.val| ∨ 1 / 8 ≤ |d'.val|) (hlt : d.lt d' = true) :
    let z := NewZR (f64Arith M) a b
    (PrecipitationRate M z d).lt (PrecipitationRate M z d') = true := by
  have hl := log_ten
  have cast : ∀ x : F32, |x.val| ≤ 128 → |(x.val : ℝ)| ≤ 128 := by
    intro x hx
    have : ((|x.val| : ℚ) : ℝ) ≤ ((128 : ℚ) : ℝ) := by exact_mod_cast hx
    push_cast at this; exact this
  have hv : d.val < d'.val := by rw [lt_fin hd hd'] at hlt; exact of_decide_eq_true hlt
  have gap : pow2 (-27) ≤ d'.val - d.val := by
    by_contra hc
    have hc := lt_of_not_ge hc
    have hpos : 0 ≤ d'.val - d.val := by linarith
    rcases h8 with h8 | h8
    · have := f32_close d'.rnd_val d.rnd_val h8 (by rw [abs_of_nonneg hpos]; exact hc)
      rw [this] at hv; exact _root_.lt_irrefl _ hv
    · have := f32_close d.rnd_val d'.rnd_val h8 (by rw [abs_sub_comm, abs_of_nonneg hpos]; exact hc)
      rw [this] at hv; exact _root_.lt_irrefl _ hv
  have gap' : (1 / 134217728 : ℝ) ≤ d'.val - d.val := by
    rw [pow2_27] at gap
    have : ((1 / 134217728 : ℚ) : ℝ) ≤ ((d'.val - d.val : ℚ) : ℝ) := by exact_mod_cast gap
    push_cast at this; exact this
  obtain ⟨⟨x1, x2, x3⟩, _⟩ := rate_log hM h hd (cast d hr)
  obtain ⟨⟨y1, y2, y3⟩, _⟩ := rate_log hM h hd' (cast d' hr')
  have ha : (0 : ℝ) < a.val := by linarith [h.a1]
  have hb1 := h.b1
  have hb2 := h.b2
  have hb0 : (0 : ℝ) < b.val := by linarith
  have e : log (realRate a.val b.val d'.val) - log (realRate a.val b.val d.val) = ((d'.val : ℝ) - d.val) * (log 10 / (10 * b.val)) := by
    rw [log_realRate ha, log_realRate ha]; field_simp; ring
  have k1 : 23 / 1000 ≤ log 10 / (10 * (b.val : ℝ)) := by rw [le_div_iff₀ (by positivity)]; linarith
  have k2 : (1 / 134217728 : ℝ) * (23 / 1000) ≤ ((d'.val : ℝ) - d.val) * (log 10 / (10 * b.val)) :=
    mul_le_mul gap' k1 (by norm_num) (by linarith)
  rw [← e] at k2
  intro z
  rw [lt_fin x1 y1, decide_eq_true_iff]
  have hx := abs_le.mp x3
  have hy := abs_le.mp y3
  have : log ((PrecipitationRate M z d).val : ℝ) < log ((PrecipitationRate M z d').val : ℝ) := by
    norm_num at k2 hx hy ⊢; linarith
  have := (log_lt_log_iff x2 y2).mp this
  exact_mod_cast this

/-! ### the relations named in the package, and a library meeting the contract -/

theorem params_of {a b : F64} {p q : ℚ} (ha : a.isFin = true) (hb : b.isFin = true) (h1 : a.val = p) (h2 : b.val = q)
    (h3 : 1 ≤ p ∧ p ≤ 10 ^ 4) (h4 : 1 / 2 ≤ q ∧ q ≤ 10) : Parameters a b := by
  have c1 : ((1 : ℚ) : ℝ) ≤ ((a.val : ℚ) : ℝ) := by rw [h1]; exact_mod_cast h3.1
  have c2 : ((a.val : ℚ) : ℝ) ≤ ((10 ^ 4 : ℚ) : ℝ) := by rw [h1]; exact_mod_cast h3.2
  have c3 : ((1 / 2 : ℚ) : ℝ) ≤ ((b.val : ℚ) : ℝ) := by rw [h2]; exact_mod_cast h4.1
  have c4 : ((b.val : ℚ) : ℝ) ≤ ((10 : ℚ) : ℝ) := by rw [h2]; exact_mod_cast h4.2
  push_cast at c1 c2 c3 c4
  exact ⟨ha, hb, c1, c2, c3, c4⟩

/-- C57. The relations named in the package are Z = 256 R^1.42, 316 R^1.5, 300 R^1.5 and 200 R^1.6, the exponents
rounded to float64, and lie in the range of the theorems above. -/
theorem C57_named (M : MathLib) : ∀ p ∈ [(Aniol80 (f64Arith M), (256 : ℚ), (1.42 : ℚ)), (Doelling98 (f64Arith M), 316, 1.5),
      (JossWaldvogel70 (f64Arith M), 300, 1.5), (MarshallPalmer55 (f64Arith M), 200, 1.6)],
    ∃ a b, p.1 = NewZR (f64Arith M) a b ∧ Parameters a b ∧ a.val = p.2.1 ∧ |b.val - p.2.2| ≤ 2 / 10 ^ 16 := by
  intro p hp
  simp only [List.mem_cons, List.not_mem_nil, or_false] at hp
  rcases hp with rfl | rfl | rfl | rfl
  · exact ⟨lit f64 256, lit f64 (142 / 100), rfl, params_of (by decide +kernel) (by decide +kernel) rfl rfl
      (by decide +kernel) (by decide +kernel), (by decide +kernel : (lit f64 256).val = 256),
      (by decide +kernel : |(lit f64 (142 / 100)).val - 1.42| ≤ 2 / 10 ^ 16)⟩
  · exact ⟨lit f64 316, lit f64 (150 / 100), rfl, params_of (by decide +kernel) (by decide +kernel) rfl rfl
      (by decide +kernel) (by decide +kernel), (by decide +kernel : (lit f64 316).val = 316),
      (by decide +kernel : |(lit f64 (150 / 100)).val - 1.5| ≤ 2 / 10 ^ 16)⟩
  · exact ⟨lit f64 300, lit f64 (150 / 100), rfl, params_of (by decide +kernel) (by decide +kernel) rfl rfl
      (by decide +kernel) (by decide +kernel), (by decide +kernel : (lit f64 300).val = 300),
      (by decide +kernel : |(lit f64 (150 / 100)).val - 1.5| ≤ 2 / 10 ^ 16)⟩
  · exact ⟨lit f64 200, lit f64 (160 / 100), rfl, params_of (by decide +kernel) (by decide +kernel) rfl rfl
      (by decide +kernel) (by decide +kernel), (by decide +kernel : (lit f64 200).val = 200),
      (by decide +kernel : |(lit f64 (160 / 100)).val - 1.6| ≤ 2 / 10 ^ 16)⟩

/-- a rational with small relative error -/
noncomputable def ratRel (r : ℝ) : ℚ :=
  if h : 0 < r then Classical.choose (exists_rat_near r (by positivity : (0 : ℝ) < r / 10 ^ 20)) else 0

theorem ratRel_spec {r : ℝ} (h : 0 < r) : |(ratRel r : ℝ) - r| ≤ r / 10 ^ 20 := by
  unfold ratRel
  rw [dif_pos h, abs_sub_comm]
  exact (Classical.choose_spec (exists_rat_near r (by positivity : (0 : ℝ) < r / 10 ^ 20))).le

/-- a math library that rounds (nearly) exact powers and logarithms -/
noncomputable def relMath : MathLib :=
  { exactMath with pow := fun x y => Fl.lit f64 (ratRel ((x.val : ℝ) ^ (y.val : ℝ))) }

theorem relMath_accurate : AccuratePowLog relMath where
  pow x y _ _ h1 h2 _ h3 := by
    have hx : (0 : ℝ) < x.val := by linarith
    have hp : (0 : ℝ) < (x.val : ℝ) ^ (y.val : ℝ) := rpow_pos_of_pos hx _
    have hr := exp_range (L := y.val * log x.val) (by linarith)
    have e : exp ((y.val : ℝ) * log x.val) = (x.val : ℝ) ^ (y.val : ℝ) := by
      rw [rpow_def_of_pos hx, mul_comm]
    rw [e] at hr
    set R := (x.val : ℝ) ^ (y.val : ℝ) with hR
    have hu : R ≤ 10 ^ 50 := by
      have : R ≤ exp 100 := by rw [← e]; exact exp_le_exp.mpr (abs_le.mp h3).2
      refine this.trans ?_
      have h1 : exp (100 : ℝ) = exp 1 ^ 100 := by rw [← exp_nat_mul]; norm_num
      rw [h1]
      exact (pow_le_pow_left₀ (exp_pos _).le exp_one_lt_d9.le _).trans (by norm_num)
    exact lit_ap (M := 2 * R) (ratRel_spec hp) (by rw [abs_of_pos hp]; norm_num; linarith) (by norm_num at hr ⊢; linarith)
      (by norm_num at hu ⊢; linarith) (by norm_num; linarith)
  log10 x _ h1 h2 := by
    have hl := log_ten
    have hb : |logb 10 (x.val : ℝ)| ≤ 50 := by
      unfold logb
      rw [abs_div, abs_of_pos (by linarith : (0 : ℝ) < log 10), div_le_iff₀ (by linarith)]; linarith
    exact lit_ap (M := 51) (ratNear_spec _) (by norm_num; linarith) (by norm_num) (by norm_num) (by norm_num)

/-- 40 dBZ to mm/h and back under Aniol's relation -/
example : let z := Aniol80 (f64Arith relMath)
    Reflectivity relMath z (PrecipitationRate relMath z (lit f32 40)) = lit f32 40 := by
  have hp : Parameters (lit f64 256) (lit f64 (142 / 100)) := params_of (by decide +kernel) (by decide +kernel) rfl rfl
      (by decide +kernel) (by decide +kernel)
  exact (C57_round_trip relMath_accurate hp (d := lit f32 40) (by decide +kernel) (by decide +kernel)).2.2 (by decide +kernel)

end Props
