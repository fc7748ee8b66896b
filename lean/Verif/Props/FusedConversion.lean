/-
C87: Z-R conversions and the decoding of pixels, however the compiler fuses floating point operations.
-/
import Verif.Spec.FusedConversion
import Verif.Lemmas.Fusion
import Verif.Props.FloatConversion
import Verif.Props.Accuracy
import Verif.Lemmas.Rows
import Verif.Props.Fusion

namespace Props
open Go Go.Fl Radolan Radolan.Num Radolan.Fusion Spec Spec.Fusion Real

/-! ### the constants -/

theorem zr_consts_set {M : MathLib} (hM : AccuratePowLog M) {a b : F64} (h : Parameters a b) :
    let z := permittedZR M a b
    SetAp z.c1 (10 * b.val) (2 / 10 ^ 14) ∧
    (∀ u, z.c2 u → ∃ x, u = .word x ∧ LogAp x (-1 / b.val * log a.val) (12 / 10 ^ 14)) ∧
    (∀ u, z.c3 u → ∃ x, u = .word x ∧ LogAp x (1 / (10 * b.val) * log 10) (12 / 10 ^ 14)) ∧
    SetAp z.c4 (10 * logb 10 a.val) (12 / 10 ^ 13) := by
  have T := tracks_permitted exactMath_accurate
  have hl := log_ten
  obtain ⟨fa, fb, a1, a2, b1, b2⟩ := h
  obtain ⟨la1, la2⟩ := log_a (b := b) ⟨fa, fb, a1, a2, b1, b2⟩
  have hb0 : (0 : ℝ) < b.val := by linarith
  have hb10 : (0 : ℝ) < 10 * b.val := by linarith
  have sb : SetAp (just b) b.val 0 := just_ap (Ap.exact fb)
  have hc1 : SetAp ((permittedArith M).mul (just (lit f64 10)) (just b)) (10 * b.val) (2 / 10 ^ 14) :=
    T.mul (B := 10) (C := 10) (e := 0) (just_ap lit10) sb (by norm_num) (by rw [abs_of_pos hb0]; exact b2)
      (by norm_num) (by norm_num) (by norm_num) (by norm_num)
  have hy : SetAp ((permittedArith M).div (just (lit f64 (-1))) (just b)) (-1 / b.val) (3 / 10 ^ 16) :=
    T.div (m := 1 / 2) (q := 2) (e := 0) (just_ap litm1) sb (by norm_num) (by rw [abs_of_pos hb0]; linarith)
      (by rw [abs_of_pos hb0]; norm_num; linarith) (by norm_num) (by norm_num) (by norm_num) (by norm_num)
  have hx : LogAp a (log a.val) 0 := ⟨fa, by linarith, by simp⟩
  have hy3 : SetAp ((permittedArith M).div (just (lit f64 1)) ((permittedArith M).mul (just (lit f64 10)) (just b)))
      (1 / (10 * b.val)) (2 / 10 ^ 15) :=
    T.div (m := 4) (q := 1 / 5) (e := 1 / 10 ^ 15) (just_ap lit1) hc1 (by norm_num)
      (by rw [abs_of_pos hb10]; norm_num; linarith)
      (by rw [abs_of_pos hb10, abs_one]; linarith) (by norm_num) (by norm_num) (by norm_num) (by norm_num)
  have h10 : ((lit f64 10).val : ℝ) = 10 := by rw [show (lit f64 10).val = 10 by decide +kernel]; norm_num
  have hx3 : LogAp (lit f64 10) (log 10) 0 := ⟨lit10.1, by rw [h10]; norm_num, by rw [h10]; simp⟩
  refine ⟨hc1, ?_, ?_, ?_⟩
  · rintro w ⟨u, v, x, y, rfl, hv, hx', hy', rfl⟩
    obtain rfl : x = a := hx'
    refine ⟨_, rfl, (pow_log hM (B := 2) (K := 924 / 100) (t := 3 / 10 ^ 15) hx a1 a2 ((hy v hv).rounds hy')
      (by rw [abs_div, abs_neg, abs_one, abs_of_pos hb0, div_le_iff₀ hb0]; linarith)
      (by rw [abs_of_nonneg la1]; exact la2) (by norm_num) (by norm_num) (by norm_num)).mono (by norm_num)⟩
  · rintro w ⟨u, v, x, y, rfl, hv, hx', hy', rfl⟩
    obtain rfl : x = lit f64 10 := hx'
    refine ⟨_, rfl, (pow_log hM (B := 1 / 5) (K := 231 / 100) (t := 5 / 10 ^ 15) hx3 (by rw [h10]; norm_num)
      (by rw [h10]; norm_num) ((hy3 v hv).rounds hy')
      (by rw [abs_of_pos (by positivity), div_le_iff₀ (by positivity)]; linarith)
      (by rw [abs_of_pos (by linarith)]; exact hl.2) (by norm_num) (by norm_num) (by norm_num)).mono (by norm_num)⟩
  · have hlb : |logb 10 (a.val : ℝ)| ≤ 41 / 10 := by
      unfold logb
      rw [abs_of_nonneg (by positivity), div_le_iff₀ (by linarith)]; linarith
    have s : SetAp ((permittedArith M).log10 (just a)) (logb 10 a.val) (1 / 10 ^ 13) := by
      rintro w ⟨u, x, rfl, hx', rfl⟩
      obtain rfl : x = a := hx'
      exact hM.log10 x fa (by linarith) (by rw [abs_of_nonneg la1]; linarith)
    exact T.mul (B := 10) (C := 5) (e := 11 / 10 ^ 13) (just_ap lit10) s (by norm_num) (by linarith) (by norm_num)
      (by norm_num) (by norm_num) (by norm_num)

/-! ### rates -/

theorem fused_rate_log {M : MathLib} (hM : AccuratePowLog M) {a b : F64} (h : Parameters a b) {d : F32} (hd : d.isFin = true)
    (hr : |(d.val : ℝ)| ≤ 128) {R : F64} (hR : PermittedRate M (permittedZR M a b) d R) :
    LogAp R (log (realRate a.val b.val d.val)) (16 / 10 ^ 12) ∧ |log (realRate a.val b.val d.val)| ≤ 80 := by
  have hl := log_ten
  obtain ⟨la1, la2⟩ := log_a h
  obtain ⟨_, c2, c3, _⟩ := zr_consts_set hM h
  obtain ⟨fa, fb, a1, a2, b1, b2⟩ := h
  have hb0 : (0 : ℝ) < b.val := by linarith
  obtain ⟨k1, k2⟩ := conv64 hd hr
  have hy : Ap (d.conv f64) d.val 0 := ⟨k1, by rw [k2]; simp⟩
  have r1 : 23 / 1000 ≤ 1 / (10 * (b.val : ℝ)) * log 10 := by
    rw [one_div, ← div_eq_inv_mul, le_div_iff₀ (by positivity)]; nlinarith [hl.1]
  have r2 : 1 / (10 * (b.val : ℝ)) * log 10 ≤ 47 / 100 := by
    rw [one_div, ← div_eq_inv_mul, div_le_iff₀ (by positivity)]; nlinarith [hl.2]
  have l1 : |(-1 : ℝ) / b.val * log a.val| ≤ 1848 / 100 := by
    rw [abs_mul, abs_div, abs_neg, abs_one, abs_of_pos hb0, abs_of_nonneg la1, one_div, ← div_eq_inv_mul, div_le_iff₀ hb0]
    nlinarith
  have m1 : |(d.val : ℝ) * (1 / (10 * (b.val : ℝ)) * log 10)| ≤ 6016 / 100 := by
    rw [abs_mul, abs_of_nonneg (by linarith : (0 : ℝ) ≤ 1 / (10 * (b.val : ℝ)) * log 10)]
    refine (mul_le_mul hr r2 (by linarith) (by norm_num)).trans (by norm_num)
  have hs := abs_add_le ((-1 : ℝ) / b.val * log a.val) ((d.val : ℝ) * (1 / (10 * (b.val : ℝ)) * log 10))
  have e : (-1 : ℝ) / b.val * log a.val + (d.val : ℝ) * (1 / (10 * (b.val : ℝ)) * log 10) = log (realRate a.val b.val d.val) := by
    rw [log_realRate (by linarith)]; field_simp; ring
  refine ⟨?_, by rw [e] at hs; linarith⟩
  -- the two factors
  obtain ⟨w, ⟨u, v, hu, hv, hw⟩, hR⟩ := hR
  obtain ⟨x, rfl, hx⟩ := c2 u hu
  obtain ⟨s, t, y0, y1, hs0, ht0, hy0, hy1, rfl⟩ := hv
  obtain ⟨y0', rfl, hc3⟩ := c3 s hs0
  obtain rfl : y0 = y0' := hy0
  obtain rfl : t = .word (d.conv f64) := ht0
  obtain rfl : y1 = d.conv f64 := hy1
  obtain ⟨z1, z2, z3⟩ := hc3
  have z4 := abs_le.mp z3
  have g1 : (1 : ℝ) ≤ y0.val := by
    rw [← log_nonneg_iff z2]
    linarith [z4.1]
  have g2 : (y0.val : ℝ) ≤ 10 ^ 4 := by
    have : log (y0.val : ℝ) ≤ 1 := by linarith [z4.2]
    rw [log_le_iff_le_exp z2] at this
    have := exp_one_lt_d9
    norm_num at this ⊢; linarith
  have hp := pow_log hM (B := 128) (K := 47 / 100) (t := 1536 / 10 ^ 14) (⟨z1, z2, z3⟩ : LogAp _ _ _) g1 g2 hy hr
    (by rw [abs_of_nonneg (by linarith)]; exact r2) (by norm_num) (by norm_num) (by norm_num)
  generalize M.pow y0 (d.conv f64) = y at *
  -- rounded once, whichever way
  have fused : ∀ neg, LogAp (mk f64 neg (x.val * y.val)) (log (realRate a.val b.val d.val)) (16 / 10 ^ 12) := by
    intro neg
    have hl2 : log (((x.val * y.val : ℚ)) : ℝ) = log x.val + log y.val := by
      push_cast; exact log_mul hx.2.1.ne' hp.2.1.ne'
    have hn := near_add hx.2.2 hp.2.2
    rw [← hl2, e] at hn
    have hq : |log (((x.val * y.val : ℚ)) : ℝ)| ≤ 120 := by
      have h3 := abs_add_le (log (realRate a.val b.val d.val)) (log (((x.val * y.val : ℚ)) : ℝ) - log (realRate a.val b.val d.val))
      rw [add_sub_cancel] at h3
      rw [e] at hs
      linarith
    obtain ⟨m1, m2, m3⟩ := mk_log (b := neg) (q := x.val * y.val) (by push_cast; exact mul_pos hx.2.1 hp.2.1) hq
    refine ⟨m1, m2, ?_⟩
    have e2 : log ((mk f64 neg (x.val * y.val)).val : ℝ) - log (realRate a.val b.val d.val) =
      (log ((mk f64 neg (x.val * y.val)).val : ℝ) - log (((x.val * y.val : ℚ)) : ℝ)) +
      (log (((x.val * y.val : ℚ)) : ℝ) - log (realRate a.val b.val d.val)) := by ring
    rw [e2]
    refine (abs_add_le _ _).trans ((add_le_add m3 hn).trans ?_)
    norm_num
  cases hw with
  | @separate x' y' hx' hy' =>
    obtain rfl : x' = x := hx'
    obtain rfl : y' = y := hy'
    obtain rfl : R = mul x' y' := hR
    rw [mul_fin hx.1 hp.1]; exact fused _
  | @kept p q hp' hq' _ =>
    obtain ⟨neg, rfl⟩ := hR
    rw [hp'.2, hq'.2]; exact fused neg
  | @fused p q neg hp' hq' _ =>
    obtain rfl : R = _ := hR
    rw [hp'.2, hq'.2]; exact fused neg

/-- C87. Whatever operations of NewZR and PrecipitationRate the compiler fuses, the rate is a finite positive number
within a relative error of 10^-10 of the exact one. -/
theorem C87_rate {M : MathLib} (hM : AccuratePowLog M) {a b : F64} (h : Parameters a b) {d : F32} (hd : d.isFin = true)
    (hr : |(d.val : ℝ)| ≤ 128) {R : F64} (hR : PermittedRate M (permittedZR M a b) d R) :
    R.isFin = true ∧ 0 < R.val ∧ |(R.val : ℝ) - realRate a.val b.val d.val| ≤ realRate a.val b.val d.val / 10 ^ 10 := by
  obtain ⟨⟨h1, h2, h3⟩, _⟩ := fused_rate_log hM h hd hr hR
  have hp : 0 < realRate a.val b.val d.val := by rw [realRate_eq (by linarith [h.a1])]; exact exp_pos _
  refine ⟨h1, by exact_mod_cast h2, (rel_of_log h2 hp h3 (by norm_num)).trans ?_⟩
  rw [div_eq_mul_inv]
  exact mul_le_mul_of_nonneg_left (by norm_num) hp.le

/-! ### reflectivities -/

theorem fused_refl_ap {M : MathLib} (hM : AccuratePowLog M) {a b : F64} (h : Parameters a b) {r : F64} {L δ : ℝ} (hr : LogAp r L δ)
    (hL : |L| ≤ 80) (hd : δ ≤ 16 / 10 ^ 12) :
    SetAp (reflectivity (permittedArith M) (permittedZR M a b) (just r)) (10 * logb 10 a.val + 10 * b.val * (L / log 10)) (8 / 10 ^ 10) := by
  have T := tracks_permitted exactMath_accurate
  have hl := log_ten
  obtain ⟨la1, la2⟩ := log_a h
  obtain ⟨c1, _, _, c4⟩ := zr_consts_set hM h
  obtain ⟨fa, fb, a1, a2, b1, b2⟩ := h
  obtain ⟨r1, r2, r3⟩ := hr
  have hlog : |log (r.val : ℝ)| ≤ 100 := by
    have := abs_add_le L (log (r.val : ℝ) - L)
    rw [add_sub_cancel] at this
    norm_num at hd; linarith
  have q1 : Ap (M.log10 r) (L / log 10) (71 / 10 ^ 13) := by
    obtain ⟨p1, p2⟩ := hM.log10 r r1 r2 hlog
    refine ⟨p1, ?_⟩
    have e : ((M.log10 r).val : ℝ) - L / log 10 = (((M.log10 r).val : ℝ) - logb 10 r.val) + (log r.val - L) / log 10 := by
      unfold logb; ring
    rw [e]
    refine (abs_add_le _ _).trans ?_
    have : |(log (r.val : ℝ) - L) / log 10| ≤ 70 / 10 ^ 13 := by
      rw [abs_div, abs_of_pos (by linarith : 0 < log 10), div_le_iff₀ (by linarith)]
      refine (r3.trans hd).trans ?_
      norm_num; linarith
    linarith
  have s1 : SetAp ((permittedArith M).log10 (just r)) (L / log 10) (71 / 10 ^ 13) := by
    rintro w ⟨u, x, rfl, hx', rfl⟩
    obtain rfl : x = r := hx'
    exact q1
  have q2 : |L / log 10| ≤ 35 := by
    rw [abs_div, abs_of_pos (by linarith : 0 < log 10), div_le_iff₀ (by linarith)]; linarith
  have q3 : |10 * (b.val : ℝ)| ≤ 100 := by rw [abs_of_nonneg (by linarith)]; linarith
  have hm : SetAp ((permittedArith M).mul (permittedZR M a b).c1 ((permittedArith M).log10 (just r)))
      (10 * b.val * (L / log 10)) (72 / 10 ^ 11) :=
    T.mul (B := 100) (C := 35) (e := 711 / 10 ^ 12) c1 s1 q3 q2 (by norm_num) (by norm_num) (by norm_num) (by norm_num)
  have hlb : |10 * logb 10 (a.val : ℝ)| ≤ 50 := by
    unfold logb
    rw [abs_of_nonneg (by positivity), ← mul_div_assoc, div_le_iff₀ (by linarith)]; linarith
  refine T.add (M := 3600) c4 hm ?_ (by norm_num) (by norm_num) (by norm_num)
  have s1 := abs_add_le (10 * logb 10 (a.val : ℝ)) (10 * (b.val : ℝ) * (L / log 10))
  have s2 : |10 * (b.val : ℝ) * (L / log 10)| ≤ 3500 := by
    rw [abs_mul]; refine (mul_le_mul q3 q2 (abs_nonneg _) (by norm_num)).trans (by norm_num)
  linarith

/-- rounding a number of moderate size to float32 -/
theorem mk32 {q : ℚ} {b : Bool} (hr : |q| ≤ 4000) : (mk f32 b q).isFin = true ∧ (mk f32 b q).val = rnd f32 q ∧
    |rnd f32 q - q| ≤ (|q| + 1) * (6 / 10 ^ 8) := by
  have h24 : pow2 (-24) ≤ 6 / 10 ^ 8 := by rw [pow2_eq]; norm_num
  have herr : |rnd f32 q - q| ≤ (|q| + 1) * (6 / 10 ^ 8) := by
    have h1 := rnd_err32 q
    have h3 := abs_nonneg q
    have h4 : |q| / 16777216 ≤ |q| * (6 / 10 ^ 8) := by
      rw [div_eq_mul_inv]; exact mul_le_mul_of_nonneg_left (by norm_num) h3
    have h5 : (1 : ℚ) / 1000000000000 ≤ 6 / 10 ^ 8 := by norm_num
    linarith
  have hb : |rnd f32 q| < pow2 f32.emax := by
    have h1 := abs_add_le (rnd f32 q - q) q
    rw [sub_add_cancel] at h1
    have h2 : (|q| + 1) * (6 / 10 ^ 8 : ℚ) ≤ 4001 * (6 / 10 ^ 8) := mul_le_mul_of_nonneg_right (by linarith) (by norm_num)
    have h3 : pow2 13 ≤ pow2 f32.emax := pow2_le.mpr (by decide)
    have h4 : pow2 13 = 8192 := by rw [pow2_eq]; norm_num
    have h5 : (4001 : ℚ) * (6 / 10 ^ 8) ≤ 1 := by norm_num
    linarith
  obtain ⟨c1, c2⟩ := mk_fin (b := b) hb
  exact ⟨c1, c2, herr⟩

/-- a permitted reflectivity is the rounding of a number near the exact one -/
theorem fused_refl32 {M : MathLib} (hM : AccuratePowLog M) {a b : F64} (h : Parameters a b) {r : F64} {L δ : ℝ} (hr : LogAp r L δ)
    (hL : |L| ≤ 80) (hd : δ ≤ 16 / 10 ^ 12) {F : F32} (hF : PermittedReflectivity M (permittedZR M a b) r F) :
    let D := 10 * logb 10 (a.val : ℝ) + 10 * b.val * (L / log 10)
    ∃ q : ℚ, F.isFin = true ∧ F.val = rnd f32 q ∧ |(q : ℝ) - D| ≤ 8 / 10 ^ 10 ∧ |(F.val : ℝ) - D| ≤ (|D| + 1) * (7 / 10 ^ 8) := by
  intro D
  obtain ⟨u, hu, hF⟩ := hF
  have hA := fused_refl_ap hM h hr hL hd u hu
  have hs : |D| ≤ 3550 := refl_size h hL
  have size : ∀ q : ℚ, |(q : ℝ) - D| ≤ 8 / 10 ^ 10 → |(q : ℝ)| ≤ |D| + 8 / 10 ^ 10 := by
    intro q hq
    have := abs_add_le D ((q : ℝ) - D)
    rw [add_sub_cancel] at this
    linarith
  have fin : ∀ q : ℚ, |(q : ℝ) - D| ≤ 8 / 10 ^ 10 → |((rnd f32 q : ℚ) : ℝ) - q| ≤ (|(q : ℝ)| + 1) * (6 / 10 ^ 8) →
      |((rnd f32 q : ℚ) : ℝ) - D| ≤ (|D| + 1) * (7 / 10 ^ 8) := by
    intro q hq h1
    have h2 := size q hq
    have e : ((rnd f32 q : ℚ) : ℝ) - D = (((rnd f32 q : ℚ) : ℝ) - q) + (q - D) := by ring
    rw [e]
    refine (abs_add_le _ _).trans ((add_le_add h1 hq).trans ?_)
    have h0 := abs_nonneg D
    nlinarith
  rcases hF with ⟨x, hx, rfl⟩ | ⟨q, neg, hq, rfl⟩
  · obtain ⟨x1, x2⟩ := hA.rounds hx
    obtain ⟨k1, k2, k3⟩ := conv32 x1 ((size _ x2).trans (by norm_num; linarith))
    refine ⟨x.val, k1, k2, x2, ?_⟩
    rw [k2] at k3 ⊢
    exact fin _ x2 k3
  · have x2 := hA.is hq
    have hq' : |q| ≤ 4000 := by
      have h3 := (size _ x2)
      have h4 : |(q : ℝ)| ≤ 4000 := h3.trans (by norm_num; linarith)
      have : ((|q| : ℚ) : ℝ) ≤ ((4000 : ℚ) : ℝ) := by push_cast; exact h4
      exact_mod_cast this
    obtain ⟨k1, k2, k3⟩ := mk32 (b := neg) hq'
    refine ⟨q, k1, k2, x2, ?_⟩
    rw [k2]
    refine fin _ x2 ?_
    have : ((|rnd f32 q - q| : ℚ) : ℝ) ≤ (((|q| + 1) * (6 / 10 ^ 8) : ℚ) : ℝ) := by exact_mod_cast k3
    push_cast at this
    exact this

/-- C87. Whatever operations of NewZR and Reflectivity the compiler fuses, the reflectivity of a rate from 10^-30 to
10^30 mm/h is finite and deviates from the exact one by at most 10^-7 dBZ plus 10^-7 of its value. -/
theorem C87_reflectivity {M : MathLib} (hM : AccuratePowLog M) {a b : F64} (h : Parameters a b) {r : F64} (hr : r.isFin = true)
    (h1 : 1 / 10 ^ 30 ≤ (r.val : ℝ)) (h2 : (r.val : ℝ) ≤ 10 ^ 30) {F : F32}
    (hF : PermittedReflectivity M (permittedZR M a b) r F) :
    F.isFin = true ∧ |(F.val : ℝ) - realRefl a.val b.val r.val| ≤ (|realRefl a.val b.val r.val| + 1) / 10 ^ 7 := by
  have hl := log_ten
  have hp : (0 : ℝ) < r.val := lt_of_lt_of_le (by norm_num) h1
  have hL : |log (r.val : ℝ)| ≤ 80 := by
    rw [abs_le]
    have e1 := log_le_log (by norm_num) h1
    have e2 := log_le_log hp h2
    rw [one_div, log_inv, log_pow] at e1
    rw [log_pow] at e2
    push_cast at e1 e2
    constructor <;> linarith
  obtain ⟨_, f1, _, _, f4⟩ := fused_refl32 hM h (L := log r.val) (δ := 0) ⟨hr, hp, by simp⟩ hL (by norm_num) hF
  rw [← realRefl_log] at f4
  refine ⟨f1, f4.trans ?_⟩
  have h0 := abs_nonneg (realRefl (a.val : ℝ) b.val r.val)
  rw [div_eq_mul_inv]
  exact mul_le_mul_of_nonneg_left (by norm_num) (by linarith)

/-- C87. Converting a reflectivity to a rate and back returns the same float32 number, for every float32 from 1/8 to 128
dBZ in absolute value, whatever the compiler fuses in either direction. -/
theorem C87_round_trip {M : MathLib} (hM : AccuratePowLog M) {a b : F64} (h : Parameters a b) {d : F32} (hd : d.isFin = true)
    (hr : |d.val| ≤ 128) {R : F64} (hR : PermittedRate M (permittedZR M a b) d R) {F : F32}
    (hF : PermittedReflectivity M (permittedZR M a b) R F) :
    F.isFin = true ∧ |F.val - d.val| ≤ 2 / 10 ^ 9 ∧ (1 / 8 ≤ |d.val| → F = d) := by
  have hr' : |(d.val : ℝ)| ≤ 128 := by
    have : ((|d.val| : ℚ) : ℝ) ≤ ((128 : ℚ) : ℝ) := by exact_mod_cast hr
    push_cast at this; exact this
  obtain ⟨r1, r2⟩ := fused_rate_log hM h hd hr' hR
  obtain ⟨q, f1, f2, f3, _⟩ := fused_refl32 hM h r1 r2 (le_refl _) hF
  have ha : (0 : ℝ) < a.val := by linarith [h.a1]
  have hb : (b.val : ℝ) ≠ 0 := by have := h.b1; intro e; rw [e] at this; norm_num at this
  have hD : 10 * logb 10 (a.val : ℝ) + 10 * b.val * (log (realRate a.val b.val d.val) / log 10) = d.val := by
    rw [← realRefl_log]; exact (C39_inverse ha hb).1 _
  rw [hD] at f3
  have f3' : |q - d.val| ≤ 8 / 10 ^ 10 := by
    have : ((|q - d.val| : ℚ) : ℝ) ≤ ((8 / 10 ^ 10 : ℚ) : ℝ) := by push_cast; exact f3
    exact_mod_cast this
  have hn := rnd_nearest f32 (q := q) d.rnd_val
  rw [← f2, abs_sub_comm d.val] at hn
  have hc : |F.val - d.val| ≤ 2 / 10 ^ 9 := by
    have e : F.val - d.val = (F.val - q) + (q - d.val) := by ring
    rw [e]
    refine (abs_add_le _ _).trans ((add_le_add (hn.trans f3') f3').trans (by norm_num))
  refine ⟨f1, hc, fun h8 => ?_⟩
  have heq : F.val = d.val := f32_close F.rnd_val d.rnd_val h8 (lt_of_le_of_lt hc (by rw [pow2_27]; norm_num))
  refine eq_of_val f1 hd heq ?_
  rw [heq]; intro h0; rw [h0] at h8; norm_num at h8

/-- C87. Converting a rate to a reflectivity and back reproduces the rate to 10^-5, wherever the reflectivity is at
most 127 dBZ and whatever is fused. -/
theorem C87_rate_round_trip {M : MathLib} (hM : AccuratePowLog M) {a b : F64} (h : Parameters a b) {r : F64}
    (hr : r.isFin = true) (h0 : 0 < r.val) (hz : |realRefl a.val b.val r.val| ≤ 127) {F : F32}
    (hF : PermittedReflectivity M (permittedZR M a b) r F) {R : F64} (hR : PermittedRate M (permittedZR M a b) F R) :
    R.isFin = true ∧ |R.val - r.val| ≤ r.val / 10 ^ 5 := by
  have hl := log_ten
  obtain ⟨la1, la2⟩ := log_a h
  have hb1 := h.b1
  have hb0 : (0 : ℝ) < b.val := by linarith
  have ha : (0 : ℝ) < a.val := by linarith [h.a1]
  have hp : (0 : ℝ) < r.val := by exact_mod_cast h0
  have hL : |log (r.val : ℝ)| ≤ 80 := by
    have e : log (r.val : ℝ) = (realRefl a.val b.val r.val / 10 * log 10 - log a.val) / b.val := by
      rw [← log_realRate ha, (C39_inverse ha hb0.ne').2 _ hp]
    rw [e, abs_div, abs_of_pos hb0, div_le_iff₀ hb0]
    have h1 := abs_sub (realRefl (a.val : ℝ) b.val r.val / 10 * log 10) (log a.val)
    rw [abs_of_nonneg la1, abs_mul, abs_div, abs_of_pos (by linarith : (0 : ℝ) < log 10), abs_of_pos (by norm_num : (0 : ℝ) < 10)] at h1
    have h2 : |realRefl (a.val : ℝ) b.val r.val| / 10 * log 10 ≤ 127 / 10 * (231 / 100) :=
      mul_le_mul (by linarith) hl.2 (by linarith) (by norm_num)
    linarith
  obtain ⟨_, f1, _, _, f4⟩ := fused_refl32 hM h (L := log r.val) (δ := 0) ⟨hr, hp, by simp⟩ hL (by norm_num) hF
  rw [← realRefl_log] at f4
  have f5 : |(F.val : ℝ) - realRefl a.val b.val r.val| ≤ 9 / 10 ^ 6 := by
    refine f4.trans ?_
    norm_num; linarith
  have f6 : |(F.val : ℝ)| ≤ 128 := by
    have := abs_add_le (realRefl (a.val : ℝ) b.val r.val) ((F.val : ℝ) - realRefl a.val b.val r.val)
    rw [add_sub_cancel] at this
    linarith
  obtain ⟨⟨g1, g2, g3⟩, _⟩ := fused_rate_log hM h f1 f6 hR
  refine ⟨g1, ?_⟩
  have e : log (realRate a.val b.val F.val) - log (r.val : ℝ) = ((F.val : ℝ) - realRefl a.val b.val r.val) * (log 10 / (10 * b.val)) := by
    conv_lhs => rw [← (C39_inverse ha hb0.ne').2 _ hp, log_realRate ha, log_realRate ha]
    field_simp; ring
  have k1 : log 10 / (10 * (b.val : ℝ)) ≤ 47 / 100 := by
    rw [div_le_iff₀ (by positivity)]; linarith
  have k2 : |log (realRate a.val b.val F.val) - log (r.val : ℝ)| ≤ 9 / 10 ^ 6 * (47 / 100) := by
    rw [e, abs_mul, abs_of_pos (div_pos (by linarith) (by positivity) : 0 < log 10 / (10 * (b.val : ℝ)))]
    exact mul_le_mul f5 k1 (div_pos (by linarith) (by positivity)).le (by norm_num)
  have k3 : |log (R.val : ℝ) - log r.val| ≤ 5 / 10 ^ 6 := by
    have e : log (R.val : ℝ) - log r.val = (log (R.val : ℝ) - log (realRate a.val b.val F.val)) + (log (realRate a.val b.val F.val) - log r.val) := by ring
    rw [e]
    refine (abs_add_le _ _).trans ((add_le_add g3 k2).trans (by norm_num))
  have k4 := rel_of_log g2 hp k3 (by norm_num)
  have : ((|R.val - r.val| : ℚ) : ℝ) ≤ ((r.val / 10 ^ 5 : ℚ) : ℝ) := by
    push_cast
    refine k4.trans (le_of_eq ?_)
    ring
  exact_mod_cast this

/-- C87. PrecipitationRate is strictly increasing on the float32 reflectivities up to 128 dBZ, apart from pairs that
both are smaller than 1/8 dBZ, even if the two rates are evaluated differently. -/
theorem C87_increasing {M : MathLib} (hM : AccuratePowLog M) {a b : F64} (h : Parameters a b) {d d' : F32}
    (hd : d.isFin = true) (hd' : d'.isFin = true) (hr : |d.val| ≤ 128) (hr' : |d'.val| ≤ 128)
    (h8 : 1 / 8 ≤ |d.val| ∨ 1 / 8 ≤ |d'.val|) (hlt : d.lt d' = true) {R R' : F64}
    (hR : PermittedRate M (permittedZR M a b) d R) (hR' : PermittedRate M (permittedZR M a b) d' R') :
    R.lt R' = true := by
  have hl := log_ten
  have cast : ∀ x : F32, |x.val| ≤ 128 → |(x.val : ℝ)| ≤ 128 := by
    intro x hx
    have : ((|x.val| : ℚ) : ℝ) ≤ ((128 : ℚ) : ℝ) := by exact_mod_cast hx
    push_cast at this; exact this
  have hv : d.val < d'.val := by rw [lt_fin hd hd'] at hlt; exact of_decide_eq_true hlt
  have gap : pow2 (-27) ≤ d'.val - d.val := by
    by_contra hc
    have hc := lt_of_not_ge hc
    have hpos : 0 ≤ d'.val - d.val := by linarith
    rcases h8 with h8 | h8
    · have := f32_close d'.rnd_val d.rnd_val h8 (by rw [abs_of_nonneg hpos]; exact hc)
      rw [this] at hv; exact _root_.lt_irrefl _ hv
    · have := f32_close d.rnd_val d'.rnd_val h8 (by rw [abs_sub_comm, abs_of_nonneg hpos]; exact hc)
      rw [this] at hv; exact _root_.lt_irrefl _ hv
  have gap' : (1 / 134217728 : ℝ) ≤ d'.val - d.val := by
    rw [pow2_27] at gap
    have : ((1 / 134217728 : ℚ) : ℝ) ≤ ((d'.val - d.val : ℚ) : ℝ) := by exact_mod_cast gap
    push_cast at this; exact this
  obtain ⟨⟨x1, x2, x3⟩, _⟩ := fused_rate_log hM h hd (cast d hr) hR
  obtain ⟨⟨y1, y2, y3⟩, _⟩ := fused_rate_log hM h hd' (cast d' hr') hR'
  have ha : (0 : ℝ) < a.val := by linarith [h.a1]
  have hb1 := h.b1
  have hb2 := h.b2
  have hb0 : (0 : ℝ) < b.val := by linarith
  have e : log (realRate a.val b.val d'.val) - log (realRate a.val b.val d.val) = ((d'.val : ℝ) - d.val) * (log 10 / (10 * b.val)) := by
    rw [log_realRate ha, log_realRate ha]; field_simp; ring
  have k1 : 23 / 1000 ≤ log 10 / (10 * (b.val : ℝ)) := by rw [le_div_iff₀ (by positivity)]; linarith
  have k2 : (1 / 134217728 : ℝ) * (23 / 1000) ≤ ((d'.val : ℝ) - d.val) * (log 10 / (10 * b.val)) :=
    mul_le_mul gap' k1 (by norm_num) (by linarith)
  rw [← e] at k2
  rw [lt_fin x1 y1, decide_eq_true_iff]
  have hx := abs_le.mp x3
  have hy := abs_le.mp y3
  have : log (R.val : ℝ) < log (R'.val : ℝ) := by
    norm_num at k2 hx hy ⊢; linarith
  have := (log_lt_log_iff x2 y2).mp this
  exact_mod_cast this

/-- C87. The results with every operation rounded, C57's, are among the permitted ones. -/
theorem C87_zr_permitted (M : MathLib) (a b : F64) (d : F32) (r : F64) :
    PermittedRate M (permittedZR M a b) d (PrecipitationRate M (NewZR (f64Arith M) a b) d) ∧
    PermittedReflectivity M (permittedZR M a b) r (Reflectivity M (NewZR (f64Arith M) a b) r) := by
  have hC := covers_permitted M
  have ja : (just a) (.word a) := rfl
  have jb : (just b) (.word b) := rfl
  have log10 : ∀ {x : F64} {u : Inter → Prop}, u (.word x) → (permittedArith M).log10 u (.word (M.log10 x)) :=
    fun h => ⟨_, _, h, rfl, rfl⟩
  have c1 : (permittedZR M a b).c1 (.word (NewZR (f64Arith M) a b).c1) := hC.mul (hC.lit 10) jb
  have c2 : (permittedZR M a b).c2 (.word (NewZR (f64Arith M) a b).c2) := hC.pow ja (hC.div (hC.lit (-1)) jb)
  have c3 : (permittedZR M a b).c3 (.word (NewZR (f64Arith M) a b).c3) := hC.pow (hC.lit 10) (hC.div (hC.lit 1) c1)
  have c4 : (permittedZR M a b).c4 (.word (NewZR (f64Arith M) a b).c4) := hC.mul (hC.lit 10) (log10 ja)
  have jd : (just (d.conv f64)) (.word (d.conv f64)) := rfl
  have jr : (just r) (.word r) := rfl
  refine ⟨⟨_, hC.mul c2 (hC.pow c3 jd), rfl⟩, ⟨_, hC.add c4 (hC.mul c1 (log10 jr)), .inl ⟨_, rfl, rfl⟩⟩⟩

/-! ### pixels -/

/-- all results of a float32 computation, rounded or not, are near a number -/
def Near32 (a : Inter32 → Prop) (t ε : ℚ) : Prop :=
  ∀ u, a u → (∀ x, u.Rounds x → x.isFin = true ∧ |x.val - t| ≤ ε) ∧ ∀ q, u.Is q → |q - t| ≤ ε

theorem just_near {x : F32} (h : x.isFin = true) : Near32 (just32 x) x.val 0 := by
  rintro u rfl
  refine ⟨?_, ?_⟩
  · rintro y rfl
    exact ⟨h, by simp⟩
  · rintro q ⟨_, rfl⟩
    simp

theorem binary_near {op : F32 → F32 → F32} {exactly : ℚ → ℚ → ℚ} {defined : ℚ → ℚ → Prop} {a b : Inter32 → Prop} {s t ε δ res e ρ : ℚ}
    (ha : Near32 a s ε) (hb : Near32 b t δ)
    (hop : ∀ {x y : F32}, x.isFin = true → y.isFin = true → |y.val - t| ≤ δ → ∃ neg, op x y = mk f32 neg (exactly x.val y.val))
    (hex : ∀ {p q : ℚ}, |p - s| ≤ ε → |q - t| ≤ δ → |exactly p q - res| ≤ e)
    (hrnd : ∀ z : ℚ, |z - res| ≤ e → |rnd f32 z| < pow2 f32.emax ∧ |rnd f32 z - res| ≤ ρ) (he : e ≤ ρ) :
    Near32 (binary32 op exactly defined a b) res ρ := by
  rintro w ⟨u, v, hu, hv, hw⟩
  obtain ⟨u1, u2⟩ := ha u hu
  obtain ⟨v1, v2⟩ := hb v hv
  have fused : ∀ {p q : ℚ} (neg : Bool), |p - s| ≤ ε → |q - t| ≤ δ →
      (mk f32 neg (exactly p q)).isFin = true ∧ |(mk f32 neg (exactly p q)).val - res| ≤ ρ := by
    intro p q neg hp hq
    obtain ⟨r1, r2⟩ := hrnd _ (hex hp hq)
    obtain ⟨k1, k2⟩ := mk_fin (b := neg) r1
    exact ⟨k1, by rw [k2]; exact r2⟩
  rcases hw with ⟨x, y, hx, hy, rfl⟩ | ⟨p, q, hp, hq, _, rfl | ⟨neg, rfl⟩⟩
  · obtain ⟨x1, x2⟩ := u1 x hx
    obtain ⟨y1, y2⟩ := v1 y hy
    obtain ⟨neg, e⟩ := hop x1 y1 y2
    have k := fused neg x2 y2
    rw [← e] at k
    refine ⟨?_, ?_⟩
    · rintro z rfl; exact k
    · rintro z ⟨_, rfl⟩; exact k.2
  · have hp := u2 p hp
    have hq := v2 q hq
    refine ⟨?_, ?_⟩
    · rintro z ⟨neg, rfl⟩; exact fused neg hp hq
    · rintro z rfl; exact (hex hp hq).trans he
  · have k := fused neg (u2 p hp) (v2 q hq)
    refine ⟨?_, ?_⟩
    · rintro z rfl; exact k
    · rintro z ⟨_, rfl⟩; exact k.2

theorem raw_fused {p v : Int} (h1 : -37 ≤ p) (h2 : p ≤ 34) (hv : |v| ≤ 4095) :
    (∀ x, (∃ u, permittedRaw p v u ∧ u.Rounds x) → x.isFin = true ∧ x.val = (scaled p v).val) ∧
    Near32 (permittedRaw p v) (v * (10 : ℚ) ^ p) (|v * (10 : ℚ) ^ p| / 2 ^ 22) ∧
    (p = 0 → Near32 (permittedRaw p v) v 0) := by
  obtain ⟨a, b, c, d, f⟩ := pow10_f32 h1 h2
  obtain ⟨l1, l2⟩ := lit_int hv
  obtain ⟨g1, g2, g3⟩ := scaled_val h1 h2 hv
  have hlt : |rnd f32 (v * ((Fl.pow10 p).conv f32).val)| < pow2 f32.emax := by
    rw [← g2]; exact lt_of_le_of_lt g3 (pow2_lt.mpr (by decide))
  have hmk : ∀ neg, (mk f32 neg (v * ((Fl.pow10 p).conv f32).val)).isFin = true ∧
      (mk f32 neg (v * ((Fl.pow10 p).conv f32).val)).val = (scaled p v).val := by
    intro neg
    obtain ⟨k1, k2⟩ := mk_fin (b := neg) hlt
    exact ⟨k1, k2.trans g2.symm⟩
  -- the members of the set
  have all : ∀ u, permittedRaw p v u → (∀ x, u.Rounds x → x.isFin = true ∧ x.val = (scaled p v).val) ∧
      ∀ q, u.Is q → q = (scaled p v).val ∨ q = v * ((Fl.pow10 p).conv f32).val := by
    rintro w ⟨_, _, rfl, rfl, hw⟩
    rcases hw with ⟨x, y, hx, hy, rfl⟩ | ⟨q, q', ⟨_, rfl⟩, ⟨_, rfl⟩, _, rfl | ⟨neg, rfl⟩⟩
    · obtain rfl : x = _ := hx
      obtain rfl : y = _ := hy
      refine ⟨?_, ?_⟩
      · rintro z rfl; exact ⟨g1, rfl⟩
      · rintro z ⟨_, rfl⟩; exact .inl rfl
    · rw [l2]
      refine ⟨?_, ?_⟩
      · rintro z ⟨neg, rfl⟩; exact hmk neg
      · rintro z rfl; exact .inr rfl
    · rw [l2]
      refine ⟨?_, ?_⟩
      · rintro z rfl; exact hmk neg
      · rintro z ⟨_, rfl⟩; exact .inl (hmk neg).2
  refine ⟨fun x ⟨u, hu, hx⟩ => (all u hu).1 x hx, ?_, ?_⟩
  · have hacc : |(scaled p v).val - v * (10 : ℚ) ^ p| ≤ |v * (10 : ℚ) ^ p| / 2 ^ 22 := (C09_accuracy h1 h2 hv).2
    intro u hu
    obtain ⟨k1, k2⟩ := all u hu
    refine ⟨fun x hx => ?_, fun q hq => ?_⟩
    · obtain ⟨e1, e2⟩ := k1 x hx
      exact ⟨e1, by rw [e2]; exact hacc⟩
    · rcases k2 q hq with rfl | rfl
      · exact hacc
      · rw [← mul_sub, abs_mul, abs_mul, abs_of_pos (by positivity : (0 : ℚ) < 10 ^ p), mul_div_assoc]
        refine mul_le_mul_of_nonneg_left (d.trans ?_) (abs_nonneg _)
        have hT : 0 < (10 : ℚ) ^ p := by positivity
        rw [div_eq_mul_inv, div_eq_mul_inv]
        exact mul_le_mul_of_nonneg_left (by norm_num) hT.le
  · rintro rfl u hu
    have hs : (scaled 0 v).val = v := (C09_precision_zero hv).2
    obtain ⟨k1, k2⟩ := all u hu
    refine ⟨fun x hx => ?_, fun q hq => ?_⟩
    · obtain ⟨e1, e2⟩ := k1 x hx
      exact ⟨e1, by rw [e2, hs]; simp⟩
    · rcases k2 q hq with rfl | rfl
      · rw [hs]; simp
      · rw [f rfl]; simp

/-- C87. The value of a pixel of a product not in dBZ does not depend on fusion. -/
theorem C87_pixel {p v : Int} (h1 : -37 ≤ p) (h2 : p ≤ 34) (hv : |v| ≤ 4095) {x : F32} (hx : PermittedPixel false p v x) :
    x.isFin = true ∧ x.val = (decoded false p v).val := (raw_fused h1 h2 hv).1 x hx

theorem rnd_near {z res e B : ℚ} (h : |z - res| ≤ e) (hB : |res| + e ≤ B) (hM : B ≤ pow2 126) :
    |rnd f32 z| < pow2 f32.emax ∧ |rnd f32 z - res| ≤ e + B / 16777216 + 1 / 1000000000000 := by
  have hz : |z| ≤ B := by
    have := abs_add_le res (z - res)
    rw [add_sub_cancel] at this
    linarith
  refine ⟨lt_of_le_of_lt (rnd_bound (by decide) (hz.trans hM)) (pow2_lt.mpr (by decide)), ?_⟩
  have h1 := rnd_err32 z
  have h2 := abs_add_le (rnd f32 z - z) (z - res)
  rw [sub_add_sub_cancel] at h2
  linarith

theorem scale_size {p v : Int} (h2 : p ≤ 34) (hv : |v| ≤ 4095) : |(v : ℚ) * 10 ^ p| ≤ 4095 * 10 ^ 34 := by
  have hv' : |(v : ℚ)| ≤ 4095 := by exact_mod_cast hv
  have hp : (10 : ℚ) ^ p ≤ 10 ^ (34 : Int) := zpow_le_zpow_right₀ (by norm_num) h2
  have hT : 0 < (10 : ℚ) ^ p := by positivity
  rw [abs_mul, abs_of_pos hT]
  refine mul_le_mul hv' (hp.trans ?_) hT.le (by norm_num)
  norm_num

/-- C87. A reflectivity decoded with whatever fusion is finite and as accurate as C09 says. -/
theorem C87_pixel_dbz {p v : Int} (h1 : -37 ≤ p) (h2 : p ≤ 34) (hv : |v| ≤ 4095) {x : F32} (hx : PermittedPixel true p v x) :
    x.isFin = true ∧ |x.val - (v * (10 : ℚ) ^ p / 2 - 65 / 2)| ≤ (|v * (10 : ℚ) ^ p| + 65) / 2 ^ 22 := by
  have hr := (raw_fused h1 h2 hv).2.1
  have hs := scale_size h2 hv
  have h126 : (4000 : ℚ) * 10 ^ 34 ≤ pow2 126 := by rw [pow2_eq]; norm_num
  generalize (v : ℚ) * 10 ^ p = t at *
  have ht := abs_nonneg t
  have k2 : Near32 (just32 (Fl.lit f32 2)) 2 0 := by have := just_near lit_two.1; rwa [lit_two.2] at this
  have k3 : Near32 (just32 (Fl.lit f32 (65 / 2))) (65 / 2) 0 := by have := just_near lit_325.1; rwa [lit_325.2] at this
  have a2 : |t / 2| = |t| / 2 := by rw [abs_div]; norm_num
  have hd : Near32 (binary32 Fl.div (· / ·) (fun _ q => q ≠ 0) (permittedRaw p v) (just32 (Fl.lit f32 2))) (t / 2)
      (|t| / 2 ^ 23 + (|t| / 2 + |t| / 2 ^ 23) / 16777216 + 1 / 1000000000000) := by
    refine binary_near (e := |t| / 2 ^ 23) hr k2 ?_ ?_ ?_ ?_
    · intro x y fx fy hy
      refine ⟨_, Fl.div_fin fx fy ?_⟩
      have : y.val = 2 := by
        have h0 : |y.val - 2| = 0 := le_antisymm hy (abs_nonneg _)
        linarith [abs_eq_zero.mp h0]
      rw [this]; norm_num
    · intro a b ha hb
      have : b = 2 := by
        have h0 : |b - 2| = 0 := le_antisymm hb (abs_nonneg _)
        linarith [abs_eq_zero.mp h0]
      rw [this, ← sub_div, abs_div, abs_of_pos (by norm_num : (0 : ℚ) < 2)]
      linarith
    · intro z hz
      refine rnd_near hz (by rw [a2]) ?_
      linarith
    · have : 0 ≤ (|t| / 2 + |t| / 2 ^ 23) / 16777216 := by positivity
      linarith
  obtain ⟨u, hu, hx⟩ := hx
  have hfin : Near32 (permittedDBZ (permittedRaw p v)) (t / 2 - 65 / 2) ((|t| + 65) / 2 ^ 22) := by
    refine binary_near (e := |t| / 2 ^ 23 + (|t| / 2 + |t| / 2 ^ 23) / 16777216 + 1 / 1000000000000) hd k3 ?_ ?_ ?_ ?_
    · intro x y fx fy _
      exact ⟨_, Fl.sub_fin fx fy⟩
    · intro a b ha hb
      have : b = 65 / 2 := by
        have h0 : |b - 65 / 2| = 0 := le_antisymm hb (abs_nonneg _)
        linarith [abs_eq_zero.mp h0]
      rw [this, sub_sub_sub_cancel_right]
      exact ha
    · intro z hz
      have hb : |t / 2 - 65 / 2| ≤ |t| / 2 + 65 / 2 := by
        have := abs_sub (t / 2) (65 / 2)
        rwa [a2, abs_of_pos (by norm_num : (0 : ℚ) < 65 / 2)] at this
      obtain ⟨r1, r2⟩ := rnd_near (B := 33 + 51 / 100 * |t|) hz (by linarith) (by linarith)
      exact ⟨r1, r2.trans (by linarith)⟩
    · linarith
  exact (hfin u hu).1 x hx

/-- C87. Reflectivities with precision 0 are exact, whatever is fused. -/
theorem C87_pixel_exact {v : Int} (hv : |v| ≤ 4095) {x : F32} (hx : PermittedPixel true 0 v x) :
    x.isFin = true ∧ x.val = v / 2 - 65 / 2 := by
  have hr := (raw_fused (p := 0) (by decide) (by decide) hv).2.2 rfl
  have hp : pow2 (-1) = 1 / 2 := by decide +kernel
  have hvb := abs_le.mp hv
  have hvq : |(v : ℚ)| ≤ 4095 := by exact_mod_cast hv
  have hvq' := abs_le.mp hvq
  have h126 : (4096 : ℚ) < pow2 f32.emax := by
    have : pow2 12 = 4096 := by rw [pow2_eq]; norm_num
    rw [← this]; exact pow2_lt.mpr (by decide)
  have e1 : rnd f32 ((v : ℚ) / 2) = v / 2 := by
    have := rnd_exact f32 (n := v) (e := -1) (by decide) (le_trans hv (by decide))
    rw [hp] at this
    rw [show (v : ℚ) / 2 = v * (1 / 2) by ring]; exact this
  have e2 : rnd f32 ((v : ℚ) / 2 - 65 / 2) = v / 2 - 65 / 2 := by
    have hb : |v - 65| ≤ 2 ^ f32.prec := by
      have e : (2 : Int) ^ f32.prec = 16777216 := by decide
      rw [e, abs_le]; omega
    have := rnd_exact f32 (n := v - 65) (e := -1) (by decide) hb
    rw [hp] at this
    push_cast at this
    rw [show (v : ℚ) / 2 - 65 / 2 = (v - 65) * (1 / 2) by ring]; exact this
  have k2 : Near32 (just32 (Fl.lit f32 2)) 2 0 := by have := just_near lit_two.1; rwa [lit_two.2] at this
  have k3 : Near32 (just32 (Fl.lit f32 (65 / 2))) (65 / 2) 0 := by have := just_near lit_325.1; rwa [lit_325.2] at this
  have zero : ∀ {a b : ℚ}, |a - b| ≤ 0 → a = b := by
    intro a b h
    have h0 : |a - b| = 0 := le_antisymm h (abs_nonneg _)
    linarith [abs_eq_zero.mp h0]
  have hd : Near32 (binary32 Fl.div (· / ·) (fun _ q => q ≠ 0) (permittedRaw 0 v) (just32 (Fl.lit f32 2))) (v / 2) 0 := by
    refine binary_near (e := 0) hr k2 ?_ ?_ ?_ (le_refl _)
    · intro x y fx fy hy
      exact ⟨_, Fl.div_fin fx fy (by rw [zero hy]; norm_num)⟩
    · intro a b ha hb
      rw [zero ha, zero hb]; simp
    · intro z hz
      rw [zero hz, e1]
      refine ⟨lt_of_le_of_lt ?_ h126, by simp⟩
      rw [abs_le]; constructor <;> linarith
  have hfin : Near32 (permittedDBZ (permittedRaw 0 v)) (v / 2 - 65 / 2) 0 := by
    refine binary_near (e := 0) hd k3 ?_ ?_ ?_ (le_refl _)
    · intro x y fx fy _
      exact ⟨_, Fl.sub_fin fx fy⟩
    · intro a b ha hb
      rw [zero ha, zero hb]; simp
    · intro z hz
      rw [zero hz, e2]
      refine ⟨lt_of_le_of_lt ?_ h126, by simp⟩
      rw [abs_le]; constructor <;> linarith
  obtain ⟨u, hu, hx⟩ := hx
  obtain ⟨x1, x2⟩ := (hfin u hu).1 x hx
  exact ⟨x1, zero x2⟩

/-- C87. Larger raw values decode to larger reflectivities, with four decimals at most, even if the compiler treats the
two pixels differently. -/
theorem C87_order {p v w : Int} (h1 : -4 ≤ p) (h2 : p ≤ 34) (hv : |v| ≤ 4095) (hw : |w| ≤ 4095) (hvw : v < w) {x y : F32}
    (hx : PermittedPixel true p v x) (hy : PermittedPixel true p w y) : Fl.lt x y = true := by
  obtain ⟨a1, a2⟩ := C87_pixel_dbz (by omega) h2 hv hx
  obtain ⟨b1, b2⟩ := C87_pixel_dbz (by omega) h2 hw hy
  rw [Fl.lt_fin a1 b1, decide_eq_true_iff]
  have hT : 0 < (10 : ℚ) ^ p := by positivity
  have hT4 : (10 : ℚ) ^ (-4 : Int) ≤ (10 : ℚ) ^ p := zpow_le_zpow_right₀ (by norm_num) h1
  have e4 : (10 : ℚ) ^ (-4 : Int) = 1 / 10000 := by norm_num
  rw [e4] at hT4
  generalize (10 : ℚ) ^ p = T at *
  rw [abs_mul, abs_of_pos hT] at a2 b2
  have c1 : |(v : ℚ)| ≤ 4095 := by exact_mod_cast hv
  have c2 : |(w : ℚ)| ≤ 4095 := by exact_mod_cast hw
  have d1 : |(v : ℚ)| * T ≤ 4095 * T := mul_le_mul_of_nonneg_right c1 hT.le
  have d2 : |(w : ℚ)| * T ≤ 4095 * T := mul_le_mul_of_nonneg_right c2 hT.le
  have hd : (v : ℚ) + 1 ≤ w := by exact_mod_cast hvw
  have hd2 : ((v : ℚ) + 1) * T ≤ w * T := mul_le_mul_of_nonneg_right hd hT.le
  have e1 := (abs_le.mp a2).2
  have e2 := (abs_le.mp b2).1
  norm_num at e1 e2
  linarith

/-- C87. What the package is modelled to store for a byte or a byte pair is among the permitted values. -/
theorem C87_stored (unit precision : Int) :
    (∀ b : UInt8, b ≠ 250 →
      PermittedPixel (unit = Unit_dBZ) precision b.toNat (rvp6SingleByte unit precision b)) ∧
    (∀ t0 t1 : UInt8, t1.toNat / 32 % 2 = 0 →
      PermittedPixel (unit = Unit_dBZ) precision
        (if t1.toNat / 64 % 2 = 1 then -(t1.toNat % 16 * 256 + t0.toNat : Int) else (t1.toNat % 16 * 256 + t0.toNat : Int))
        (rvp6LittleEndian unit precision t0 t1)) := by
  have raw : ∀ v : Int, permittedRaw precision v (.word (scaled precision v)) := fun v =>
    ⟨_, _, rfl, rfl, .inl ⟨_, _, rfl, rfl, rfl⟩⟩
  have pix : ∀ (d : Bool) (v : Int), PermittedPixel d precision v (decoded d precision v) := by
    intro d v
    cases d with
    | false => exact ⟨.word _, raw v, rfl⟩
    | true => exact ⟨.word _, ⟨_, _, ⟨_, _, raw v, rfl, .inl ⟨_, _, rfl, rfl, rfl⟩⟩, rfl, .inl ⟨_, _, rfl, rfl, rfl⟩⟩, rfl⟩
  refine ⟨fun b hb => ?_, fun t0 t1 h5 => ?_⟩
  · have h250 : b.toNat ≠ 250 := fun h => hb (UInt8.toNat_inj.mp h)
    rw [byteValue_eq, byteValue, if_neg h250]
    exact pix _ _
  · rw [pairValue_eq, pairValue, if_neg (show ¬ t1.toNat / 32 % 2 = 1 by omega)]
    exact pix _ _

/-- a reflectivity of an RX composite: raw value 100, 17.5 dBZ, whatever is fused -/
example {x : F32} (hx : PermittedPixel true 0 100 x) : x.val = 35 / 2 := by
  rw [(C87_pixel_exact (by decide) hx).2]; norm_num

/-- an evaluation that no rounding of each operation gives: 3 times 10^-37, halved and shifted in one step -/
example : PermittedPixel true (-37) 3 (mk f32 false (3 * ((Fl.pow10 (-37)).conv f32).val / 2 - 65 / 2)) := by
  obtain ⟨l1, l2⟩ := lit_int (v := 3) (by decide)
  obtain ⟨a, _⟩ := pow10_f32 (p := -37) (by decide) (by decide)
  refine ⟨.exact (3 * ((Fl.pow10 (-37)).conv f32).val / 2 - 65 / 2), ?_, false, rfl⟩
  refine ⟨.exact (3 * ((Fl.pow10 (-37)).conv f32).val / 2), _, ⟨.exact (3 * ((Fl.pow10 (-37)).conv f32).val), _, ?_, rfl, .inr ?_⟩, rfl, .inr ?_⟩
  · exact ⟨_, _, rfl, rfl, .inr ⟨3, _, ⟨l1, by rw [l2]; norm_num⟩, ⟨a, rfl⟩, trivial, .inl rfl⟩⟩
  · exact ⟨_, 2, rfl, ⟨lit_two.1, lit_two.2.symm⟩, by norm_num, .inl rfl⟩
  · exact ⟨_, 65 / 2, rfl, ⟨lit_325.1, lit_325.2.symm⟩, trivial, .inl rfl⟩

/-- 40 dBZ to mm/h and back under Aniol's relation, whatever is fused -/
example {R : F64} {F : F32} (hR : PermittedRate relMath (permittedZR relMath (lit f64 256) (lit f64 (142 / 100))) (lit f32 40) R)
    (hF : PermittedReflectivity relMath (permittedZR relMath (lit f64 256) (lit f64 (142 / 100))) R F) : F = lit f32 40 := by
  have hp : Parameters (lit f64 256) (lit f64 (142 / 100)) := params_of (by decide +kernel) (by decide +kernel) rfl rfl
      (by decide +kernel) (by decide +kernel)
  exact (C87_round_trip relMath_accurate hp (d := lit f32 40) (by decide +kernel) (by decide +kernel) hR hF).2.2 (by decide +kernel)

end Props
