/- Numeric enclosures of sine and cosine at angles given in degrees. -/
import Verif.Lemmas.RealPlane
import Mathlib.Analysis.Complex.Trigonometric
import Mathlib.Analysis.Complex.Exponential
import Mathlib.Analysis.Real.Pi.Bounds
import Mathlib.Analysis.SpecialFunctions.Trigonometric.Bounds

namespace Radolan.Num
open Real

/-- Taylor polynomials -/
noncomputable def cosP (x : ℝ) : ℝ := 1 - x ^ 2 / 2 + x ^ 4 / 24 - x ^ 6 / 720 + x ^ 8 / 40320 - x ^ 10 / 3628800
  + x ^ 12 / 479001600 - x ^ 14 / 87178291200
noncomputable def sinP (x : ℝ) : ℝ := x - x ^ 3 / 6 + x ^ 5 / 120 - x ^ 7 / 5040 + x ^ 9 / 362880 - x ^ 11 / 39916800
  + x ^ 13 / 6227020800 - x ^ 15 / 1307674368000

theorem exp_sum (x : ℝ) : ∑ m ∈ Finset.range 16, ((x : ℂ) * Complex.I) ^ m / (m.factorial : ℂ)
    = (cosP x : ℂ) + (sinP x : ℂ) * Complex.I := by
  have h2 : Complex.I ^ 2 = -1 := Complex.I_sq
  have h3 : Complex.I ^ 3 = -Complex.I := Complex.I_pow_three
  have h4 : Complex.I ^ 4 = 1 := Complex.I_pow_four
  have p : ∀ n, Complex.I ^ (n + 4) = Complex.I ^ n := by intro n; rw [pow_add, h4, mul_one]
  have h5 : Complex.I ^ 5 = Complex.I := by rw [p 1, pow_one]
  have h6 : Complex.I ^ 6 = -1 := by rw [p 2, h2]
  have h7 : Complex.I ^ 7 = -Complex.I := by rw [p 3, h3]
  have h8 : Complex.I ^ 8 = 1 := by rw [p 4, h4]
  have h9 : Complex.I ^ 9 = Complex.I := by rw [p 5, h5]
  have h10 : Complex.I ^ 10 = -1 := by rw [p 6, h6]
  have h11 : Complex.I ^ 11 = -Complex.I := by rw [p 7, h7]
  have h12 : Complex.I ^ 12 = 1 := by rw [p 8, h8]
  have h13 : Complex.I ^ 13 = Complex.I := by rw [p 9, h9]
  have h14 : Complex.I ^ 14 = -1 := by rw [p 10, h10]
  have h15 : Complex.I ^ 15 = -Complex.I := by rw [p 11, h11]
  simp only [Finset.sum_range_succ, Finset.sum_range_zero, mul_pow, h2, h3, h4, h5, h6, h7, h8, h9, h10, h11, h12,
    h13, h14, h15, Nat.factorial, cosP, sinP]
  push_cast
  ring

theorem exp_err {x : ℝ} (h : |x| ≤ 1) :
    ‖Complex.exp ((x : ℂ) * Complex.I) - ((cosP x : ℂ) + (sinP x : ℂ) * Complex.I)‖ ≤ 1 / 10 ^ 13 := by
  have hn : ‖(x : ℂ) * Complex.I‖ ≤ 1 := by simpa using h
  have := Complex.exp_bound hn (n := 16) (by norm_num)
  rw [exp_sum] at this
  refine this.trans ?_
  have h1 : ‖(x : ℂ) * Complex.I‖ ^ 16 ≤ 1 := pow_le_one₀ (norm_nonneg _) hn
  refine (mul_le_mul_of_nonneg_right h1 (by positivity)).trans ?_
  norm_num [Nat.factorial]

theorem cos_err {x : ℝ} (h : |x| ≤ 1) : |cos x - cosP x| ≤ 1 / 10 ^ 13 := by
  refine le_trans ?_ (exp_err h)
  have := Complex.abs_re_le_norm (Complex.exp ((x : ℂ) * Complex.I) - ((cosP x : ℂ) + (sinP x : ℂ) * Complex.I))
  simpa [Complex.exp_ofReal_mul_I_re] using this

theorem sin_err {x : ℝ} (h : |x| ≤ 1) : |sin x - sinP x| ≤ 1 / 10 ^ 13 := by
  refine le_trans ?_ (exp_err h)
  have := Complex.abs_im_le_norm (Complex.exp ((x : ℂ) * Complex.I) - ((cosP x : ℂ) + (sinP x : ℂ) * Complex.I))
  simpa [Complex.exp_ofReal_mul_I_im] using this


theorem rads_near {d x0 : ℝ} (hd : |d| ≤ 180) (h : |d * (314159265358979323846 / 10 ^ 20) / 180 - x0| ≤ 1 / 10 ^ 14) :
    |rads d - x0| ≤ 2 / 10 ^ 14 := by
  have h1 := pi_gt_d20
  have h2 := pi_lt_d20
  have e : rads d - x0 = d / 180 * (π - 314159265358979323846 / 10 ^ 20)
      + (d * (314159265358979323846 / 10 ^ 20) / 180 - x0) := by unfold rads; ring
  rw [e]
  refine (abs_add_le _ _).trans ?_
  have h3 : |d / 180 * (π - 314159265358979323846 / 10 ^ 20)| ≤ 1 * (1 / 10 ^ 20) := by
    rw [abs_mul]
    apply mul_le_mul
    · rw [abs_div, abs_of_pos (by norm_num : (0 : ℝ) < 180)]; linarith [abs_nonneg d]
    · rw [abs_le]; constructor <;> norm_num at h1 h2 ⊢ <;> linarith
    · exact abs_nonneg _
    · norm_num
  norm_num at h h3 ⊢
  linarith

/-- enclosure of the sine of an angle in degrees -/
theorem sin_deg {d x0 s : ℝ} (hd : |d| ≤ 180) (h : |d * (314159265358979323846 / 10 ^ 20) / 180 - x0| ≤ 1 / 10 ^ 14)
    (hx : |x0| ≤ 1) (hs : |sinP x0 - s| ≤ 1 / 10 ^ 14) : |sin (rads d) - s| ≤ 2 / 10 ^ 13 := by
  have h1 := abs_sin_sub_sin_le (rads d) x0
  have h2 := rads_near hd h
  have h3 := sin_err hx
  have e : sin (rads d) - s = (sin (rads d) - sin x0) + (sin x0 - sinP x0) + (sinP x0 - s) := by ring
  rw [e]
  refine (abs_add_le _ _).trans ((add_le_add (abs_add_le _ _) (_root_.le_refl _)).trans ?_)
  norm_num at h1 h2 h3 hs ⊢
  linarith

/-- enclosure of the cosine of an angle in degrees -/
theorem cos_deg {d x0 s : ℝ} (hd : |d| ≤ 180) (h : |d * (314159265358979323846 / 10 ^ 20) / 180 - x0| ≤ 1 / 10 ^ 14)
    (hx : |x0| ≤ 1) (hs : |cosP x0 - s| ≤ 1 / 10 ^ 14) : |cos (rads d) - s| ≤ 2 / 10 ^ 13 := by
  have h1 := abs_cos_sub_cos_le (rads d) x0
  have h2 := rads_near hd h
  have h3 := cos_err hx
  have e : cos (rads d) - s = (cos (rads d) - cos x0) + (cos x0 - cosP x0) + (cosP x0 - s) := by ring
  rw [e]
  refine (abs_add_le _ _).trans ((add_le_add (abs_add_le _ _) (_root_.le_refl _)).trans ?_)
  norm_num at h1 h2 h3 hs ⊢
  linarith

/-! ### error propagation -/

theorem near_add {x a y b ε δ : ℝ} (hx : |x - a| ≤ ε) (hy : |y - b| ≤ δ) : |x + y - (a + b)| ≤ ε + δ := by
  have e : x + y - (a + b) = (x - a) + (y - b) := by ring
  rw [e]; exact (abs_add_le _ _).trans (add_le_add hx hy)

theorem near_sub {x a y b ε δ : ℝ} (hx : |x - a| ≤ ε) (hy : |y - b| ≤ δ) : |x - y - (a - b)| ≤ ε + δ := by
  have e : x - y - (a - b) = (x - a) - (y - b) := by ring
  rw [e]; exact (abs_sub _ _).trans (add_le_add hx hy)

theorem near_mul {x a y b ε δ : ℝ} (hx : |x - a| ≤ ε) (hy : |y - b| ≤ δ) :
    |x * y - a * b| ≤ |a| * δ + |b| * ε + ε * δ := by
  have e : x * y - a * b = a * (y - b) + b * (x - a) + (x - a) * (y - b) := by ring
  rw [e]
  refine (abs_add_le _ _).trans (add_le_add ((abs_add_le _ _).trans (add_le_add ?_ ?_)) ?_)
  · rw [abs_mul]; exact mul_le_mul_of_nonneg_left hy (abs_nonneg _)
  · rw [abs_mul]; exact mul_le_mul_of_nonneg_left hx (abs_nonneg _)
  · rw [abs_mul]; exact mul_le_mul hx hy (abs_nonneg _) ((abs_nonneg _).trans hx)

theorem near_div {x a y b ε δ m q : ℝ} (hx : |x - a| ≤ ε) (hy : |y - b| ≤ δ) (hm : 0 < m) (hb : m + δ ≤ |b|)
    (hq : |a| ≤ q * |b|) : |x / y - a / b| ≤ (ε + q * δ) / m := by
  have hδ : 0 ≤ δ := (abs_nonneg _).trans hy
  have hb0 : 0 < |b| := by linarith
  have hbn : b ≠ 0 := abs_pos.mp hb0
  have hym : m ≤ |y| := by
    have := abs_sub_abs_le_abs_sub b y
    rw [abs_sub_comm] at this
    linarith
  have hyn : y ≠ 0 := abs_pos.mp (by linarith)
  have e : x / y - a / b = ((x - a) - a / b * (y - b)) / y := by field_simp; ring
  rw [e, abs_div]
  have hq' : |a / b| ≤ q := by rw [abs_div, div_le_iff₀ hb0]; exact hq
  have h1 : |(x - a) - a / b * (y - b)| ≤ ε + q * δ := by
    refine (abs_sub _ _).trans (add_le_add hx ?_)
    rw [abs_mul]
    exact mul_le_mul hq' hy (abs_nonneg _) ((abs_nonneg _).trans hq')
  exact div_le_div₀ ((abs_nonneg _).trans h1) h1 hm hym

theorem sin60_near : |sin (rads 60) - 8660254037844386 / 10 ^ 16| ≤ 1 / 10 ^ 15 := by
  have e : rads 60 = π / 3 := by unfold rads; ring
  rw [e, sin_pi_div_three]
  have h1 : (17320508075688770 : ℝ) / 10 ^ 16 < √3 := by
    apply Real.lt_sqrt_of_sq_lt; norm_num
  have h2 : √3 < (17320508075688774 : ℝ) / 10 ^ 16 := by
    rw [Real.sqrt_lt' (by norm_num)]; norm_num
  rw [abs_le]; constructor <;> norm_num at h1 h2 ⊢ <;> linarith

/-- enclosures of the functions of the coordinates of a point -/
structure Enc (n e sn cn se ce : ℝ) : Prop where
  lat : -90 < n ∧ n < 90
  hsn : |sin (rads n) - sn| ≤ 2 / 10 ^ 13
  hcn : |cos (rads n) - cn| ≤ 2 / 10 ^ 13
  hse : |sin (rads (e - 10)) - se| ≤ 2 / 10 ^ 13
  hce : |cos (rads (e - 10)) - ce| ≤ 2 / 10 ^ 13
  bsn : 1 / 2 ≤ sn ∧ sn ≤ 1
  bcn : 0 ≤ cn ∧ cn ≤ 1
  bse : |se| ≤ 1
  bce : |ce| ≤ 1

theorem enc {n e xn xe sn cn se ce : ℝ} (hn : |n| ≤ 80) (he : |e - 10| ≤ 180)
    (h1 : |n * (314159265358979323846 / 10 ^ 20) / 180 - xn| ≤ 1 / 10 ^ 14) (hxn : |xn| ≤ 1)
    (h2 : |(e - 10) * (314159265358979323846 / 10 ^ 20) / 180 - xe| ≤ 1 / 10 ^ 14) (hxe : |xe| ≤ 1)
    (hsn : |sinP xn - sn| ≤ 1 / 10 ^ 14) (hcn : |cosP xn - cn| ≤ 1 / 10 ^ 14)
    (hse : |sinP xe - se| ≤ 1 / 10 ^ 14) (hce : |cosP xe - ce| ≤ 1 / 10 ^ 14)
    (b1 : 1 / 2 ≤ sn ∧ sn ≤ 1) (b2 : 0 ≤ cn ∧ cn ≤ 1) (b4 : |se| ≤ 1) (b5 : |ce| ≤ 1) : Enc n e sn cn se ce := by
  have hn' := abs_le.mp hn
  exact ⟨⟨by linarith, by linarith⟩, sin_deg (by linarith) h1 hxn hsn, cos_deg (by linarith) h1 hxn hcn,
    sin_deg he h2 hxe hse, cos_deg he h2 hxe hce, b1, b2, b4, b5⟩

theorem polar_near {n e sn cn se ce : ℝ} (h : Enc n e sn cn se ce) :
    |polar (rads n) - cn / (1 + sn)| ≤ 3 / 10 ^ 13 ∧ |cn / (1 + sn)| ≤ 1 := by
  have hs : |1 + sin (rads n) - (1 + sn)| ≤ 2 / 10 ^ 13 := by simpa using h.hsn
  have b1 := h.bsn
  have b2 := h.bcn
  have ha : |1 + sn| = 1 + sn := abs_of_pos (by linarith [b1.1])
  have h1 := near_div (m := 14 / 10) (q := 1) h.hcn hs (by norm_num) (by rw [ha]; norm_num; linarith [b1.1])
    (by rw [ha, abs_of_nonneg b2.1]; linarith [b1.1, b2.2])
  refine ⟨h1.trans (by norm_num), ?_⟩
  rw [abs_div, ha, abs_of_nonneg b2.1, div_le_one (by linarith [b1.1])]
  linarith [b1.1, b2.2]

theorem mul_bound {x a y b ε δ A B t : ℝ} (hx : |x - a| ≤ ε) (hy : |y - b| ≤ δ) (ha : |a| ≤ A) (hb : |b| ≤ B)
    (ht : A * δ + B * ε + ε * δ ≤ t) : |x * y - a * b| ≤ t := by
  refine (near_mul hx hy).trans (le_trans ?_ ht)
  have hε : 0 ≤ ε := (abs_nonneg _).trans hx
  have hδ : 0 ≤ δ := (abs_nonneg _).trans hy
  have := mul_le_mul_of_nonneg_right ha hδ
  have := mul_le_mul_of_nonneg_right hb hε
  linarith

theorem abs_mul_le {a b A B : ℝ} (ha : |a| ≤ A) (hb : |b| ≤ B) : |a * b| ≤ A * B := by
  rw [abs_mul]; exact mul_le_mul ha hb (abs_nonneg _) ((abs_nonneg _).trans ha)

/-- image of a point in the spherical projection -/
theorem sphere_point {format : Int} (hf : ¬ 5 ≤ format) {n e sn cn se ce X Y : ℝ} (h : Enc n e sn cn se ce)
    (hX : |118866564631230255574 / 10 ^ 16 * (cn / (1 + sn)) * se - X| ≤ 1 / 10 ^ 8)
    (hY : |118866564631230255574 / 10 ^ 16 * (cn / (1 + sn)) * ce - Y| ≤ 1 / 10 ^ 8) :
    |(planeXY realArith format n e).1 - X| ≤ 3 / 10 ^ 8 ∧ |(planeXY realArith format n e).2 - Y| ≤ 3 / 10 ^ 8 := by
  rw [planeXY_real format h.lat.1 h.lat.2]
  obtain ⟨p1, p2⟩ := polar_near h
  have hk : |637004 / 100 * (1 + sin (rads 60)) - 118866564631230255574 / 10 ^ 16| ≤ 1 / 10 ^ 11 := by
    have := abs_le.mp sin60_near
    rw [abs_le]; constructor <;> norm_num at this ⊢ <;> linarith [this.1, this.2]
  have hr : |radius format n - 118866564631230255574 / 10 ^ 16 * (cn / (1 + sn))| ≤ 5 / 10 ^ 9 := by
    unfold radius
    rw [if_neg hf]
    exact mul_bound (A := 12000) (B := 1) hk p1 (by norm_num) p2 (by norm_num)
  have hb : |118866564631230255574 / 10 ^ 16 * (cn / (1 + sn))| ≤ 12000 * 1 := abs_mul_le (by norm_num) p2
  have k1 := mul_bound (t := 1 / 10 ^ 8) hr h.hse hb h.bse (by norm_num)
  have k2 := mul_bound (t := 1 / 10 ^ 8) hr h.hce hb h.bce (by norm_num)
  unfold pole
  rw [if_neg hf]
  simp only [zero_add]
  constructor
  · refine (abs_sub_le _ (118866564631230255574 / 10 ^ 16 * (cn / (1 + sn)) * se) _).trans ?_
    norm_num at k1 hX ⊢; linarith
  · refine (abs_sub_le _ (118866564631230255574 / 10 ^ 16 * (cn / (1 + sn)) * ce) _).trans ?_
    norm_num at k2 hY ⊢; linarith

/-! ### the ellipsoid -/

noncomputable def logP (y : ℝ) : ℝ := 2 * (y + y ^ 3 / 3 + y ^ 5 / 5 + y ^ 7 / 7 + y ^ 9 / 9 + y ^ 11 / 11 + y ^ 13 / 13)
noncomputable def expP (v : ℝ) : ℝ := 1 + v + v ^ 2 / 2 + v ^ 3 / 6 + v ^ 4 / 24 + v ^ 5 / 120

theorem log_err {y : ℝ} (h0 : 0 ≤ y) (h : y ≤ 1 / 10) : |log (1 + y) - log (1 - y) - logP y| ≤ 3 / 10 ^ 15 := by
  have hy : |y| < 1 := by rw [abs_of_nonneg h0]; linarith
  have hy' : |-y| < 1 := by rwa [abs_neg]
  have h1 := Real.abs_log_sub_add_sum_range_le hy 14
  have h2 := Real.abs_log_sub_add_sum_range_le hy' 14
  have hb : |y| ^ 15 / (1 - |y|) ≤ 2 / 10 ^ 15 * (3 / 4) := by
    rw [abs_of_nonneg h0]
    have : y ^ 15 ≤ (1 / 10) ^ 15 := pow_le_pow_left₀ h0 h 15
    rw [div_le_iff₀ (by linarith)]
    refine this.trans ?_
    have : (9 : ℝ) / 10 ≤ 1 - y := by linarith
    calc ((1 : ℝ) / 10) ^ 15 ≤ 2 / 10 ^ 15 * (3 / 4) * (9 / 10) := by norm_num
      _ ≤ _ := by apply mul_le_mul_of_nonneg_left this; norm_num
  rw [abs_neg] at h2
  have e : log (1 + y) - log (1 - y) - logP y =
      (∑ i ∈ Finset.range 14, (-y) ^ (i + 1) / ((i : ℝ) + 1) + log (1 - -y))
      - (∑ i ∈ Finset.range 14, y ^ (i + 1) / ((i : ℝ) + 1) + log (1 - y)) := by
    simp only [Finset.sum_range_succ, Finset.sum_range_zero, logP, sub_neg_eq_add]
    push_cast
    ring
  rw [e]
  refine (abs_sub _ _).trans ((add_le_add (h2.trans hb) (h1.trans hb)).trans ?_)
  norm_num

theorem log_lip {a b : ℝ} (ha : 9 / 10 ≤ a) (hb : 9 / 10 ≤ b) : |log a - log b| ≤ 10 / 9 * |a - b| := by
  have key : ∀ {a b : ℝ}, 9 / 10 ≤ a → 9 / 10 ≤ b → log a - log b ≤ 10 / 9 * |a - b| := by
    intro a b ha hb
    have a0 : 0 < a := by linarith
    have b0 : 0 < b := by linarith
    rw [← log_div a0.ne' b0.ne']
    refine (log_le_sub_one_of_pos (div_pos a0 b0)).trans ?_
    have e : a / b - 1 = (a - b) / b := by field_simp
    rw [e, div_le_iff₀ b0]
    have h1 := le_abs_self (a - b)
    have h2 := abs_nonneg (a - b)
    nlinarith
  rw [abs_le]
  refine ⟨?_, key ha hb⟩
  have := key hb ha
  rw [abs_sub_comm] at this
  linarith

theorem exp_near {v v0 ε : ℝ} (h : |v - v0| ≤ ε) (hε : ε ≤ 1 / 10) (h0 : |v0| ≤ 1 / 100) :
    |exp v - expP v0| ≤ 3 * ε + 1 / 10 ^ 14 := by
  have h1 : |exp v0 - expP v0| ≤ 1 / 10 ^ 14 := by
    have := Real.exp_bound (x := v0) (by linarith) (n := 6) (by norm_num)
    have e : ∑ m ∈ Finset.range 6, v0 ^ m / (m.factorial : ℝ) = expP v0 := by
      simp only [Finset.sum_range_succ, Finset.sum_range_zero, expP, Nat.factorial]; push_cast; ring
    rw [e] at this
    refine this.trans ?_
    have : |v0| ^ 6 ≤ (1 / 100) ^ 6 := pow_le_pow_left₀ (abs_nonneg _) h0 6
    refine (mul_le_mul_of_nonneg_right this (by positivity)).trans ?_
    norm_num [Nat.factorial]
  have h2 : |exp v - exp v0| ≤ 3 * ε := by
    have e : exp v - exp v0 = exp v0 * (exp (v - v0) - 1) := by rw [mul_sub, ← exp_add]; ring_nf
    rw [e, abs_mul, abs_of_pos (exp_pos _)]
    have k1 : |exp (v - v0) - 1| ≤ 2 * |v - v0| := Real.abs_exp_sub_one_le (by linarith)
    have k2 : exp v0 ≤ 3 / 2 := by
      have := Real.abs_exp_sub_one_le (x := v0) (by linarith)
      have := (abs_le.mp this).2
      linarith
    calc exp v0 * |exp (v - v0) - 1| ≤ 3 / 2 * (2 * ε) :=
          mul_le_mul k2 (k1.trans (by linarith)) (abs_nonneg _) (by norm_num)
      _ = 3 * ε := by ring
  calc |exp v - expP v0| ≤ |exp v - exp v0| + |exp v0 - expP v0| := abs_sub_le _ _ _
    _ ≤ _ := add_le_add h2 h1

theorem ellFactor_near {n sn y0 v0 g0 : ℝ} (hn : -90 < n ∧ n < 90) (h : |sin (rads n) - sn| ≤ 2 / 10 ^ 13)
    (b : 1 / 2 ≤ sn ∧ sn ≤ 1) (hy : |ecc84 * sn - y0| ≤ 1 / 10 ^ 14) (hy0 : 0 ≤ y0 ∧ y0 ≤ 1 / 11)
    (hv : |1 / 2 * ecc84 * logP y0 - v0| ≤ 1 / 10 ^ 14) (hv0 : |v0| ≤ 1 / 100)
    (hg : |expP v0 - g0| ≤ 1 / 10 ^ 14) : |(ellFactor ecc84 (rads n))⁻¹ - g0| ≤ 1 / 10 ^ 13 := by
  have he : (0 : ℝ) < ecc84 := by unfold ecc84; norm_num
  have he1 : ecc84 ≤ 1 / 10 := by unfold ecc84; norm_num
  have hm := rads_mem hn.1 hn.2
  have hsb := sin_bounds hm
  obtain ⟨q1, q2⟩ := ell_bounds he (by linarith) hsb
  set s := sin (rads n) with hs
  have habs := abs_le.mp h
  have s0 : 0 ≤ s := by norm_num at habs; linarith [habs.1, b.1]
  have hd : |ecc84 * s - y0| ≤ 5 / 10 ^ 14 := by
    have e : ecc84 * s - y0 = ecc84 * (s - sn) + (ecc84 * sn - y0) := by ring
    rw [e]
    refine (abs_add_le _ _).trans ?_
    rw [abs_mul, abs_of_pos he]
    have := mul_le_mul he1 h (abs_nonneg _) (by norm_num)
    norm_num at this hy ⊢; linarith
  have hd' := abs_le.mp hd
  have hlog : |log (1 + ecc84 * s) - log (1 - ecc84 * s) - logP y0| ≤ 12 / 10 ^ 14 := by
    have l1 := log_lip (a := 1 + ecc84 * s) (b := 1 + y0) (by nlinarith) (by linarith [hy0.1])
    have l2 := log_lip (a := 1 - ecc84 * s) (b := 1 - y0) (by norm_num at hd'; linarith [hd'.2, hy0.2]) (by linarith [hy0.2])
    have l3 := log_err hy0.1 (by linarith [hy0.2])
    have e1 : 1 + ecc84 * s - (1 + y0) = ecc84 * s - y0 := by ring
    have e2 : 1 - ecc84 * s - (1 - y0) = -(ecc84 * s - y0) := by ring
    rw [e1] at l1
    rw [e2, abs_neg] at l2
    have e : log (1 + ecc84 * s) - log (1 - ecc84 * s) - logP y0 = (log (1 + ecc84 * s) - log (1 + y0))
        - (log (1 - ecc84 * s) - log (1 - y0)) + (log (1 + y0) - log (1 - y0) - logP y0) := by ring
    rw [e]
    refine (abs_add_le _ _).trans ((add_le_add (abs_sub _ _) (_root_.le_refl _)).trans ?_)
    norm_num at l1 l2 l3 hd ⊢
    linarith
  have hinv : (ellFactor ecc84 (rads n))⁻¹ = exp (1 / 2 * ecc84 * (log (1 + ecc84 * s) - log (1 - ecc84 * s))) := by
    unfold ellFactor
    rw [← hs, ← rpow_neg (div_pos q1 q2).le, rpow_def_of_pos (div_pos q1 q2), log_div q1.ne' q2.ne']
    congr 1; ring
  rw [hinv]
  have hvv : |1 / 2 * ecc84 * (log (1 + ecc84 * s) - log (1 - ecc84 * s)) - v0| ≤ 2 / 10 ^ 14 := by
    have e : 1 / 2 * ecc84 * (log (1 + ecc84 * s) - log (1 - ecc84 * s)) - v0
        = 1 / 2 * ecc84 * (log (1 + ecc84 * s) - log (1 - ecc84 * s) - logP y0) + (1 / 2 * ecc84 * logP y0 - v0) := by ring
    rw [e]
    refine (abs_add_le _ _).trans ?_
    rw [abs_mul, abs_of_pos (by positivity)]
    have he2 : 1 / 2 * ecc84 ≤ 42 / 1000 := by unfold ecc84; norm_num
    have := mul_le_mul he2 hlog (abs_nonneg _) (by norm_num)
    norm_num at this hv ⊢; linarith
  have := exp_near hvv (by norm_num) hv0
  refine (abs_sub_le _ (expP v0) _).trans ((add_le_add this hg).trans ?_)
  norm_num

/-- image of a point in the ellipsoidal projection -/
theorem wgs_point {format : Int} (hf : 5 ≤ format) {n e sn cn se ce y0 v0 g0 X Y : ℝ} (h : Enc n e sn cn se ce)
    (hy : |ecc84 * sn - y0| ≤ 1 / 10 ^ 14) (hy0 : 0 ≤ y0 ∧ y0 ≤ 1 / 11)
    (hv : |1 / 2 * ecc84 * logP y0 - v0| ≤ 1 / 10 ^ 14) (hv0 : |v0| ≤ 1 / 100)
    (hg : |expP v0 - g0| ≤ 1 / 10 ^ 14) (bg : |g0| ≤ 2)
    (hX : |54319683521776402 / 10 ^ 11 / 1000 + 11862667042661695 / 10 ^ 9 / 1000 * (cn / (1 + sn) * g0) * se - X| ≤ 1 / 10 ^ 8)
    (hY : |-(3622588861931001 / 10 ^ 9 / 1000) + 11862667042661695 / 10 ^ 9 / 1000 * (cn / (1 + sn) * g0) * ce - Y| ≤ 1 / 10 ^ 8) :
    |(planeXY realArith format n e).1 - X| ≤ 3 / 10 ^ 8 ∧ |(planeXY realArith format n e).2 - Y| ≤ 3 / 10 ^ 8 := by
  rw [planeXY_real format h.lat.1 h.lat.2]
  obtain ⟨p1, p2⟩ := polar_near h
  have hG := ellFactor_near h.lat h.hsn h.bsn hy hy0 hv hv0 hg
  have hp : |ellPolar ecc84 (rads n) - cn / (1 + sn) * g0| ≤ 8 / 10 ^ 13 := by
    unfold ellPolar
    rw [div_eq_mul_inv]
    exact mul_bound (A := 1) (B := 2) p1 hG p2 bg (by norm_num)
  have hb : |cn / (1 + sn) * g0| ≤ 1 * 2 := abs_mul_le p2 bg
  have hk : |(11862667042661695 : ℝ) / 10 ^ 9 / 1000 - 11862667042661695 / 10 ^ 9 / 1000| ≤ 0 := by simp
  have hr : |radius format n - 11862667042661695 / 10 ^ 9 / 1000 * (cn / (1 + sn) * g0)| ≤ 1 / 10 ^ 8 := by
    unfold radius
    rw [if_pos hf]
    exact mul_bound (A := 12000) (B := 2) hk hp (by norm_num) (hb.trans (by norm_num)) (by norm_num)
  have hb : |11862667042661695 / 10 ^ 9 / 1000 * (cn / (1 + sn) * g0)| ≤ 12000 * 2 :=
    abs_mul_le (by norm_num) (hb.trans (by norm_num))
  have k1 := mul_bound (t := 2 / 10 ^ 8) hr h.hse hb h.bse (by norm_num)
  have k2 := mul_bound (t := 2 / 10 ^ 8) hr h.hce hb h.bce (by norm_num)
  unfold pole
  rw [if_pos hf]
  simp only
  constructor
  · refine (abs_sub_le _ (54319683521776402 / 10 ^ 11 / 1000 + 11862667042661695 / 10 ^ 9 / 1000 * (cn / (1 + sn) * g0) * se) _).trans ?_
    rw [add_sub_add_left_eq_sub]
    norm_num at k1 hX ⊢; linarith
  · refine (abs_sub_le _ (-(3622588861931001 / 10 ^ 9 / 1000) + 11862667042661695 / 10 ^ 9 / 1000 * (cn / (1 + sn) * g0) * ce) _).trans ?_
    rw [add_sub_add_left_eq_sub]
    norm_num at k2 hY ⊢; linarith

end Radolan.Num
