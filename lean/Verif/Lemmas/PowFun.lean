/- math.Pow and math.Log10 with accurate exponentials and logarithms. -/
import Verif.Lemmas.PowLoop
import Verif.Spec.Pow

namespace Radolan.Pow
open Go Go.Fl Real _root_.Spec.Pow

theorem beq_fin {x y : F64} (hx : x.isFin = true) (hy : y.isFin = true) : beq x y = decide (x.val = y.val) := by
  cases x <;> cases y <;> simp_all [isFin, beq]

theorem one_const : (lit f64 1).isFin = true ∧ (lit f64 1).val = 1 := by decide +kernel
theorem mhalf_const : (lit f64 (-1 / 2)).isFin = true ∧ (lit f64 (-1 / 2)).val = -1 / 2 := by decide +kernel
theorem zero_const : (zero : F64).isFin = true ∧ (zero : F64).val = 0 := ⟨rfl, rfl⟩

/-- `math.Modf` -/
theorem modf {a : ℚ} (h : 0 ≤ a) : (((ratTrunc a).toNat : ℕ) : ℚ) ≤ a ∧ a < ((ratTrunc a).toNat : ℕ) + 1 := by
  unfold ratTrunc
  rw [if_pos h]
  obtain ⟨h1, h2⟩ := floor_bounds a
  have h0 : 0 ≤ a.floor := by
    have : (-1 : ℚ) < a.floor := by linarith
    have : (-1 : Int) < a.floor := by exact_mod_cast this
    omega
  have e : (((a.floor).toNat : ℕ) : ℚ) = (a.floor : ℚ) := by
    have : (((a.floor).toNat : ℕ) : Int) = a.floor := Int.toNat_of_nonneg h0
    exact_mod_cast this
  rw [e]; exact ⟨h1, h2⟩

theorem ldexp_log {x : F64} {e : Int} {L δ : ℝ} (hx : (0 : ℝ) < x.val) (h : |log (x.val : ℝ) + e * log 2 - L| ≤ δ)
    (hL : |L| + δ ≤ 120) : LogAp (ldexp x e) L (δ + 13 / 10 ^ 17) := by
  obtain ⟨q, hq, rfl, h0⟩ := fin_of_pos hx
  change |log (q : ℝ) + e * log 2 - L| ≤ δ at h
  change (0 : ℝ) < q at hx
  have hv : log ((q * (2 : ℚ) ^ e : ℚ) : ℝ) = log q + e * log 2 := by
    push_cast
    rw [log_mul hx.ne' (by positivity), log_zpow]
  have hp : (0 : ℝ) < ((q * (2 : ℚ) ^ e : ℚ) : ℝ) := by push_cast; positivity
  have hb : |log ((q * (2 : ℚ) ^ e : ℚ) : ℝ)| ≤ 120 := by
    rw [hv]
    have := abs_add_le (log (q : ℝ) + e * log 2 - L) L
    rw [sub_add_cancel] at this
    linarith
  obtain ⟨k1, k2, k3⟩ := mk_log (b := sign (.fin q hq : F64)) hp hb
  refine ⟨k1, k2, ?_⟩
  change |log ((mk f64 (sign (.fin q hq : F64)) (q * (2 : ℚ) ^ e)).val : ℝ) - L| ≤ _
  rw [hv] at k3
  have e' : ∀ a : ℝ, a - L = (a - (log q + e * log 2)) + (log q + e * log 2 - L) := by intro a; ring
  rw [e']
  refine (abs_add_le _ _).trans ?_
  linarith

/-- `1 / x` -/
theorem inv_log {x : F64} (hf : x.isFin = true) (hx : (0 : ℝ) < x.val) (hb : |log (x.val : ℝ)| ≤ 120) :
    LogAp (div (lit f64 1) x) (- log x.val) (13 / 10 ^ 17) := by
  have hx0 : x.val ≠ 0 := by
    intro h; rw [h] at hx; simp at hx
  rw [div_fin one_const.1 hf hx0, one_const.2]
  have hv : log ((1 / x.val : ℚ) : ℝ) = - log x.val := by
    push_cast; rw [one_div, log_inv]
  have hp : (0 : ℝ) < ((1 / x.val : ℚ) : ℝ) := by push_cast; positivity
  have := mk_log (b := (lit f64 1).sign ^^ x.sign) hp (by rw [hv, abs_neg]; exact hb)
  rw [hv] at this
  exact this

variable {exp' log' sqrt' : F64 → F64} {special : F64 → F64 → F64}

/-- math.Pow -/
theorem goPow_log (h : AccurateElementary exp' log' sqrt') {x y : F64} {K : ℝ} (hx : x.isFin = true) (hy : y.isFin = true)
    (x1 : 1 / 2 ≤ (x.val : ℝ)) (x2 : (x.val : ℝ) ≤ 10 ^ 4) (hK : |log (x.val : ℝ)| ≤ K) (hK0 : 1 / 10 ≤ K) (hK2 : K ≤ 924 / 100)
    (hy2 : |(y.val : ℝ)| ≤ 200) (hp : |(y.val : ℝ) * log x.val| ≤ 100) :
    LogAp (goPow exp' log' sqrt' special x y) (y.val * log x.val)
      ((1 + K) * (5 / 10 ^ 16) + 256 / 10 ^ 17 + (|(y.val : ℝ)| + 1) * (39 / 10 ^ 17)) := by
  have hx0 : (0 : ℝ) < x.val := by linarith
  have hxq : (0 : ℚ) < x.val := by exact_mod_cast hx0
  have habs := abs_nonneg (y.val : ℝ)
  have hbig : (0 : ℝ) ≤ (1 + K) * (5 / 10 ^ 16) + 256 / 10 ^ 17 + (|(y.val : ℝ)| + 1) * (39 / 10 ^ 17) := by positivity
  obtain ⟨sq1, sq2⟩ := h.sqrt x hx x1 x2
  have sp : 0 < sqrt (x.val : ℝ) := sqrt_pos.mpr hx0
  obtain ⟨sl1, sl2⟩ := log_of_rel (v := (sqrt' x).val) sp sq2 (by norm_num) (by norm_num)
  have sqrtLog : log (sqrt (x.val : ℝ)) = 1 / 2 * log x.val := by rw [log_sqrt hx0.le]; ring
  rw [sqrtLog] at sl2
  unfold goPow
  by_cases c1 : beq y zero = true ∨ beq x (lit f64 1) = true
  · rw [if_pos c1]
    have e : (y.val : ℝ) * log x.val = 0 := by
      rcases c1 with c | c
      · rw [beq_fin hy zero_const.1, decide_eq_true_iff] at c
        rw [c]; simp [zero_const.2]
      · rw [beq_fin hx one_const.1, decide_eq_true_iff] at c
        rw [c, one_const.2]; simp
    rw [e]
    refine ⟨one_const.1, by rw [one_const.2]; norm_num, ?_⟩
    rw [one_const.2]; simpa using hbig
  rw [if_neg c1]
  by_cases c2 : beq y (lit f64 1) = true
  · rw [if_pos c2]
    rw [beq_fin hy one_const.1, decide_eq_true_iff] at c2
    refine ⟨hx, hx0, ?_⟩
    rw [c2, one_const.2]
    simp only [Rat.cast_one, one_mul, sub_self, abs_zero]
    rw [c2, one_const.2] at hbig
    simpa using hbig
  rw [if_neg c2, if_neg (by simp [isFin_ne_nan hx, isFin_ne_nan hy])]
  have c3 : ¬ (beq x zero = true ∨ x.isFin = false ∨ y.isFin = false) := by
    rw [beq_fin hx zero_const.1, zero_const.2, hx, hy]
    simp [hxq.ne']
  rw [if_neg c3]
  by_cases c4 : beq y (lit f64 (1 / 2)) = true
  · rw [if_pos c4]
    rw [beq_fin hy half_const.1, half_const.2, decide_eq_true_iff] at c4
    refine ⟨sq1, sl1, ?_⟩
    rw [c4]; rw [c4] at hbig
    push_cast
    refine sl2.trans ?_
    rw [abs_of_pos (by norm_num : (0 : ℝ) < 1 / 2)]
    norm_num; linarith
  rw [if_neg c4]
  by_cases c5 : beq y (lit f64 (-1 / 2)) = true
  · rw [if_pos c5]
    rw [beq_fin hy mhalf_const.1, mhalf_const.2, decide_eq_true_iff] at c5
    have hlb : |log ((sqrt' x).val : ℝ)| ≤ 120 := by
      have h1 := abs_le.mp sl2
      have h2 := abs_le.mp hK
      rw [abs_le]; norm_num at h1 h2 ⊢; constructor <;> linarith [h1.1, h1.2, h2.1, h2.2]
    obtain ⟨k1, k2, k3⟩ := inv_log sq1 sl1 hlb
    refine ⟨k1, k2, ?_⟩
    rw [c5]
    have e : ∀ a : ℝ, a - ((-1 / 2 : ℚ) : ℝ) * log x.val = (a - - log ((sqrt' x).val : ℝ)) - (log ((sqrt' x).val : ℝ) - 1 / 2 * log x.val) := by
      intro a; push_cast; ring
    rw [e]
    refine (abs_sub _ _).trans ((add_le_add k3 sl2).trans ?_)
    have : (0 : ℝ) ≤ |((-1 / 2 : ℚ) : ℝ)| := abs_nonneg _
    norm_num at this ⊢; linarith
  rw [if_neg c5]
  -- the general case
  rw [abs_val]
  have ha : (0 : ℚ) ≤ |y.val| := abs_nonneg _
  obtain ⟨m1, m2⟩ := modf ha
  set yi := (ratTrunc |y.val|).toNat with hyi
  have har : ((|y.val| : ℚ) : ℝ) = |(y.val : ℝ)| := by push_cast; rfl
  set f : ℝ := |(y.val : ℝ)| - yi with hf
  have m1r : (0 : ℝ) ≤ f := by
    have : ((yi : ℚ) : ℝ) ≤ ((|y.val| : ℚ) : ℝ) := by exact_mod_cast m1
    rw [har] at this; push_cast at this; linarith
  have m2r : f < 1 := by
    have : ((|y.val| : ℚ) : ℝ) < ((yi + 1 : ℚ) : ℝ) := by exact_mod_cast m2
    rw [har] at this; push_cast at this; linarith
  have hyi200 : yi ≤ 200 := by
    have : (yi : ℝ) ≤ 200 := by linarith
    exact_mod_cast this
  have hyf : Ap (lit f64 (|y.val| - yi)) f (13 / 10 ^ 17) :=
    lit_ap (ε := 0) (M := 1) (by push_cast; simp [hf]) (by rw [abs_of_nonneg m1r]; linarith) (by norm_num) (by norm_num) (by norm_num)
  set yf := lit f64 (|y.val| - yi) with hyfdef
  rw [if_neg (by rw [lt_fin hx zero_const.1, zero_const.2]; simp [hxq.le]), if_neg (by
    intro h0
    have : (2 : ℕ) ^ 63 ≤ 200 := h0.trans hyi200
    norm_num at this)]
  obtain ⟨l1, l2⟩ := h.log x hx x1 x2
  have hlAp : Ap (log' x) (log x.val) ((1 + K) * (4 / 10 ^ 16)) :=
    ⟨l1, l2.trans (mul_le_mul_of_nonneg_right (by linarith) (by norm_num))⟩
  -- the fractional part of the exponent
  have frac : ∃ (i : Nat) (yf' : F64) (g : ℝ), (if lt (lit f64 (1 / 2)) yf = true then yi + 1 else yi) = i ∧
      (if lt (lit f64 (1 / 2)) yf = true then sub yf (lit f64 1) else yf) = yf' ∧ Ap yf' g (26 / 10 ^ 17) ∧ |g| ≤ 501 / 1000 ∧
      g + i = |(y.val : ℝ)| ∧ i ≤ 201 ∧ (i : ℝ) ≤ |(y.val : ℝ)| + 1 ∧ (beq yf zero = true → i = yi) := by
    have hv := abs_le.mp hyf.2
    by_cases hup : lt (lit f64 (1 / 2)) yf = true
    · refine ⟨yi + 1, _, f - 1, if_pos hup, if_pos hup, ?_, ?_, ?_, by omega, ?_, ?_⟩
      · refine sub_ap (M := 51 / 100) hyf ⟨one_const.1, (by rw [one_const.2]; norm_num : |((lit f64 1).val : ℝ) - 1| ≤ 0)⟩ ?_ (by norm_num) (by norm_num) (by norm_num)
        rw [lt_fin half_const.1 hyf.1, half_const.2, decide_eq_true_iff] at hup
        have hup' : ((1 / 2 : ℚ) : ℝ) < yf.val := by exact_mod_cast hup
        have : 1 / 2 - 13 / 10 ^ 17 ≤ f := by push_cast at hup'; linarith [hv.2]
        rw [abs_of_nonpos (by linarith)]; norm_num at this ⊢; linarith
      · rw [lt_fin half_const.1 hyf.1, half_const.2, decide_eq_true_iff] at hup
        have hup' : ((1 / 2 : ℚ) : ℝ) < yf.val := by exact_mod_cast hup
        have : 1 / 2 - 13 / 10 ^ 17 ≤ f := by push_cast at hup'; linarith [hv.2]
        rw [abs_of_nonpos (by linarith)]; norm_num at this ⊢; linarith
      · rw [hf]; push_cast; ring
      · push_cast; linarith
      · intro hz
        rw [beq_fin hyf.1 zero_const.1, zero_const.2, decide_eq_true_iff] at hz
        rw [lt_fin half_const.1 hyf.1, half_const.2, decide_eq_true_iff, hz] at hup
        norm_num at hup
    · refine ⟨yi, _, f, if_neg hup, if_neg hup, hyf.mono (by norm_num), ?_, ?_, by omega, by linarith, fun _ => rfl⟩
      · rw [lt_fin half_const.1 hyf.1, half_const.2, decide_eq_true_iff] at hup
        have hup' : (yf.val : ℝ) ≤ ((1 / 2 : ℚ) : ℝ) := by exact_mod_cast _root_.not_lt.mp hup
        push_cast at hup'
        rw [abs_of_nonneg m1r]; norm_num at hv ⊢; linarith [hv.1]
      · rw [hf]; ring
  obtain ⟨i, yf', g, ei, eyf, hg, hgb, hgi, hi201, hi2, hiz⟩ := frac
  simp only [← hyfdef]
  simp only [ei, eyf]
  have hprod : Ap (mul yf' (log' x)) (g * log x.val) ((1 + K) * (5 / 10 ^ 16)) := by
    have hKp : (26 / 10 ^ 17 : ℝ) * ((1 + K) * (4 / 10 ^ 16)) ≤ 1 / 10 ^ 27 := by norm_num; linarith
    refine mul_ap (A := 501 / 1000) (B := K) (e := 501 / 1000 * ((1 + K) * (4 / 10 ^ 16)) + K * (26 / 10 ^ 17) + 1 / 10 ^ 27)
      hg hlAp hgb hK (by linarith) ?_ ?_ ?_
    · norm_num; linarith
    · norm_num; linarith
    · norm_num; linarith
  have ha1 : ∃ a1, (if beq yf zero = true then lit f64 1 else exp' (mul yf' (log' x))) = a1 ∧ a1.isFin = true ∧ (0 : ℝ) < a1.val ∧
      |log (a1.val : ℝ) + (0 : Int) * log 2 - g * log x.val| ≤ (1 + K) * (5 / 10 ^ 16) + 23 / 10 ^ 16 ∧ |log (a1.val : ℝ)| ≤ 5 := by
    by_cases hz : beq yf zero = true
    · refine ⟨_, if_pos hz, one_const.1, by rw [one_const.2]; norm_num, ?_, ?_⟩
      · rw [one_const.2]
        have hz' := hz
        rw [beq_fin hyf.1 zero_const.1, zero_const.2, decide_eq_true_iff] at hz'
        have hff := hyf.2
        rw [hz'] at hff
        have hgf : g = f := by
          have := hiz hz
          rw [this] at hgi; rw [hf]; linarith
        simp only [Rat.cast_one, log_one, Int.cast_zero, zero_mul, add_zero, zero_sub, abs_neg]
        rw [abs_mul, hgf]
        simp only [Rat.cast_zero, zero_sub, abs_neg] at hff
        have := mul_le_mul hff hK (abs_nonneg _) (by norm_num)
        norm_num at this ⊢; linarith
      · rw [one_const.2]; simp
    · have hb := Num.abs_mul_le hgb hK
      have hpb := abs_le.mp hprod.2
      have hgl := abs_le.mp hb
      have h5 : |((mul yf' (log' x)).val : ℝ)| ≤ 5 := by
        rw [abs_le]; norm_num at hpb hgl ⊢; constructor <;> linarith [hpb.1, hpb.2, hgl.1, hgl.2]
      obtain ⟨e1, e2⟩ := h.exp _ hprod.1 h5
      obtain ⟨k1, k2⟩ := log_of_rel (exp_pos _) e2 (by norm_num) (by norm_num)
      rw [log_exp] at k2
      refine ⟨_, if_neg hz, e1, k1, ?_, ?_⟩
      · have e : log ((exp' (mul yf' (log' x))).val : ℝ) + (0 : Int) * log 2 - g * log x.val =
          (log ((exp' (mul yf' (log' x))).val : ℝ) - (mul yf' (log' x)).val) + ((mul yf' (log' x)).val - g * log x.val) := by
          push_cast; ring
        rw [e]
        refine (abs_add_le _ _).trans ((add_le_add k2 hprod.2).trans ?_)
        norm_num; linarith
      · have := abs_le.mp k2
        rw [abs_le]; norm_num at this hpb hgl ⊢; constructor <;> linarith [this.1, this.2, hpb.1, hpb.2, hgl.1, hgl.2]
  obtain ⟨a1, ea1, a1f, a1p, a1l, a1b⟩ := ha1
  rw [ea1]
  obtain ⟨fe1, fe2, fe3, fe4, fe5⟩ := frexp_log hx0 (by linarith : |log (x.val : ℝ)| ≤ 100)
  have hxe : (|(frexp x).2| + 1) * 2 ^ 8 ≤ 2 ^ 12 := by
    have g1 : (1 / 2 : ℚ) ≤ x.val := by
      have : ((1 / 2 : ℚ) : ℝ) ≤ x.val := by push_cast; exact x1
      exact_mod_cast this
    have g2 : x.val ≤ 10 ^ 4 := by
      have : (x.val : ℝ) ≤ ((10 ^ 4 : ℚ) : ℝ) := by push_cast; exact x2
      exact_mod_cast this
    have t1 := ilog2_mono (by norm_num) g1
    have t2 := ilog2_mono hxq g2
    rw [show ilog2 (1 / 2) = -1 from ilog2_unique (by decide +kernel) (by decide +kernel)] at t1
    rw [show ilog2 (10 ^ 4) = 13 from ilog2_unique (by decide +kernel) (by decide +kernel)] at t2
    rw [fe4, abs_of_nonneg (by omega)]
    omega
  obtain ⟨r1, r2, r3, r4⟩ := powLoop_log 8 i (by omega) fe1 fe2 fe3 fe5 a1f a1p a1l a1b (by norm_num) hxe
  set r := powLoop i (frexp x).1 (frexp x).2 a1 0 with hr
  have etot : g * log (x.val : ℝ) + i * log x.val = |(y.val : ℝ)| * log x.val := by rw [← hgi]; ring
  rw [etot] at r4
  have hcount : (i : ℝ) * (13 / 10 ^ 17 + 26 / 10 ^ 17) ≤ (|(y.val : ℝ)| + 1) * (39 / 10 ^ 17) := by
    have := mul_le_mul_of_nonneg_right hi2 (by norm_num : (0 : ℝ) ≤ 39 / 10 ^ 17)
    norm_num at this ⊢; linarith
  have hpa : |(|(y.val : ℝ)| * log x.val)| ≤ 100 := by rw [abs_mul, abs_abs, ← abs_mul]; exact hp
  push_cast at r3
  by_cases hneg : lt y zero = true
  · rw [if_pos hneg]
    rw [lt_fin hy zero_const.1, zero_const.2, decide_eq_true_iff] at hneg
    have hneg' : (y.val : ℝ) < 0 := by exact_mod_cast hneg
    obtain ⟨k1, k2, k3⟩ := inv_log r1 r2 (by linarith)
    have e : (y.val : ℝ) * log x.val = -(|(y.val : ℝ)| * log x.val) := by rw [abs_of_neg hneg']; ring
    rw [e]
    refine (ldexp_log (δ := 13 / 10 ^ 17 + ((1 + K) * (5 / 10 ^ 16) + 23 / 10 ^ 16 + (|(y.val : ℝ)| + 1) * (39 / 10 ^ 17))) k2 ?_ ?_).mono ?_
    · have e2 : log ((div (lit f64 1) r.1).val : ℝ) + (-r.2 : Int) * log 2 - -(|(y.val : ℝ)| * log x.val) =
        (log ((div (lit f64 1) r.1).val : ℝ) - -log (r.1.val : ℝ)) - (log (r.1.val : ℝ) + r.2 * log 2 - |(y.val : ℝ)| * log x.val) := by
        push_cast; ring
      rw [e2]
      refine (abs_sub _ _).trans ((add_le_add k3 r4).trans ?_)
      linarith
    · rw [abs_neg]
      have : (|(y.val : ℝ)| + 1) * (39 / 10 ^ 17 : ℝ) ≤ 201 * (39 / 10 ^ 17) := mul_le_mul_of_nonneg_right (by linarith) (by norm_num)
      have h6 : (1 + K) * (5 / 10 ^ 16) ≤ 1 / 100 := by norm_num; linarith
      have h7 : (201 : ℝ) * (39 / 10 ^ 17) ≤ 1 / 100 := by norm_num
      have h8 : (13 : ℝ) / 10 ^ 17 ≤ 1 / 100 := by norm_num
      have h9 : (6 : ℝ) / 10 ^ 16 ≤ 1 / 100 := by norm_num
      linarith
    · norm_num; linarith
  · rw [if_neg hneg]
    rw [lt_fin hy zero_const.1, zero_const.2, decide_eq_true_iff] at hneg
    have hneg' : (0 : ℝ) ≤ y.val := by exact_mod_cast _root_.not_lt.mp hneg
    have e : (y.val : ℝ) * log x.val = |(y.val : ℝ)| * log x.val := by rw [abs_of_nonneg hneg']
    rw [e]
    refine (ldexp_log (δ := (1 + K) * (5 / 10 ^ 16) + 23 / 10 ^ 16 + (|(y.val : ℝ)| + 1) * (39 / 10 ^ 17)) r2 ?_ ?_).mono ?_
    · exact r4.trans (by linarith)
    · have : (|(y.val : ℝ)| + 1) * (39 / 10 ^ 17 : ℝ) ≤ 201 * (39 / 10 ^ 17) := mul_le_mul_of_nonneg_right (by linarith) (by norm_num)
      have h6 : (1 + K) * (5 / 10 ^ 16) ≤ 1 / 100 := by norm_num; linarith
      have h7 : (201 : ℝ) * (39 / 10 ^ 17) ≤ 1 / 100 := by norm_num
      have h8 : (13 : ℝ) / 10 ^ 17 ≤ 1 / 100 := by norm_num
      have h9 : (6 : ℝ) / 10 ^ 16 ≤ 1 / 100 := by norm_num
      linarith
    · norm_num; linarith

end Radolan.Pow
