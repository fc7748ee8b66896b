/-
C105: the conversions between reflectivity and precipitation rate over the whole range of floating point numbers, with
package math as Go computes it: no rain, infinite and invalid values, and every positive rate.
-/
import Verif.Lemmas.Log10Wide
import Verif.Props.Elem

namespace Props
open Go Radolan Spec Real Go.Fl Spec.Fusion Radolan.Fusion Radolan.Trig Spec.Trig Radolan.Pow Spec.Pow Radolan.Elem Spec.Elem

variable {M : MathLib} {exp' sqrt' : F64 → F64} {special : F64 → F64 → F64}

/-! ### package math -/

/-- C105. The natural logarithm of Go's package math meets the assumptions of C64, C65, C72, C82 to C84 and C98 (the
colours of logarithmic scales), however its operations are fused. -/
theorem C105_log (h : GoElementary exp' M.log sqrt') : AccurateLog M where
  log x hx h0 := by
    obtain ⟨h1, h2⟩ := C104_log h hx h0
    refine ⟨h1, h2.trans ?_⟩
    have h3 := (Radolan.Pow.log_range h0).1
    have := mul_le_mul_of_nonneg_right (add_le_add_right h3 1) (by norm_num : (0 : ℝ) ≤ 4 / 10 ^ 16)
    refine this.trans ?_
    norm_num
  zero x hx h0 := by
    obtain ⟨_, _, _, _, h1, h2⟩ := C104_special_cases h
    cases x with
    | fin q hq => change q = 0 at h0; subst h0; exact h1
    | nzero => exact h2
    | nan => simp [isFin] at hx
    | inf b => simp [isFin] at hx
  neg x hx := by
    obtain ⟨_, _, ⟨_, _, h3⟩, h4, _⟩ := C104_special_cases h
    rcases hx with ⟨h1, h2⟩ | rfl
    · exact h4 x h1 h2
    · exact h3
  inf := (C104_special_cases h).2.2.1.2.1
  nan := (C104_special_cases h).2.2.1.1

/-- C105. Likewise math.Log10 of every positive number is within 10^-12 of the decadic logarithm. -/
theorem C105_log10 (hP : GoPow M exp' sqrt' special) (hE : GoElementary exp' M.log sqrt') {x : F64} (hx0 : (0 : ℝ) < x.val) :
    (M.log10 x).isFin = true ∧ |((M.log10 x).val : ℝ) - logb 10 x.val| ≤ 1 / 10 ^ 12 := by
  rcases hP.log10 x with e | e <;> rw [e] <;> exact (goLog10_wide (C104_elementary hE) _ hx0).1

theorem beq_one {x : F64} (h : lt (lit f64 1) x = true ∨ lt x (lit f64 1) = true) : beq x (lit f64 1) = false := by
  have o := one_const
  cases x with
  | nan => rfl
  | inf b => rw [lit_one]; rfl
  | nzero => rw [beq_fin rfl o.1, o.2]; decide
  | fin q hq =>
    rw [beq_fin rfl o.1, o.2, decide_eq_false_iff_not]
    rw [lt_fin o.1 rfl, lt_fin rfl o.1, o.2, decide_eq_true_iff, decide_eq_true_iff] at h
    change ¬ q = 1
    change 1 < q ∨ q < 1 at h
    rcases h with h | h
    · exact h.ne'
    · exact h.ne

/-- C105. Infinite exponents: powers of numbers above 1 are +∞ and 0, of positive numbers below 1 (and of zero) 0 and +∞. -/
theorem C105_infinite_exponent (h : GoPow M exp' sqrt' powSpecial) (x : F64) :
    (lt (lit f64 1) x = true → M.pow x (.inf false) = .inf false ∧ M.pow x (.inf true) = zero) ∧
    (x.isFin = true → 0 ≤ x.val → x.val < 1 → M.pow x (.inf false) = zero ∧ M.pow x (.inf true) = .inf false) := by
  have o := one_const
  have b0 : ∀ s, beq (.inf s : F64) zero = false := fun s => rfl
  have b1 : ∀ s, beq (.inf s : F64) (lit f64 1) = false := fun s => by rw [lit_one]; rfl
  have m1 : (lit f64 (-1)).isFin = true ∧ (lit f64 (-1)).val = -1 := by decide +kernel
  have go : ∀ (x : F64) s, x ≠ .nan → beq x (lit f64 1) = false → M.pow x (.inf s) = powSpecial x (.inf s) := by
    intro x s hn hb
    rw [h.pow]; unfold goPow
    rw [if_neg (by simp [b0, hb]), if_neg (by simp [b1]), if_neg (by simp [hn]), if_pos (Or.inr (Or.inr (show isFin _ = false from rfl)))]
  refine ⟨fun h1 => ?_, fun hx h0 h1 => ?_⟩
  · have hn : x ≠ .nan := by rintro rfl; rw [lit_one] at h1; simp [lt] at h1
    rw [go x _ hn (beq_one (Or.inl h1)), go x _ hn (beq_one (Or.inl h1))]
    have hz : beq x zero = false ∧ beq x (lit f64 (-1)) = false ∧ lt (Fl.abs x) (lit f64 1) = false := by
      cases x with
      | nan => exact absurd rfl hn
      | inf b =>
        refine ⟨rfl, ?_, ?_⟩
        · cases hl : lit f64 (-1) with
          | fin q hq => rfl
          | _ => rw [hl] at m1; simp [isFin, val] at m1
        · rw [lit_one]; rfl
      | nzero => rw [lt_fin o.1 rfl, o.2] at h1; exact absurd (of_decide_eq_true h1) (by simp [val])
      | fin q hq =>
        rw [lt_fin o.1 rfl, o.2, decide_eq_true_iff] at h1
        change 1 < q at h1
        refine ⟨?_, ?_, ?_⟩
        · rw [beq_fin rfl rfl, decide_eq_false_iff_not]; change ¬ q = 0; linarith
        · rw [beq_fin rfl m1.1, m1.2, decide_eq_false_iff_not]; change ¬ q = -1; linarith
        · have : Fl.abs (.fin q hq : F64) = .fin q hq := if_neg (by linarith)
          rw [this, lt_fin rfl o.1, o.2, decide_eq_false_iff_not]; change ¬ q < 1; linarith
    unfold powSpecial
    simp [hz, isFin]
  · have hn : x ≠ .nan := by rintro rfl; simp [isFin] at hx
    have hb : beq x (lit f64 1) = false := beq_one (Or.inr (by rw [lt_fin hx o.1, o.2]; exact decide_eq_true h1))
    rw [go x _ hn hb, go x _ hn hb]
    unfold powSpecial
    by_cases hz : beq x zero = true
    · rw [if_pos hz, if_pos hz]
      unfold zeroPow
      have l1 : lt (.inf false : F64) zero = false := rfl
      have l2 : lt (.inf true : F64) zero = true := rfl
      rw [l1, l2]
      simp [isOddInt]
    · have hz2 : beq x (lit f64 (-1)) = false := by
        rw [beq_fin hx m1.1, m1.2, decide_eq_false_iff_not]; linarith
      have hz3 : lt (Fl.abs x) (lit f64 1) = true := by
        cases x with
        | nan => exact absurd rfl hn
        | inf b => simp [isFin] at hx
        | nzero => exact absurd rfl hz
        | fin q hq =>
          change 0 ≤ q at h0
          have : Fl.abs (.fin q hq : F64) = .fin q hq := if_neg (by linarith)
          rw [this, lt_fin rfl o.1, o.2]; exact decide_eq_true h1
      rw [if_neg hz, if_neg hz, hz2, hz3]
      simp [isFin]

/-- C105. Powers of zero and +∞: with positive exponents zero and +∞, with negative exponents +∞ and zero. -/
theorem C105_zero_and_infinity (h : GoPow M exp' sqrt' powSpecial) {y : F64} (hy : y.isFin = true) :
    (0 < y.val → M.pow zero y = zero ∧ M.pow (.inf false) y = .inf false) ∧
    (y.val < 0 → M.pow zero y = .inf false ∧ M.pow (.inf false) y = zero) := by
  have o := one_const
  have bi : ∀ z : F64, z.isFin = true → beq (.inf false : F64) z = false := by intro z hz; cases z <;> simp_all [isFin, beq]
  have hn : y ≠ .nan := by rintro rfl; simp [isFin] at hy
  have b01 : beq (zero : F64) (lit f64 1) = false := by decide +kernel
  have by0 : y.val ≠ 0 → beq y zero = false := fun h0 => by rw [beq_fin hy rfl]; exact decide_eq_false h0
  have gz : y.val ≠ 0 → beq y (lit f64 1) = false → M.pow zero y = zeroPow zero y := by
    intro h0 h1
    rw [h.pow]; unfold goPow
    rw [if_neg (by rw [by0 h0, b01]; simp), if_neg (by simp [h1]), if_neg (by simp [hn, zero]),
      if_pos (Or.inl (show beq _ _ = true from rfl))]
    rfl
  have gi : y.val ≠ 0 → beq y (lit f64 1) = false → M.pow (.inf false) y = if lt y zero then zero else .inf false := by
    intro h0 h1
    rw [h.pow]; unfold goPow
    rw [if_neg (by rw [by0 h0, bi _ o.1]; simp), if_neg (by simp [h1]), if_neg (by simp [hn]),
      if_pos (Or.inr (Or.inl (show isFin _ = false from rfl)))]
    unfold powSpecial
    rw [bi _ rfl, if_neg (by simp), if_neg (by simp [hy]), if_neg (by simp)]
  have hs : (zero : F64).sign = false := rfl
  refine ⟨fun h0 => ?_, fun h0 => ?_⟩
  · have hl : lt y zero = false := by rw [lt_fin hy rfl, decide_eq_false_iff_not]; change ¬ y.val < 0; linarith
    by_cases h1 : beq y (lit f64 1) = true
    · rw [beq_fin hy o.1, o.2, decide_eq_true_iff] at h1
      have hyl : y = lit f64 1 := by
        have hr : IsRep f64 1 := by have := (lit f64 1).val_repr; rwa [o.2] at this
        rw [lit_of_repr hr]
        cases y with
        | fin q hq => change q = 1 at h1; subst h1; rfl
        | _ => simp [val] at h1
      subst hyl
      exact ⟨(C103_special_cases h zero .nan).2.2.1, (C103_special_cases h (.inf false) .nan).2.2.1⟩
    · have h1 : beq y (lit f64 1) = false := by simpa using h1
      rw [gz h0.ne' h1, gi h0.ne' h1, hl]
      unfold zeroPow
      rw [hl, hs]
      simp
  · have hl : lt y zero = true := by rw [lt_fin hy rfl]; exact decide_eq_true h0
    have h1 : beq y (lit f64 1) = false := by rw [beq_fin hy o.1, o.2, decide_eq_false_iff_not]; linarith
    rw [gz h0.ne h1, gi h0.ne h1, hl]
    unfold zeroPow
    rw [hl, hs]
    simp

/-- C105. Integer powers of -0 and -∞ have the sign the exponent gives them. -/
theorem C105_negative_base (h : GoPow M exp' sqrt' powSpecial) {n : Int} (hb : |n| < 2 ^ 53) :
    (n % 2 = 1 → M.pow .nzero (lit f64 n) = (if 0 < n then .nzero else .inf true) ∧
      M.pow (.inf true) (lit f64 n) = (if 0 < n then .inf true else .nzero)) ∧
    (n % 2 = 0 → n ≠ 0 → M.pow .nzero (lit f64 n) = (if 0 < n then zero else .inf false) ∧
      M.pow (.inf true) (lit f64 n) = (if 0 < n then .inf false else zero)) := by
  have o := one_const
  have hr : IsRep f64 (n : ℚ) := by
    constructor
    · have := rnd_exact f64 (n := n) (e := 0) (by decide) hb.le
      rwa [show pow2 0 = 1 by decide, mul_one] at this
    · have h1 : |(n : ℚ)| < 2 ^ 53 := by exact_mod_cast hb
      exact h1.trans (by decide +kernel)
  have hr' : IsRep f64 (-n : ℚ) := hr.neg
  rw [lit_of_repr hr]
  have lz : lt (.fin (n : ℚ) hr : F64) zero = decide (n < 0) := by
    rw [lt_fin rfl rfl]
    change decide ((n : ℚ) < 0) = _
    simp
  have lz' : lt (.fin (-n : ℚ) hr' : F64) zero = decide (0 < n) := by
    rw [lt_fin rfl rfl]
    change decide (-(n : ℚ) < 0) = _
    simp
  have odd : isOddInt (.fin (n : ℚ) hr) = decide (n % 2 = 1) := by
    have h1 : |(n : ℚ)| < 2 ^ 53 := by exact_mod_cast hb
    simp [isOddInt, h1]
  have odd' : isOddInt (.fin (-n : ℚ) hr') = decide (n % 2 = 1) := by
    have h1 : |(n : ℚ)| < 2 ^ 53 := by exact_mod_cast hb
    have h2 : (-(n : ℚ)) = ((-n : Int) : ℚ) := by push_cast; rfl
    have h3 : (-n) % 2 = 1 ↔ n % 2 = 1 := by omega
    have h4 : |((-n : Int) : ℚ)| < 2 ^ 53 := by rw [← h2, abs_neg]; exact h1
    unfold isOddInt
    simp only [h2, h4, Rat.den_intCast, Rat.num_intCast, h3, true_and]
  have b1 : beq (.nzero : F64) (lit f64 1) = false ∧ beq (.inf true : F64) (lit f64 1) = false := by decide +kernel
  have key : n ≠ 0 → (M.pow .nzero (.fin (n : ℚ) hr) = if n = 1 then .nzero else zeroPow .nzero (.fin (n : ℚ) hr)) ∧
      (M.pow (.inf true) (.fin (n : ℚ) hr) = if n = 1 then .inf true else zeroPow .nzero (.fin (-n : ℚ) hr')) := by
    intro h0
    have by0 : beq (.fin (n : ℚ) hr : F64) zero = false := by
      rw [beq_fin rfl rfl, decide_eq_false_iff_not]; change ¬ (n : ℚ) = 0; exact_mod_cast h0
    have by1 : beq (.fin (n : ℚ) hr : F64) (lit f64 1) = decide (n = 1) := by
      rw [beq_fin rfl o.1, o.2]; change decide ((n : ℚ) = 1) = _
      simp
    have hneg : Fl.neg (.fin (n : ℚ) hr : F64) = .fin (-n : ℚ) hr' := if_neg (by exact_mod_cast h0)
    simp only [h.pow]
    unfold goPow
    rw [by0, by1, b1.1, b1.2]
    by_cases h1 : n = 1
    · simp [h1]
    · constructor
      · rw [if_neg (by simp), if_neg (by simp [h1]), if_neg (by simp), if_pos (Or.inl (show beq _ _ = true from rfl)), if_neg h1]
        rfl
      · rw [if_neg (by simp), if_neg (by simp [h1]), if_neg (by simp), if_pos (Or.inr (Or.inl (show isFin _ = false from rfl))), if_neg h1]
        unfold powSpecial
        rw [if_neg (by simp [beq, zero]), if_neg (by simp [isFin]), if_pos rfl, hneg]
  refine ⟨fun ho => ?_, fun he h0 => ?_⟩
  · obtain ⟨k1, k2⟩ := key (by rintro rfl; simp at ho)
    rw [k1, k2]
    unfold zeroPow
    rw [lz, lz', odd, odd']
    rcases lt_trichotomy n 0 with hn | hn | hn
    · have h1 : n ≠ 1 := by omega
      have h2 : ¬ 0 < n := by omega
      simp [h1, h2, hn, ho, sign]
    · subst hn; simp at ho
    · have h2 : ¬ n < 0 := by omega
      simp [h2, hn, ho, sign]
  · obtain ⟨k1, k2⟩ := key h0
    rw [k1, k2]
    have h1 : n ≠ 1 := by omega
    unfold zeroPow
    rw [lz, lz', odd, odd']
    rcases lt_trichotomy n 0 with hn | hn | hn
    · have h2 : ¬ 0 < n := by omega
      simp [h1, h2, hn, he, sign]
    · exact absurd hn h0
    · have h2 : ¬ n < 0 := by omega
      simp [h1, h2, hn, he, sign]

theorem frexp_neg {x : F64} (hx : x.isFin = true) (h0 : x.val < 0) : (frexp x).1.isFin = true ∧ (frexp x).1.val < 0 := by
  cases x with
  | fin q hq =>
    change q < 0 at h0
    obtain ⟨f1, f2, f3, _⟩ := frexp_exact (x := (.fin (-q) hq.neg : F64)) (by change 0 < -q; linarith)
    have e1 : frexp (.fin (-q) hq.neg : F64) = (mk f64 false (-q * pow2 (-(ilog2 |q| + 1))), ilog2 |q| + 1) := by
      unfold frexp
      simp only []
      rw [if_neg (by linarith), abs_neg]
      rw [show sign (.fin (-q) hq.neg : F64) = false from decide_eq_false (by linarith)]
    have e2 : frexp (.fin q hq : F64) = (mk f64 true (q * pow2 (-(ilog2 |q| + 1))), ilog2 |q| + 1) := by
      unfold frexp
      simp only []
      rw [if_neg h0.ne]
      simp [sign, h0]
    rw [e1] at f1 f2 f3
    simp only [] at f1 f2 f3
    change _ = -q at f2
    have hv : q * pow2 (-(ilog2 |q| + 1)) = -(mk f64 false (-q * pow2 (-(ilog2 |q| + 1)))).val := by
      have hp : pow2 (ilog2 |q| + 1) * pow2 (-(ilog2 |q| + 1)) = 1 := by
        rw [← pow2_add, add_neg_cancel]; decide
      have : (mk f64 false (-q * pow2 (-(ilog2 |q| + 1)))).val * (pow2 (ilog2 |q| + 1) * pow2 (-(ilog2 |q| + 1)))
          = -q * pow2 (-(ilog2 |q| + 1)) := by rw [← mul_assoc, f2]
      rw [hp, mul_one] at this
      rw [this]; ring
    have hrep : IsRep f64 (q * pow2 (-(ilog2 |q| + 1))) := by
      rw [hv]; exact (val_repr _).neg
    have hneg : q * pow2 (-(ilog2 |q| + 1)) < 0 := mul_neg_of_neg_of_pos h0 (pow2_pos _)
    rw [e2]
    simp only []
    rw [mk_of_repr hrep hneg.ne]
    exact ⟨rfl, hneg⟩
  | _ => simp [val] at h0

/-- C105. The decadic logarithm of both zeros is -∞, of +∞ it is +∞, of negative numbers, -∞ and NaN it is NaN. -/
theorem C105_log10_special (hP : GoPow M exp' sqrt' special) (hE : GoElementary exp' M.log sqrt') (x : F64) :
    (x.isFin = true → x.val = 0 → M.log10 x = .inf true) ∧ M.log10 (.inf false) = .inf false ∧
    ((x.isFin = true ∧ x.val < 0) ∨ x = .inf true ∨ x = .nan → M.log10 x = .nan) := by
  have L := C105_log hE
  have c2 : (lit f64 (1 / ln2)).isFin = true ∧ 0 < (lit f64 (1 / ln2)).val := by decide +kernel
  have c10 : (lit f64 (ln2 / ln10)).isFin = true ∧ 0 < (lit f64 (ln2 / ln10)).val := by decide +kernel
  have mi : ∀ s (z : F64), z.isFin = true → 0 < z.val → mul (.inf s) z = .inf s := by
    intro s z hz h0
    have hs := sign_of_pos hz h0
    cases z with
    | fin q hq => simp only [mul, hs, Bool.xor_false]; rw [if_neg h0.ne']
    | _ => simp [val] at h0
  have ai : ∀ s (z : F64), z.isFin = true → add (.inf s) z = .inf s := by
    intro s z hz; cases z <;> simp_all [isFin, add]
  have nl : ∀ (f : Bool) (x : F64) (e : Int), (frexp x) = (x, e) → beq x (lit f64 (1 / 2)) = false → (lit f64 (e : ℚ)).isFin = true →
      (M.log x = .nan ∨ ∃ s, M.log x = .inf s) → goLog10 f M.log x = M.log x := by
    intro f x e he hb hi hl
    unfold goLog10 goLog2
    rw [he]
    simp only [hb]
    rcases hl with hl | ⟨s, hl⟩
    · rw [hl]; simp [isFin, mul, add]
    · rw [hl]; simp only [isFin, Bool.false_eq_true, and_false, if_false]
      rw [mi s _ c2.1 c2.2, ai s _ hi, mi s _ c10.1 c10.2]
  have i0 : (lit f64 ((0 : Int) : ℚ)).isFin = true := by decide +kernel
  have both : ∀ {x v : F64}, (∀ f, goLog10 f M.log x = v) → M.log10 x = v := by
    intro x v hv
    rcases hP.log10 x with e | e <;> rw [e, hv]
  refine ⟨fun hx h0 => both fun f => ?_, both fun f => ?_, ?_⟩
  · rw [nl f x 0 ?_ ?_ i0 (Or.inr ⟨true, L.zero x hx h0⟩), L.zero x hx h0]
    · cases x with
      | fin q hq => change q = 0 at h0; subst h0; simp [frexp]
      | nzero => rfl
      | nan => simp [isFin] at hx
      | inf b => simp [isFin] at hx
    · rw [beq_fin hx half_const.1, half_const.2, h0]; decide +kernel
  · rw [nl f _ 0 rfl ?_ i0 (Or.inr ⟨false, L.inf⟩), L.inf]
    decide +kernel
  · rintro (⟨hx, h0⟩ | rfl | rfl)
    · refine both fun f => ?_
      obtain ⟨n1, n2⟩ := frexp_neg hx h0
      have hl := L.neg _ (Or.inl ⟨n1, n2⟩)
      have hb : beq (frexp x).1 (lit f64 (1 / 2)) = false := by
        rw [beq_fin n1 half_const.1, half_const.2, decide_eq_false_iff_not]; linarith
      unfold goLog10 goLog2
      simp only [hb, hl]
      simp [isFin, mul, add]
    · exact both fun f => by
        rw [nl f _ 0 rfl (by decide +kernel) i0 (Or.inl (L.neg _ (Or.inr rfl))), L.neg _ (Or.inr rfl)]
    · exact both fun f => by
        rw [nl f _ 0 rfl rfl i0 (Or.inl L.nan), L.nan]

/-! ### rates -/

theorem accurate (hP : GoPow M exp' sqrt' special) (hE : GoElementary exp' M.log sqrt') : AccuratePowLog M where
  pow _ _ hx hy h1 h2 h3 h4 := (C103_pow hP (C104_elementary hE) hx hy).2 h1 h2 h3 h4
  log10 _ _ h1 h2 := C103_log10 hP (C104_elementary hE) h1 h2

/-- C105. Whatever operations are fused, the rate of -∞ dBZ is zero, the rate of +∞ dBZ is +∞ and the rate of NaN is NaN. -/
theorem C105_rate (hP : GoPow M exp' sqrt' powSpecial) (hE : GoElementary exp' M.log sqrt') {a b : F64} (h : Parameters a b)
    {R : F64} :
    (PermittedRate M (permittedZR M a b) (.inf true) R → R.isFin = true ∧ R.val = 0) ∧
    (PermittedRate M (permittedZR M a b) (.inf false) R → R = .inf false) ∧
    (PermittedRate M (permittedZR M a b) .nan R → R = .nan) := by
  have hl := log_ten
  obtain ⟨_, c2, c3, _⟩ := zr_consts_set (accurate hP hE) h
  have step : ∀ d : F32, PermittedRate M (permittedZR M a b) d R → ∃ x y : F64, x.isFin = true ∧ 0 < x.val ∧
      lt (lit f64 1) y = true ∧ ∃ w, Permitted mul (· * ·) (fun _ _ => True) (.word x) (.word (M.pow y (d.conv f64))) w ∧ w.Rounds R := by
    rintro d ⟨w, ⟨u, v, hu, ⟨u', v', y, e, hu', rfl, hy, he, rfl⟩, hw⟩, hR⟩
    obtain ⟨x, rfl, x1, x2, _⟩ := c2 u hu
    obtain ⟨y', rfl, y1, y2, y3⟩ := c3 u' hu'
    obtain rfl : y = y' := hy
    obtain rfl : e = d.conv f64 := he
    refine ⟨x, y, x1, by exact_mod_cast x2, ?_, w, hw, hR⟩
    have hb := h.b2
    have hb1 := h.b1
    have hb0 : (0 : ℝ) < 10 * b.val := by linarith
    have h1 : 1 / 100 ≤ 1 / (10 * (b.val : ℝ)) := one_div_le_one_div_of_le hb0 (by linarith)
    have h2 : 1 / 100 * (23 / 10) ≤ 1 / (10 * (b.val : ℝ)) * log 10 := mul_le_mul h1 hl.1 (by norm_num) (by positivity)
    have h3 := abs_le.mp y3
    have h4 : 0 < log (y.val : ℝ) := by norm_num at h2 h3 ⊢; linarith [h3.1]
    have h5 : (1 : ℝ) < y.val := (log_pos_iff y2.le).mp h4
    rw [lt_fin one_const.1 y1, one_const.2, decide_eq_true_iff]
    exact_mod_cast h5
  refine ⟨fun hR => ?_, fun hR => ?_, fun hR => ?_⟩
  · obtain ⟨x, y, x1, x2, hy, w, hw, hR⟩ := step _ hR
    rw [show (Fl.inf true : F32).conv f64 = .inf true from rfl, ((C105_infinite_exponent hP y).1 hy).2] at hw
    have hm : ∀ neg, (mk f64 neg (x.val * 0)).isFin = true ∧ (mk f64 neg (x.val * 0)).val = 0 := by
      intro neg
      rw [mul_zero]
      cases neg <;> decide +kernel
    cases hw with
    | @separate x' y' hx' hy' =>
      obtain rfl : x' = x := hx'
      obtain rfl : y' = zero := hy'
      obtain rfl : R = _ := hR
      rw [mul_fin x1 rfl]
      exact hm _
    | @kept p q hp hq _ =>
      obtain ⟨_, rfl⟩ := hp
      obtain ⟨_, rfl⟩ := hq
      obtain ⟨neg, rfl⟩ := hR
      exact hm neg
    | @fused p q neg hp hq _ =>
      obtain ⟨_, rfl⟩ := hp
      obtain ⟨_, rfl⟩ := hq
      obtain rfl : R = _ := hR
      exact hm neg
  · obtain ⟨x, y, x1, x2, hy, w, hw, hR⟩ := step _ hR
    rw [show (Fl.inf false : F32).conv f64 = .inf false from rfl, ((C105_infinite_exponent hP y).1 hy).1] at hw
    cases hw with
    | @separate x' y' hx' hy' =>
      obtain rfl : x' = x := hx'
      obtain rfl : y' = .inf false := hy'
      obtain rfl : R = _ := hR
      exact mul_inf_right false x1 x2
    | @kept p q _ hq _ => exact absurd hq.1 (by simp [isFin])
    | @fused p q neg _ hq _ => exact absurd hq.1 (by simp [isFin])
  · obtain ⟨x, y, x1, x2, hy, w, hw, hR⟩ := step _ hR
    have hy1 : y ≠ lit f64 1 := by
      rintro rfl
      rw [lt_fin one_const.1 one_const.1] at hy
      simp at hy
    rw [show (Fl.nan : F32).conv f64 = .nan from rfl, (C103_special_cases hP y .nan).2.2.2.2 hy1] at hw
    cases hw with
    | @separate x' y' hx' hy' =>
      obtain rfl : x' = x := hx'
      obtain rfl : y' = .nan := hy'
      obtain rfl : R = _ := hR
      cases x' <;> rfl
    | @kept p q _ hq _ => exact absurd hq.1 (by simp [isFin])
    | @fused p q neg _ hq _ => exact absurd hq.1 (by simp [isFin])

/-! ### reflectivities -/

/-- the reflectivity of a rate whose logarithm is infinite or NaN -/
theorem refl_special (hM : AccuratePowLog M) {a b : F64} (h : Parameters a b) {r : F64} {F : F32}
    (hF : PermittedReflectivity M (permittedZR M a b) r F) :
    (∀ s, M.log10 r = .inf s → F = .inf s) ∧ (M.log10 r = .nan → F = .nan) := by
  obtain ⟨c1, _, _, c4⟩ := zr_consts_set hM h
  obtain ⟨u, ⟨u1, u2, h4, ⟨v1, v2, h1, ⟨v, x, hv, hx, rfl⟩, hm⟩, ha⟩, hF⟩ := hF
  obtain rfl : v = .word r := hv
  obtain rfl : x = r := hx
  have p1 : ∀ {z}, v1.Rounds z → z.isFin = true ∧ 0 < z.val := by
    intro z hz
    obtain ⟨z1, z2⟩ := (c1 v1 h1).rounds hz
    refine ⟨z1, ?_⟩
    have z3 := (abs_le.mp z2).1
    have z4 := h.b1
    have : (0 : ℝ) < z.val := by linarith [(by norm_num : (2 / 10 ^ 14 : ℝ) ≤ 1)]
    exact_mod_cast this
  have p4 : ∀ {z}, u1.Rounds z → z.isFin = true := fun hz => ((c4 u1 h4).rounds hz).1
  refine ⟨fun s hs => ?_, fun hs => ?_⟩
  all_goals
    rw [hs] at hm
    cases hm with
    | @kept p q _ hq _ => exact absurd hq.1 (by simp [isFin])
    | @fused p q neg _ hq _ => exact absurd hq.1 (by simp [isFin])
    | @separate z y hz hy =>
      obtain rfl : y = _ := hy
      obtain ⟨z1, z2⟩ := p1 hz
      first
        | rw [mul_inf_right s z1 z2] at ha
        | rw [show mul z .nan = .nan by cases z <;> rfl] at ha
      cases ha with
      | @kept p q _ hq _ => exact absurd hq.1 (by simp [isFin])
      | @fused p q neg _ hq _ => exact absurd hq.1 (by simp [isFin])
      | @separate z' y' hz' hy' =>
        obtain rfl : y' = _ := hy'
        have hf := p4 hz'
        rcases hF with ⟨t, ht, rfl⟩ | ⟨q, neg, hq, _⟩
        · obtain rfl : t = _ := ht
          cases z' <;> simp_all [isFin, add, conv]
        · have := hq.1
          cases z' <;> simp_all [isFin, add]

theorem mk32_wide {q : ℚ} {b : Bool} (hr : |q| ≤ 40000) : (mk f32 b q).isFin = true ∧ (mk f32 b q).val = rnd f32 q ∧
    |rnd f32 q - q| ≤ (|q| + 1) * (6 / 10 ^ 8) := by
  have herr : |rnd f32 q - q| ≤ (|q| + 1) * (6 / 10 ^ 8) := by
    have h1 := rnd_err32 q
    have h3 := abs_nonneg q
    have h4 : |q| / 16777216 ≤ |q| * (6 / 10 ^ 8) := by
      rw [div_eq_mul_inv]; exact mul_le_mul_of_nonneg_left (by norm_num) h3
    have h5 : (1 : ℚ) / 1000000000000 ≤ 6 / 10 ^ 8 := by norm_num
    linarith
  have hb : |rnd f32 q| < pow2 f32.emax := by
    have h1 := abs_add_le (rnd f32 q - q) q
    rw [sub_add_cancel] at h1
    have h2 : (|q| + 1) * (6 / 10 ^ 8 : ℚ) ≤ 40001 * (6 / 10 ^ 8) := mul_le_mul_of_nonneg_right (by linarith) (by norm_num)
    have h3 : pow2 16 ≤ pow2 f32.emax := pow2_le.mpr (by decide)
    have h4 : pow2 16 = 65536 := by rw [pow2_eq]; norm_num
    have h5 : (40001 : ℚ) * (6 / 10 ^ 8) ≤ 1 := by norm_num
    linarith
  obtain ⟨c1, c2⟩ := mk_fin (b := b) hb
  exact ⟨c1, c2, herr⟩

/-- C105. The reflectivity of every positive rate, from the smallest denormal number to the largest finite one, is finite
and deviates from the exact one by at most 10^-7 dBZ plus 10^-7 of its value, whatever is fused. -/
theorem C105_every_rate (hP : GoPow M exp' sqrt' special) (hE : GoElementary exp' M.log sqrt') {a b : F64} (h : Parameters a b)
    {r : F64} (h0 : 0 < r.val) {F : F32} (hF : PermittedReflectivity M (permittedZR M a b) r F) :
    F.isFin = true ∧ |(F.val : ℝ) - realRefl a.val b.val r.val| ≤ (|realRefl a.val b.val r.val| + 1) / 10 ^ 7 := by
  have T := tracks_permitted exactMath_accurate
  have hl := log_ten
  have hr0 : (0 : ℝ) < r.val := by exact_mod_cast h0
  obtain ⟨la1, la2⟩ := log_a h
  obtain ⟨c1, _, _, c4⟩ := zr_consts_set (accurate hP hE) h
  obtain ⟨fa, fb, a1, a2, b1, b2⟩ := h
  have q2 : |logb 10 (r.val : ℝ)| ≤ 325 := (goLog10_wide (C104_elementary hE) false hr0).2
  have s1 : SetAp ((permittedArith M).log10 (just r)) (logb 10 r.val) (1 / 10 ^ 12) := by
    rintro w ⟨u, x, rfl, hx', rfl⟩
    obtain rfl : x = r := hx'
    exact C105_log10 hP hE hr0
  have q3 : |10 * (b.val : ℝ)| ≤ 100 := by rw [abs_of_nonneg (by linarith)]; linarith
  have hm : SetAp ((permittedArith M).mul (permittedZR M a b).c1 ((permittedArith M).log10 (just r)))
      (10 * b.val * logb 10 r.val) (12 / 10 ^ 11) :=
    T.mul (B := 100) (C := 325) (e := 107 / 10 ^ 12) c1 s1 q3 q2 (by norm_num) (by norm_num) (by norm_num) (by norm_num)
  have hlb : |10 * logb 10 (a.val : ℝ)| ≤ 50 := by
    unfold logb
    rw [abs_of_nonneg (by positivity), ← mul_div_assoc, div_le_iff₀ (by linarith)]; linarith
  have hs2 : |10 * (b.val : ℝ) * logb 10 r.val| ≤ 32500 := by
    rw [abs_mul]; refine (mul_le_mul q3 q2 (abs_nonneg _) (by norm_num)).trans (by norm_num)
  have hs : |10 * logb 10 (a.val : ℝ) + 10 * b.val * logb 10 r.val| ≤ 32550 := by
    refine (abs_add_le _ _).trans ?_; linarith
  have hA : SetAp (reflectivity (permittedArith M) (permittedZR M a b) (just r)) (10 * logb 10 a.val + 10 * b.val * logb 10 r.val)
      (2 / 10 ^ 10) :=
    T.add (M := 32560) c4 hm (by norm_num at hs ⊢; linarith) (by norm_num) (by norm_num) (by norm_num)
  have hD : realRefl a.val b.val r.val = 10 * logb 10 a.val + 10 * b.val * logb 10 r.val := by
    rw [realRefl_log]; rfl
  rw [hD]
  obtain ⟨u, hu, hF⟩ := hF
  have hu := hA u hu
  generalize 10 * logb 10 (a.val : ℝ) + 10 * b.val * logb 10 r.val = D at *
  have main : ∀ (q : ℚ) (s : Bool), |(q : ℝ) - D| ≤ 2 / 10 ^ 10 → F = mk f32 s q →
      F.isFin = true ∧ |(F.val : ℝ) - D| ≤ (|D| + 1) / 10 ^ 7 := by
    intro q s hq hFq
    have h1 : |(q : ℝ)| ≤ |D| + 2 / 10 ^ 10 := by
      have := abs_add_le D ((q : ℝ) - D)
      rw [add_sub_cancel] at this
      linarith
    have hq' : |q| ≤ 40000 := by
      have h4 : |(q : ℝ)| ≤ 40000 := h1.trans (by norm_num; linarith)
      have : ((|q| : ℚ) : ℝ) ≤ ((40000 : ℚ) : ℝ) := by push_cast; exact h4
      exact_mod_cast this
    obtain ⟨k1, k2, k3⟩ := mk32_wide (b := s) hq'
    rw [hFq, k2]
    refine ⟨k1, ?_⟩
    have k4 : |((rnd f32 q : ℚ) : ℝ) - q| ≤ (|(q : ℝ)| + 1) * (6 / 10 ^ 8) := by
      have : ((|rnd f32 q - q| : ℚ) : ℝ) ≤ (((|q| + 1) * (6 / 10 ^ 8) : ℚ) : ℝ) := by exact_mod_cast k3
      push_cast at this
      exact this
    have k5 := abs_sub_le ((rnd f32 q : ℚ) : ℝ) q D
    have := abs_nonneg D
    norm_num at k4 k5 h1 hq ⊢
    linarith
  rcases hF with ⟨x, hx, rfl⟩ | ⟨q, neg, hq, rfl⟩
  · obtain ⟨x1, x2⟩ := hu.rounds hx
    cases x with
    | fin q hq => exact main q _ x2 rfl
    | nzero => exact main 0 true x2 (by decide +kernel)
    | nan => simp [isFin] at x1
    | inf b => simp [isFin] at x1
  · exact main q neg (hu.is hq) rfl

/-- C105. Whatever operations are fused, the reflectivity of a rate is finite exactly if the rate is positive and finite,
-∞ exactly for a rate of zero (of either sign), +∞ exactly for the rate +∞, and NaN exactly for negative rates (-∞ included) and NaN. -/
theorem C105_reflectivity (hP : GoPow M exp' sqrt' special) (hE : GoElementary exp' M.log sqrt') {a b : F64} (h : Parameters a b)
    {r : F64} {F : F32} (hF : PermittedReflectivity M (permittedZR M a b) r F) :
    (F.isFin = true ↔ r.isFin = true ∧ 0 < r.val) ∧ (F = .inf true ↔ r.isFin = true ∧ r.val = 0) ∧
    (F = .inf false ↔ r = .inf false) ∧ (F = .nan ↔ r = .nan ∨ r = .inf true ∨ (r.isFin = true ∧ r.val < 0)) := by
  obtain ⟨s1, s2⟩ := refl_special (accurate hP hE) h hF
  obtain ⟨l1, l2, l3⟩ := C105_log10_special hP hE r
  cases r with
  | nan => have := s2 (l3 (Or.inr (Or.inr rfl))); subst this; simp [isFin]
  | inf b =>
    cases b with
    | false => have := s1 _ l2; subst this; simp [isFin]
    | true => have := s2 (l3 (Or.inr (Or.inl rfl))); subst this; simp [isFin]
  | nzero => have := s1 _ (l1 rfl rfl); subst this; simp [isFin, val]
  | fin q hq =>
    rcases lt_trichotomy q 0 with h0 | h0 | h0
    · have := s2 (l3 (Or.inl ⟨rfl, h0⟩)); subst this
      have h1 : ¬ (0 < q) := by linarith
      simp [isFin, val, h0, h1, h0.ne]
    · have := s1 _ (l1 rfl h0); subst this; subst h0
      simp [isFin, val]
    · obtain ⟨f1, _⟩ := C105_every_rate hP hE h (r := .fin q hq) h0 hF
      have h1 : ¬ (q < 0) := by linarith
      cases F with
      | fin p hp => simp [isFin, val, h0, h1, h0.ne']
      | nzero => simp [isFin, val, h0, h1, h0.ne']
      | nan => simp [isFin] at f1
      | inf b => simp [isFin] at f1

/-- C105. No rain stays no rain: -∞ dBZ converted to a rate and back is -∞ dBZ, a rate of zero converted to a reflectivity
and back is a rate of zero; likewise +∞ and NaN are preserved both ways. -/
theorem C105_no_rain (hP : GoPow M exp' sqrt' powSpecial) (hE : GoElementary exp' M.log sqrt') {a b : F64} (h : Parameters a b) :
    (∀ {d : F32} {R : F64} {F : F32}, d = .inf true ∨ d = .inf false ∨ d = .nan → PermittedRate M (permittedZR M a b) d R →
      PermittedReflectivity M (permittedZR M a b) R F → F = d) ∧
    (∀ {r R : F64} {F : F32}, r.isFin = true → r.val = 0 → PermittedReflectivity M (permittedZR M a b) r F →
      PermittedRate M (permittedZR M a b) F R → R.isFin = true ∧ R.val = 0) ∧
    (∀ {r R : F64} {F : F32}, r = .inf false ∨ r = .nan → PermittedReflectivity M (permittedZR M a b) r F →
      PermittedRate M (permittedZR M a b) F R → R = r) := by
  refine ⟨?_, ?_, ?_⟩
  · rintro d R F hd hR hF
    obtain ⟨_, f2, f3, f4⟩ := C105_reflectivity hP hE h hF
    rcases hd with rfl | rfl | rfl
    · exact f2.mpr ((C105_rate hP hE h).1 hR)
    · exact f3.mpr ((C105_rate hP hE h).2.1 hR)
    · exact f4.mpr (Or.inl ((C105_rate hP hE h).2.2 hR))
  · intro r R F hr h0 hF hR
    have := (C105_reflectivity hP hE h hF).2.1.mpr ⟨hr, h0⟩
    subst this
    exact (C105_rate hP hE h).1 hR
  · rintro r R F hr hF hR
    obtain ⟨_, f2, f3, f4⟩ := C105_reflectivity hP hE h hF
    rcases hr with rfl | rfl
    · have := f3.mpr rfl
      subst this
      exact (C105_rate hP hE h).2.1 hR
    · have := f4.mpr (Or.inl rfl)
      subst this
      exact (C105_rate hP hE h).2.2 hR

/-! ### samples -/

/-- Go's package math -/
theorem sample_math (amd64 : Bool) (big : F64 → Nat × F64) :
    GoPow (goMath amd64 big powSpecial) (if amd64 then amdExp else goExp) correctSqrt powSpecial ∧
    GoElementary (if amd64 then amdExp else goExp) (goMath amd64 big powSpecial).log correctSqrt :=
  ⟨⟨fun _ _ => rfl, fun _ => by cases amd64; exact Or.inl rfl; exact Or.inr rfl⟩, by
    cases amd64
    · exact sample_go.1
    · exact sample_go.2⟩

/-- Marshall-Palmer: no rain is -∞ dBZ on amd64 -/
example (big : F64 → Nat × F64) :
    Reflectivity (goMath true big powSpecial) (NewZR (f64Arith (goMath true big powSpecial)) (lit f64 200) (lit f64 (160 / 100))) zero
      = .inf true := by
  have hp : Parameters (lit f64 200) (lit f64 (160 / 100)) :=
    params_of (a := lit f64 200) (p := 200) (q := (lit f64 (160 / 100)).val) (by decide +kernel) (by decide +kernel) (by decide +kernel) rfl
      (by norm_num) (by constructor <;> decide +kernel)
  exact (C105_reflectivity (sample_math true big).1 (sample_math true big).2 hp
    (C87_zr_permitted _ _ _ (.inf true) _).2).2.1.mpr ⟨rfl, rfl⟩

end Props
