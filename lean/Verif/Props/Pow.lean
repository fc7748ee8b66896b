/-
C103: the accuracy that C54, C57 and their followers assume of math.Pow and math.Log10 is proved for the code of Go's
package math (Model/Pow.lean), given accurate exponentials, logarithms and square roots.
-/
import Verif.Lemmas.Log10
import Verif.Props.Trig
import Verif.Props.Rainfall
import Verif.Props.FusedConversion

namespace Props
open Go Radolan Spec Real Go.Fl Spec.Fusion Radolan.Trig Spec.Trig Radolan.Pow Spec.Pow

variable {M : MathLib} {exp' sqrt' : F64 → F64} {special : F64 → F64 → F64}

/-- C103. With accurate exponential, logarithm and square root, math.Pow is within 5·10^-15 of the true power
for bases in [1/2, 2] and exponents in [0, 1/10], and within a relative error of 10^-13 for bases in [1, 10^4] and exponents
up to 200 (if the power is between e^-100 and e^100). -/
theorem C103_pow (h : GoPow M exp' sqrt' special) (hA : AccurateElementary exp' M.log sqrt') {x y : F64}
    (hx : x.isFin = true) (hy : y.isFin = true) :
    (1 / 2 ≤ (x.val : ℝ) → (x.val : ℝ) ≤ 2 → 0 ≤ (y.val : ℝ) → (y.val : ℝ) ≤ 1 / 10 →
      (M.pow x y).isFin = true ∧ |((M.pow x y).val : ℝ) - (x.val : ℝ) ^ (y.val : ℝ)| ≤ 5 / 10 ^ 15) ∧
    (1 ≤ (x.val : ℝ) → (x.val : ℝ) ≤ 10 ^ 4 → |(y.val : ℝ)| ≤ 200 → |(y.val : ℝ) * log x.val| ≤ 100 →
      (M.pow x y).isFin = true ∧
      |((M.pow x y).val : ℝ) - (x.val : ℝ) ^ (y.val : ℝ)| ≤ (x.val : ℝ) ^ (y.val : ℝ) / 10 ^ 13) := by
  rw [h.pow]
  constructor
  · intro x1 x2 y1 y2
    have hx0 : (0 : ℝ) < x.val := by linarith
    have hK : |log (x.val : ℝ)| ≤ 694 / 1000 := by
      rw [abs_le]
      constructor
      · have : - log 2 ≤ log (x.val : ℝ) := by
          rw [← log_inv]; exact log_le_log (by norm_num) (by norm_num at x1 ⊢; exact x1)
        linarith [log_two.2]
      · exact (log_le_log hx0 x2).trans log_two.2
    have hya : |(y.val : ℝ)| ≤ 1 / 10 := by rw [abs_of_nonneg y1]; exact y2
    obtain ⟨p1, p2, p3⟩ := goPow_log (special := special) hA hx hy x1 (x2.trans (by norm_num)) hK (by norm_num) (by norm_num)
      (hya.trans (by norm_num)) ((Num.abs_mul_le hya hK).trans (by norm_num))
    have hp : 0 < (x.val : ℝ) ^ (y.val : ℝ) := rpow_pos_of_pos hx0 _
    have hu : (x.val : ℝ) ^ (y.val : ℝ) ≤ 11 / 10 := by
      refine (rpow_le_rpow hx0.le x2 y1).trans ?_
      refine (rpow_le_rpow_of_exponent_le (by norm_num) y2).trans ?_
      rw [show (1 / 10 : ℝ) = (10 : ℝ)⁻¹ by norm_num, rpow_inv_le_iff_of_pos (by norm_num) (by norm_num) (by norm_num)]
      rw [show (10 : ℝ) = ((10 : ℕ) : ℝ) by norm_num, rpow_natCast]; norm_num
    have hb : (1 + 694 / 1000 : ℝ) * (5 / 10 ^ 16) + 256 / 10 ^ 17 + (|(y.val : ℝ)| + 1) * (39 / 10 ^ 17) ≤ 384 / 10 ^ 17 := by
      norm_num; linarith
    rw [← log_rpow hx0] at p3
    have := rel_of_log' p2 hp (p3.trans hb) (by norm_num)
    refine ⟨p1, this.trans ?_⟩
    have := mul_le_mul_of_nonneg_right hu (by norm_num : (0 : ℝ) ≤ 384 / 10 ^ 17 * (1001 / 1000))
    refine this.trans ?_
    norm_num
  · intro x1 x2 y1 y2
    have hx0 : (0 : ℝ) < x.val := by linarith
    have hK : |log (x.val : ℝ)| ≤ 924 / 100 := by
      rw [abs_of_nonneg (log_nonneg x1)]
      refine (log_le_log hx0 x2).trans ?_
      rw [log_pow]; push_cast; linarith [log10_bounds.2]
    obtain ⟨p1, p2, p3⟩ := goPow_log (special := special) hA hx hy (by linarith) x2 hK (by norm_num) (by norm_num) y1 y2
    have hp : 0 < (x.val : ℝ) ^ (y.val : ℝ) := rpow_pos_of_pos hx0 _
    have hb : (1 + 924 / 100 : ℝ) * (5 / 10 ^ 16) + 256 / 10 ^ 17 + (|(y.val : ℝ)| + 1) * (39 / 10 ^ 17) ≤ 91 / 10 ^ 15 := by
      norm_num; linarith
    rw [← log_rpow hx0] at p3
    have := rel_of_log' p2 hp (p3.trans hb) (by norm_num)
    refine ⟨p1, this.trans ?_⟩
    rw [div_eq_mul_inv]
    exact mul_le_mul_of_nonneg_left (by norm_num) hp.le

/-- C103. Likewise math.Log10 is within 10^-13 of the decadic logarithm of numbers between e^-100 and e^100, whether
the sum in Log2 is fused with the product or not. -/
theorem C103_log10 (h : GoPow M exp' sqrt' special) (hA : AccurateElementary exp' M.log sqrt') {x : F64}
    (hx0 : (0 : ℝ) < x.val) (hr : |log (x.val : ℝ)| ≤ 100) :
    (M.log10 x).isFin = true ∧ |((M.log10 x).val : ℝ) - logb 10 x.val| ≤ 1 / 10 ^ 13 := by
  rcases h.log10 x with e | e <;> rw [e] <;> exact goLog10_ap hA _ hx0 hr

/-- C103. Special cases, whatever the other functions are: any number to the power 0 and 1 to any power are 1, any number to
the power 1 is that number, and NaN to any other power and any other number to the power NaN are NaN. -/
theorem C103_special_cases (h : GoPow M exp' sqrt' special) (x y : F64) :
    (y.isFin = true → y.val = 0 → M.pow x y = lit f64 1) ∧ M.pow (lit f64 1) y = lit f64 1 ∧
    M.pow x (lit f64 1) = x ∧ (¬ (y.isFin = true ∧ y.val = 0) → M.pow .nan y = .nan) ∧
    (x ≠ lit f64 1 → M.pow x .nan = .nan) := by
  simp only [h.pow]
  have eq_one : ∀ z : F64, beq z (lit f64 1) = true → z = lit f64 1 := by
    intro z hz
    have hz1 : z.isFin = true := by
      cases z <;> simp_all [beq, isFin, lit_one]
    rw [beq_fin hz1 one_const.1, one_const.2, decide_eq_true_iff] at hz
    have : IsRep f64 1 := by have := (lit f64 1).val_repr; rwa [one_const.2] at this
    rw [lit_of_repr this]
    cases z with
    | fin q hq => change q = 1 at hz; subst hz; rfl
    | nzero => simp [val] at hz
    | nan => simp [isFin] at hz1
    | inf b => simp [isFin] at hz1
  have one_refl : beq (lit f64 1) (lit f64 1) = true := by rw [beq_fin one_const.1 one_const.1]; simp
  have nan_beq : ∀ z : F64, beq .nan z = false := by intro z; cases z <;> rfl
  refine ⟨fun y1 y2 => ?_, ?_, ?_, fun hy => ?_, fun hx => ?_⟩
  · unfold goPow
    rw [if_pos (Or.inl (by rw [beq_fin y1 zero_const.1, zero_const.2]; simp [y2]))]
  · unfold goPow
    rw [if_pos (Or.inr one_refl)]
  · unfold goPow
    have h0 : beq (lit f64 1) zero = false := by rw [beq_fin one_const.1 zero_const.1, zero_const.2, one_const.2]; simp
    by_cases hx : beq x (lit f64 1) = true
    · rw [if_pos (Or.inr hx)]; exact (eq_one x hx).symm
    · rw [if_neg (by simp [h0, hx]), if_pos one_refl]
  · unfold goPow
    have h0 : beq y zero ≠ true := by
      intro hb
      have hy1 : y.isFin = true := by cases y <;> simp_all [beq, isFin, zero]
      rw [beq_fin hy1 zero_const.1, zero_const.2, decide_eq_true_iff] at hb
      exact hy ⟨hy1, hb⟩
    rw [if_neg (by simp [h0, nan_beq])]
    by_cases h1 : beq y (lit f64 1) = true
    · rw [if_pos h1]
    · rw [if_neg h1, if_pos (Or.inl rfl)]
  · unfold goPow
    have h1 : beq x (lit f64 1) ≠ true := fun hb => hx (eq_one x hb)
    rw [if_neg (by simp [h1, nan_beq]), if_neg (by rw [nan_beq]; simp), if_pos (Or.inr rfl)]

/-- C103. So all the assumptions made about sine, cosine, tangent, power and decadic logarithm (C41, C54, C57, C67, C86, C87 and
others) hold for Go's code if its exponential, logarithm and square root are accurate. -/
theorem C103_library {big : F64 → Nat × F64} (hT : GoTrig M big) (h : GoPow M exp' sqrt' special)
    (hA : AccurateElementary exp' M.log sqrt') :
    AccurateMath M ∧ AccuratePowLog M ∧ ∀ x : F64, x ≠ lit f64 1 → M.pow x .nan = .nan :=
  ⟨C102_library hT fun _ _ hx hy h1 h2 => (C103_pow h hA hx hy).1 h1.1 h1.2 h2.1 h2.2,
   ⟨fun _ _ hx hy h1 h2 h3 h4 => (C103_pow h hA hx hy).2 h1 h2 h3 h4, fun _ _ h1 h2 => C103_log10 h hA h1 h2⟩,
   fun x hx => (C103_special_cases h x .nan).2.2.2.2 hx⟩

/-- C103. In particular the projection of every grid, and the rates of all Z-R relations, are accurate, however operations
are fused. -/
theorem C103_project_and_rate {E : Env} {big : F64 → Nat × F64} (hT : GoTrig E.math big)
    (h : GoPow E.math exp' sqrt' special) (hA : AccurateElementary exp' E.math.log sqrt') :
    (∀ {c : Composite} {b : Int × Int}, HasGrid c.format c.dx c.dy b → c.dx < 2 ^ 63 → c.dy < 2 ^ 63 →
      ∀ {north east : F64}, OnMap north east →
      let r := realProject c.format c.dx c.dy north.val east.val
      (∀ x, Observable (permittedProject E c north east).1 x → x.isFin = true ∧ |(x.val : ℝ) - r.1| ≤ c.dx / 10 ^ 9) ∧
      (∀ y, Observable (permittedProject E c north east).2 y → y.isFin = true ∧ |(y.val : ℝ) - r.2| ≤ c.dy / 10 ^ 9)) ∧
    (∀ {a b : F64}, Parameters a b → ∀ {d : F32}, d.isFin = true → |(d.val : ℝ)| ≤ 128 →
      ∀ {R : F64}, PermittedRate E.math (permittedZR E.math a b) d R →
      R.isFin = true ∧ 0 < R.val ∧ |(R.val : ℝ) - realRate a.val b.val d.val| ≤ realRate a.val b.val d.val / 10 ^ 10) := by
  obtain ⟨h1, h2, _⟩ := C103_library hT h hA
  exact ⟨fun hg hdx hdy _ _ hp => C67_project h1 hg hdx hdy hp, fun hp _ hd hr _ hR => C87_rate h2 hp hd hr hR⟩

/-! ### a sample -/

/-- exponential, logarithm and square root, (nearly) exact values rounded once -/
noncomputable def sampleExp (x : F64) : F64 := lit f64 (ratRel (Real.exp x.val))
noncomputable def sampleLog (x : F64) : F64 := lit f64 (ratNear (Real.log x.val))
noncomputable def sampleSqrt (x : F64) : F64 := lit f64 (ratRel (Real.sqrt x.val))

theorem sample_elementary : AccurateElementary sampleExp sampleLog sampleSqrt where
  exp x _ h := by
    have hp := exp_pos (x.val : ℝ)
    have hr := exp_range (L := x.val) (by linarith)
    have hr2 := exp_range (L := x.val + 5) (by rw [abs_le] at h ⊢; constructor <;> linarith [h.1, h.2])
    have hu : Real.exp (x.val : ℝ) ≤ 10 ^ 59 := by
      have : Real.exp (x.val : ℝ) ≤ Real.exp 5 := exp_le_exp.mpr (abs_le.mp h).2
      refine this.trans ?_
      have h1 : Real.exp (5 : ℝ) = Real.exp 1 ^ 5 := by rw [← exp_nat_mul]; norm_num
      rw [h1]
      exact (pow_le_pow_left₀ (exp_pos _).le exp_one_lt_d9.le _).trans (by norm_num)
    exact lit_ap (M := 2 * Real.exp (x.val : ℝ)) (ratRel_spec hp) (by rw [abs_of_pos hp]; norm_num; linarith)
      (by norm_num at hr ⊢; linarith [hr.1]) (by norm_num at hu ⊢; linarith) (by norm_num; linarith)
  log x _ h1 h2 := by
    refine lit_ap (M := (1 + |Real.log x.val|)) (ratNear_spec _) ?_ ?_ ?_ ?_
    · norm_num; linarith
    · norm_num; linarith [abs_nonneg (Real.log (x.val : ℝ))]
    · have hx0 : (0 : ℝ) < x.val := by linarith
      have : |Real.log (x.val : ℝ)| ≤ 10 := by
        rw [abs_le]
        constructor
        · have : - log 2 ≤ log (x.val : ℝ) := by
            rw [← log_inv]; exact log_le_log (by norm_num) (by norm_num at h1 ⊢; exact h1)
          linarith [log_two.2]
        · refine (log_le_log hx0 h2).trans ?_
          rw [log_pow]; push_cast; linarith [log10_bounds.2]
      norm_num; linarith
    · have := abs_nonneg (Real.log (x.val : ℝ))
      norm_num; linarith
  sqrt x _ h1 h2 := by
    have hx0 : (0 : ℝ) < x.val := by linarith
    have hp : 0 < Real.sqrt (x.val : ℝ) := sqrt_pos.mpr hx0
    have h3 : Real.sqrt (x.val : ℝ) ≤ 10 ^ 4 := (sqrt_le_sqrt h2).trans (by rw [Real.sqrt_le_left (by norm_num)]; norm_num)
    have h4 : 1 / 2 ≤ Real.sqrt (x.val : ℝ) := by
      apply Real.le_sqrt_of_sq_le; norm_num at h1 ⊢; linarith
    exact lit_ap (M := 2 * Real.sqrt (x.val : ℝ)) (ratRel_spec hp) (by rw [abs_of_pos hp]; norm_num; linarith)
      (by norm_num; linarith) (by norm_num; linarith) (by norm_num; linarith)

/-- a library with Go's code in it -/
noncomputable def sampleMath (big : F64 → Nat × F64) (special : F64 → F64 → F64) : MathLib where
  sin := goSin big
  cos := goCos big
  tan := goTan big
  pow := goPow sampleExp sampleLog sampleSqrt special
  log10 := goLog10 true sampleLog
  log := sampleLog

example (big : F64 → Nat × F64) (special : F64 → F64 → F64) :
    AccurateMath (sampleMath big special) ∧ AccuratePowLog (sampleMath big special) ∧
    |((sampleMath big special).pow (lit f64 10) (lit f64 3)).val - (1000 : ℝ)| ≤ 1000 / 10 ^ 13 := by
  have hT : GoTrig (sampleMath big special) big := C102_separate_rounding (sampleMath big special) big
  have hP : GoPow (sampleMath big special) sampleExp sampleSqrt special := ⟨fun _ _ => rfl, fun _ => Or.inr rfl⟩
  obtain ⟨h1, h2, _⟩ := C103_library hT hP sample_elementary
  refine ⟨h1, h2, ?_⟩
  have v10 : (lit f64 10).isFin = true ∧ (lit f64 10).val = 10 := by decide +kernel
  have v3 : (lit f64 3).isFin = true ∧ (lit f64 3).val = 3 := by decide +kernel
  have := (h2.pow (lit f64 10) (lit f64 3) v10.1 v3.1 (by rw [v10.2]; norm_num) (by rw [v10.2]; norm_num)
    (by rw [v3.2]; norm_num [abs_of_pos]) (by
      rw [v3.2, v10.2]; push_cast
      have := log10_bounds
      rw [abs_of_nonneg (by linarith [this.1])]; linarith [this.2])).2
  rw [v10.2, v3.2] at this
  push_cast at this
  rwa [show ((10 : ℝ) ^ (3 : ℝ)) = 1000 by rw [show (3 : ℝ) = ((3 : ℕ) : ℝ) by norm_num, rpow_natCast]; norm_num] at this

end Props
