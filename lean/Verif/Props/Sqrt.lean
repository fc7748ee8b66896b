/-
C106: the square root of Go's package math. The code in software (math/sqrt.go) is rounded correctly, so it agrees with the
instructions of processors, and nothing remains to be assumed about package math.
-/
import Verif.Lemmas.Sqrt
import Verif.Props.RainRange

namespace Props
open Go Radolan Spec Real Go.Fl Spec.Fusion Radolan.Fusion Radolan.Trig Spec.Trig Radolan.Pow Spec.Pow Radolan.Elem Spec.Elem Radolan.Sqrt

/-! ### the code -/

theorem goSqrt_pos {x : F64} (hx : x.isFin = true) (h0 : 0 < x.val) : goSqrt x = sqrtBits (float64bits x.val) := by
  have hn : x ≠ .nan ∧ x ≠ .inf false := by constructor <;> (rintro rfl; simp [isFin] at hx)
  unfold goSqrt
  rw [if_neg, if_neg]
  · rw [lt_fin hx rfl, decide_eq_true_iff]
    exact _root_.not_lt.mpr h0.le
  · rintro (h | h | h)
    · rw [beq_fin hx rfl, decide_eq_true_iff] at h
      exact h0.ne' h
    · exact hn.1 h
    · exact hn.2 h

theorem goSqrt_zero {x : F64} (hx : x.isFin = true) (h0 : x.val = 0) : goSqrt x = x := by
  unfold goSqrt
  rw [if_pos (Or.inl (by rw [beq_fin hx rfl, decide_eq_true_iff]; exact h0))]

/-- C106. The square root of every finite number that is not negative, denormal numbers included, is finite, not negative,
and nearer to the exact root than every other float64: no two float64 are equally near. -/
theorem C106_sqrt {x : F64} (hx : x.isFin = true) (h0 : 0 ≤ x.val) :
    (goSqrt x).isFin = true ∧ 0 ≤ (goSqrt x).val ∧ ∀ z : F64, z.isFin = true → z.val ≠ (goSqrt x).val →
      |((goSqrt x).val : ℝ) - √(x.val : ℝ)| < |(z.val : ℝ) - √(x.val : ℝ)| := by
  rcases eq_or_lt_of_le h0 with h0 | h0
  · rw [goSqrt_zero hx h0.symm]
    refine ⟨hx, h0.le, fun z hz hne => ?_⟩
    rw [← h0] at hne ⊢
    rw [Rat.cast_zero, Real.sqrt_zero, sub_zero, abs_zero, sub_zero, abs_pos]
    exact_mod_cast hne
  · rw [goSqrt_pos hx h0]
    obtain ⟨h1, h2, h3⟩ := sqrtBits_nearest x.val_repr h0
    exact ⟨h1, h2.le, fun z _ hne => h3 z.val z.val_repr hne⟩

/-- C106. So it has a relative error of at most 2^-53 on the whole range of positive numbers. -/
theorem C106_relative_error {x : F64} (hx : x.isFin = true) (h0 : 0 < x.val) :
    0 < (goSqrt x).val ∧ |((goSqrt x).val : ℝ) - √(x.val : ℝ)| ≤ √(x.val : ℝ) / 2 ^ 53 := by
  rw [goSqrt_pos hx h0]
  obtain ⟨h, E, e, b, E1, E2, l1, l2⟩ := sqrtBits_spec x.val_repr h0
  refine ⟨(sqrtBits_nearest x.val_repr h0).2.1, ?_⟩
  have rep : IsRep f64 ((h : ℚ) * pow2 (E - 52)) := sqrt_rep b E1 E2
  rw [e, lit_of_repr rep]
  refine l2.le.trans ?_
  have : ((pow2 E : ℚ) : ℝ) = 2 ^ 53 * ((pow2 (E - 53) : ℚ) : ℝ) := by
    have : pow2 E = ((2 ^ 53 : Nat) : ℚ) * pow2 (E - 53) := by
      rw [show ((2 ^ 53 : Nat) : ℚ) = pow2 53 by decide +kernel, ← pow2_add, show 53 + (E - 53) = E by omega]
    rw [this]; push_cast; ring
  rw [this] at l1
  rw [le_div_iff₀ (by norm_num)]
  linarith

/-- C106. Special cases: both zeros, NaN and +∞ are returned unchanged; the root of a negative number and of -∞ is NaN. -/
theorem C106_special_cases :
    goSqrt zero = zero ∧ goSqrt .nzero = .nzero ∧ goSqrt .nan = .nan ∧ goSqrt (.inf false) = .inf false ∧
    goSqrt (.inf true) = .nan ∧ ∀ x : F64, x.isFin = true → x.val < 0 → goSqrt x = .nan := by
  refine ⟨goSqrt_zero rfl rfl, goSqrt_zero rfl rfl, ?_, ?_, ?_, fun x hx h0 => ?_⟩
  · unfold goSqrt; rw [if_pos (Or.inr (Or.inl rfl))]
  · unfold goSqrt; rw [if_pos (Or.inr (Or.inr rfl))]
  · unfold goSqrt; rw [if_neg (by decide), if_pos (by decide)]
  · have hn : x ≠ .nan ∧ x ≠ .inf false := by constructor <;> (rintro rfl; simp [isFin] at hx)
    unfold goSqrt
    rw [if_neg, if_pos]
    · rw [lt_fin hx rfl, decide_eq_true_iff]; exact h0
    · rintro (h | h | h)
      · rw [beq_fin hx rfl, decide_eq_true_iff] at h
        exact h0.ne h
      · exact hn.1 h
      · exact hn.2 h

theorem fin_eq_of_val {x y : F64} (hx : x.isFin = true) (hy : y.isFin = true) (h : x.val = y.val) (h0 : 0 < y.val) : x = y := by
  cases x with
  | nan => simp [isFin] at hx
  | inf b => simp [isFin] at hx
  | nzero => exact absurd h h0.ne
  | fin p hp =>
    cases y with
    | nan => simp [isFin] at hy
    | inf b => simp [isFin] at hy
    | nzero => exact absurd h0 (lt_irrefl _)
    | fin q hq => change p = q at h; subst h; rfl

/-- C106. A processor's instruction that is rounded correctly, as IEEE 754 requires, yields the same bits for every positive
number: results of package radolan do not depend on which of the two is used. -/
theorem C106_hardware {sqrt' : F64 → F64} {x : F64} (hx : x.isFin = true) (h0 : 0 < x.val) (h1 : (sqrt' x).isFin = true)
    (h2 : ∀ z : F64, z.isFin = true → |((sqrt' x).val : ℝ) - √(x.val : ℝ)| ≤ |(z.val : ℝ) - √(x.val : ℝ)|) :
    sqrt' x = goSqrt x := by
  obtain ⟨g1, _, g3⟩ := C106_sqrt hx h0.le
  refine fin_eq_of_val h1 g1 ?_ (C106_relative_error hx h0).1
  by_contra hne
  exact absurd (h2 _ g1) (_root_.not_le.mpr (g3 _ h1 hne))

/-- C106. The root of a square is exact, and the function never decreases. -/
theorem C106_exact_and_monotone :
    (∀ x y : F64, x.isFin = true → y.isFin = true → 0 < y.val → x.val = y.val * y.val → goSqrt x = y) ∧
    (∀ x y : F64, x.isFin = true → y.isFin = true → 0 ≤ x.val → x.val ≤ y.val → (goSqrt x).val ≤ (goSqrt y).val) := by
  constructor
  · intro x y hx hy h0 hxy
    have hx0 : 0 < x.val := by rw [hxy]; exact mul_pos h0 h0
    have hs : √(x.val : ℝ) = (y.val : ℝ) := by
      rw [hxy, Rat.cast_mul]
      exact Real.sqrt_mul_self (by exact_mod_cast h0.le)
    obtain ⟨g1, _, g3⟩ := C106_sqrt hx hx0.le
    refine fin_eq_of_val g1 hy ?_ h0
    by_contra hne
    have := g3 y hy (Ne.symm hne)
    rw [hs, sub_self, abs_zero] at this
    exact absurd this (_root_.not_lt.mpr (abs_nonneg _))
  · intro x y hx hy h0 hxy
    obtain ⟨g1, _, g3⟩ := C106_sqrt hx h0
    obtain ⟨k1, _, k3⟩ := C106_sqrt hy (h0.trans hxy)
    by_contra hc
    have hc := _root_.not_le.mp hc
    have a1 := g3 _ k1 hc.ne
    have a2 := k3 _ g1 hc.ne'
    have hs : √(x.val : ℝ) ≤ √(y.val : ℝ) := Real.sqrt_le_sqrt (by exact_mod_cast hxy)
    have hc : ((goSqrt y).val : ℝ) < (goSqrt x).val := by exact_mod_cast hc
    generalize ((goSqrt y).val : ℝ) = v at *
    generalize ((goSqrt x).val : ℝ) = u at *
    generalize √(x.val : ℝ) = s at *
    generalize √(y.val : ℝ) = t at *
    -- v < u, |u - s| < |v - s|, |v - t| < |u - t|, s ≤ t
    have b1 := sq_lt_sq.mpr a1
    have b2 := sq_lt_sq.mpr a2
    nlinarith

/-! ### package math -/

variable {M : MathLib} {exp' : F64 → F64} {special : F64 → F64 → F64} {big : F64 → Nat × F64}

/-- the exponential function, the logarithm and the square root are the code of package math, compiled by a conforming
compiler -/
structure GoSource (exp log : F64 → F64) : Prop where
  exp : ∀ x, Observable (expOf (permittedArith noLib) just stored scaled x) (exp x) ∨
    Observable (amdExpOf (permittedArith noLib) just stored scaled x) (exp x)
  log : ∀ x, Observable (logOf (permittedArith noLib) just x) (log x)

theorem C106_elementary {log' : F64 → F64} (h : GoSource exp' log') : GoElementary exp' log' goSqrt where
  exp := h.exp
  log := h.log
  sqrt x hx h0 := by
    obtain ⟨g1, _, g3⟩ := C106_sqrt hx h0
    refine ⟨g1, fun z hz => ?_⟩
    by_cases hne : z.val = (goSqrt x).val
    · rw [hne]
    · exact (g3 z hz hne).le

/-- C106. With the square root in software nothing is assumed about package math but its source code: sine, cosine, tangent,
powers and logarithms are as accurate as the other properties need, however a compiler fuses their operations. -/
theorem C106_library (hT : GoTrig M big) (hP : GoPow M exp' goSqrt special) (hE : GoSource exp' M.log) :
    AccurateMath M ∧ AccuratePowLog M ∧ AccurateLog M ∧ ∀ x : F64, x ≠ lit f64 1 → M.pow x .nan = .nan := by
  obtain ⟨h1, h2, h3⟩ := C104_library hT hP (C106_elementary hE)
  exact ⟨h1, h2, C105_log (C106_elementary hE), h3⟩

/-- Go's package math with the square root in software and every operation rounded: a program without any parameter but the
reduction of huge angles -/
def softMath (amd64 : Bool) (big : F64 → Nat × F64) : MathLib where
  sin := goSin big
  cos := goCos big
  tan := goTan big
  pow := goPow (if amd64 then amdExp else goExp) goLog goSqrt powSpecial
  log10 := goLog10 amd64 goLog
  log := goLog

theorem sample_soft (amd64 : Bool) (big : F64 → Nat × F64) :
    GoTrig (softMath amd64 big) big ∧ GoPow (softMath amd64 big) (if amd64 then amdExp else goExp) goSqrt powSpecial ∧
    GoSource (if amd64 then amdExp else goExp) (softMath amd64 big).log :=
  ⟨C102_separate_rounding (softMath amd64 big) big,
    ⟨fun _ _ => rfl, fun _ => by cases amd64; exact Or.inl rfl; exact Or.inr rfl⟩, by
    cases amd64
    · exact ⟨sample_go.1.exp, sample_go.1.log⟩
    · exact ⟨sample_go.2.exp, sample_go.2.log⟩⟩

/-- C106. The program so obtained meets all assumptions made about package math. -/
theorem C106_go (amd64 : Bool) (big : F64 → Nat × F64) :
    AccurateMath (softMath amd64 big) ∧ AccuratePowLog (softMath amd64 big) ∧ AccurateLog (softMath amd64 big) := by
  obtain ⟨hT, hP, hE⟩ := sample_soft amd64 big
  obtain ⟨h1, h2, h3, _⟩ := C106_library hT hP hE
  exact ⟨h1, h2, h3⟩

/-- C106. Powers with exponent 1/2 and -1/2, which package radolan needs for the Z-R relations with exponent 2: the result is
the same with an instruction that is rounded correctly. -/
theorem C106_square_root_power {M' : MathLib} {sqrt' : F64 → F64} (h : GoPow M exp' goSqrt special)
    (h' : GoPow M' exp' sqrt' special) (hE : GoElementary exp' M'.log sqrt') (hl : M'.log = M.log) {x y : F64}
    (hx : x.isFin = true) (h0 : 0 < x.val) : M'.pow x y = M.pow x y := by
  have hs : sqrt' x = goSqrt x := C106_hardware hx h0 (hE.sqrt x hx h0.le).1 (hE.sqrt x hx h0.le).2
  rw [h.pow, h'.pow, hl]
  unfold goPow
  rw [hs]

/-! ### samples -/

theorem sqrtLoop_value {ix q rem : Nat} (h1 : q * q + rem = 2 ^ 53 * ix) (h2 : 2 ^ 53 * ix < (q + 1) * (q + 1)) (h3 : ix < 2 ^ 55) :
    sqrtLoop (2 ^ 53) 0 0 ix = (q, 2 * rem) := by
  obtain ⟨r, s, l1, l2, l3, _⟩ := sqrtLoop_spec (2 ^ 53 * ix) (by omega) 53 0 ix (by omega) (by ring) (by omega)
  rw [mul_zero] at l1
  have e1 : r ≤ q := by
    by_contra hc
    have : (q + 1) * (q + 1) ≤ r * r := Nat.mul_le_mul (by omega) (by omega)
    omega
  have e2 : q ≤ r := by
    by_contra hc
    have : (r + 1) * (r + 1) ≤ q * q := Nat.mul_le_mul (by omega) (by omega)
    omega
  obtain rfl : r = q := le_antisymm e1 e2
  rw [l1, show s = rem by omega]

/-- the square root of 2, to the last bit -/
theorem sqrt_two : goSqrt (lit f64 2) = lit f64 (6369051672525773 / 2 ^ 52) := by
  rw [goSqrt_pos (by decide +kernel) (by decide +kernel)]
  rw [sqrtBits_eq (m := 2 ^ 52) (e := 1) (q := 12738103345051545) (r := 2 * 3292739303401103) (by decide +kernel) ?_]
  · decide +kernel
  · exact sqrtLoop_value (by norm_num) (by norm_num) (by norm_num)

/-- so is the power with exponent 1/2 -/
example (big : F64 → Nat × F64) : (softMath true big).pow (lit f64 2) (lit f64 (1 / 2)) = lit f64 (6369051672525773 / 2 ^ 52) := by
  rw [← sqrt_two]
  show goPow _ _ _ _ _ _ = _
  unfold goPow
  rw [if_neg (by decide +kernel), if_neg (by decide +kernel), if_neg (by decide +kernel), if_neg (by decide +kernel),
    if_pos (by decide +kernel)]

/-- the roots of denormal numbers and of the square of a large number are exact -/
example : goSqrt (lit f64 (pow2 (-1074))) = lit f64 (pow2 (-537)) ∧ goSqrt (lit f64 (10 ^ 20)) = lit f64 (10 ^ 10) := by
  constructor
  · exact C106_exact_and_monotone.1 _ _ (by decide +kernel) (by decide +kernel) (by decide +kernel) (by decide +kernel)
  · exact C106_exact_and_monotone.1 _ _ (by decide +kernel) (by decide +kernel) (by decide +kernel) (by decide +kernel)

end Props
