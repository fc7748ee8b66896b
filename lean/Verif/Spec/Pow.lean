/-
Assumptions about math.Exp, math.Log and math.Sqrt, and math.Pow and math.Log10 as Go computes them from these.
-/
import Verif.Model.Pow
import Mathlib.Analysis.SpecialFunctions.Pow.Real

namespace Spec.Pow
open Go Radolan Radolan.Pow

/-- the exponential of numbers up to 5 has a relative error of at most 22·10^-16 (ten units in the last place), the
logarithm of numbers between 1/2 and 10^4 an error of at most 4·10^-16 (relative to 1 + the logarithm), the square root
a relative error of at most 3·10^-16: about two units in the last place each -/
structure AccurateElementary (exp log sqrt : F64 → F64) : Prop where
  exp : ∀ x : F64, x.isFin = true → |(x.val : ℝ)| ≤ 5 →
    (exp x).isFin = true ∧ |((exp x).val : ℝ) - Real.exp x.val| ≤ Real.exp x.val * (22 / 10 ^ 16)
  log : ∀ x : F64, x.isFin = true → 1 / 2 ≤ (x.val : ℝ) → (x.val : ℝ) ≤ 10 ^ 4 →
    (log x).isFin = true ∧ |((log x).val : ℝ) - Real.log x.val| ≤ (1 + |Real.log x.val|) * (4 / 10 ^ 16)
  sqrt : ∀ x : F64, x.isFin = true → 1 / 2 ≤ (x.val : ℝ) → (x.val : ℝ) ≤ 10 ^ 4 →
    (sqrt x).isFin = true ∧ |((sqrt x).val : ℝ) - Real.sqrt x.val| ≤ Real.sqrt x.val * (3 / 10 ^ 16)

/-- the power and the decadic logarithm of `M` are those of Go's package math, compiled by a conforming compiler -/
structure GoPow (M : MathLib) (exp sqrt : F64 → F64) (special : F64 → F64 → F64) : Prop where
  pow : ∀ x y, M.pow x y = goPow exp M.log sqrt special x y
  log10 : ∀ x, M.log10 x = goLog10 false M.log x ∨ M.log10 x = goLog10 true M.log x

end Spec.Pow
