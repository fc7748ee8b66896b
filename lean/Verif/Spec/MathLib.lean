/-
An accuracy contract for the functions of Go's math package that are parameters of the model. Go documents no error
bounds; the contracts are the assumptions under which C54 and C57 are stated. They are met by any library with errors of a few units
in the last place (see the correctly rounded library in Props/FloatProjection.lean).
-/
import Verif.Model.Arith
import Mathlib.Analysis.SpecialFunctions.Trigonometric.Basic
import Mathlib.Analysis.SpecialFunctions.Pow.Real
import Mathlib.Analysis.SpecialFunctions.Log.Base

namespace Spec
open Go Radolan

/-- sine and cosine up to 8 rad are finite and within 10^-15 of the true values, the tangent up to 1.2 rad is within 10^-14
(C102: Go's own code is), and powers of numbers in [1/2, 2] with exponents in [0, 1/10] are within 5·10^-15 (C104: Go's own
code is) -/
structure AccurateMath (M : MathLib) : Prop where
  sin : ∀ x : F64, x.isFin = true → |(x.val : ℝ)| ≤ 8 →
    (M.sin x).isFin = true ∧ |((M.sin x).val : ℝ) - Real.sin x.val| ≤ 1 / 10 ^ 15
  cos : ∀ x : F64, x.isFin = true → |(x.val : ℝ)| ≤ 8 →
    (M.cos x).isFin = true ∧ |((M.cos x).val : ℝ) - Real.cos x.val| ≤ 1 / 10 ^ 15
  tan : ∀ x : F64, x.isFin = true → |(x.val : ℝ)| ≤ 6 / 5 →
    (M.tan x).isFin = true ∧ |((M.tan x).val : ℝ) - Real.tan x.val| ≤ 1 / 10 ^ 14
  pow : ∀ x y : F64, x.isFin = true → y.isFin = true → 1 / 2 ≤ (x.val : ℝ) ∧ (x.val : ℝ) ≤ 2 →
    0 ≤ (y.val : ℝ) ∧ (y.val : ℝ) ≤ 1 / 10 →
    (M.pow x y).isFin = true ∧ |((M.pow x y).val : ℝ) - (x.val : ℝ) ^ (y.val : ℝ)| ≤ 5 / 10 ^ 15

/-- powers of numbers in [1, 10^4] with exponents up to 200 that lie between e^-100 and e^100 have a relative error of at
most 10^-13 (the error of Go's code grows with the exponent), decadic logarithms of numbers between e^-100 and e^100 an error of at most 10^-13 -/
structure AccuratePowLog (M : MathLib) : Prop where
  pow : ∀ x y : F64, x.isFin = true → y.isFin = true → 1 ≤ (x.val : ℝ) → (x.val : ℝ) ≤ 10 ^ 4 →
    |(y.val : ℝ)| ≤ 200 → |(y.val : ℝ) * Real.log x.val| ≤ 100 →
    (M.pow x y).isFin = true ∧
      |((M.pow x y).val : ℝ) - (x.val : ℝ) ^ (y.val : ℝ)| ≤ (x.val : ℝ) ^ (y.val : ℝ) / 10 ^ 13
  log10 : ∀ x : F64, x.isFin = true → 0 < (x.val : ℝ) → |Real.log x.val| ≤ 100 →
    (M.log10 x).isFin = true ∧ |((M.log10 x).val : ℝ) - Real.logb 10 x.val| ≤ 1 / 10 ^ 13

/-- natural logarithms have an error of at most 10^-12; zero, negative numbers, infinities and NaN are treated as
documented in package math -/
structure AccurateLog (M : MathLib) : Prop where
  log : ∀ x : F64, x.isFin = true → 0 < (x.val : ℝ) →
    (M.log x).isFin = true ∧ |((M.log x).val : ℝ) - Real.log x.val| ≤ 1 / 10 ^ 12
  zero : ∀ x : F64, x.isFin = true → x.val = 0 → M.log x = .inf true
  neg : ∀ x : F64, (x.isFin = true ∧ x.val < 0) ∨ x = .inf true → M.log x = .nan
  inf : M.log (.inf false) = .inf false
  nan : M.log .nan = .nan

end Spec
