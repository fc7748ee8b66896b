/-
Exact real arithmetic as an instance of the arithmetic interface: the code of projection*.go and
conversion.go with every operation exact and math.Pi, math.Sin, ... replaced by the real functions.
-/
import Verif.Model.Conversion
import Mathlib.Analysis.SpecialFunctions.Trigonometric.Basic
import Mathlib.Analysis.SpecialFunctions.Pow.Real
import Mathlib.Analysis.SpecialFunctions.Log.Base

namespace Radolan

noncomputable def realArith : Arith ℝ where
  add := (· + ·)
  sub := (· - ·)
  mul := (· * ·)
  div := (· / ·)
  neg := (- ·)
  lit q := (q : ℝ)
  piMul q := Real.pi * (q : ℝ)
  ofInt n := (n : ℝ)
  nan := 0 -- no real number; only reached without a projection
  sin := Real.sin
  cos := Real.cos
  tan := Real.tan
  pow := fun x y => x ^ y
  log10 := Real.logb 10

end Radolan
