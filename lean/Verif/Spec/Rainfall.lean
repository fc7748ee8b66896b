/-
The example in the documentation of the package (radolan.go:76-83): rainfall in Berlin.
-/
import Verif.Spec.Reference
import Verif.Go.Float
import Mathlib.Analysis.SpecialFunctions.Pow.Real

namespace Spec
open Go

/-- Where 52.51861 N 13.40833 E lies, in kilometres from the left and the upper edge of a grid. -/
def berlinKm (b : Int × Int) (format : Int) : ℚ × ℚ :=
  if b = (225, 225) then (763.2212, 267.0456)
  else if b = (115, 115) then (773.2176, 277.0466)
  else if b = (225, 275) then (683.2207, 367.0462)
  else if b = (275, 300) then
    if 5 ≤ format then (784.2467, 416.9064) else (783.2196, 417.0454)
  else (913.2175, 517.0450)

/-- The column and row of this place in a grid of one kilometre per pixel. -/
def berlinPixel (b : Int × Int) (format : Int) : Nat × Nat :=
  if b = (225, 225) then (763, 267)
  else if b = (115, 115) then (773, 277)
  else if b = (225, 275) then (683, 367)
  else if b = (275, 300) then
    if 5 ≤ format then (784, 416) else (783, 417)
  else (913, 517)

/-- the reflectivity a file of precision 0 states for a raw number -/
def statedDbz (raw : Option Int) : Option ℚ := raw.map fun r => (r : ℚ) / 2 - 65 / 2

/-- `RainOf d R`: `R` is the rainfall rate in mm/h, to ten digits, of a reflectivity of `d` dBZ after Doelling 1998
(Z = 316 R^1.5 with 10 log10 Z = d), and NaN when there are no data. -/
def RainOf : Option ℚ → F64 → Prop
  | none, R => R = .nan
  | some d, R => R.isFin = true ∧ ∃ S : ℝ, 0 < S ∧ 316 * S ^ (3 / 2 : ℝ) = 10 ^ ((d : ℝ) / 10) ∧ |(R.val : ℝ) - S| ≤ S / 10 ^ 10

end Spec
