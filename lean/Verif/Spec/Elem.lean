/-
Exponential, logarithm and square root of package math as a conforming Go compiler may translate them: every evaluation
of the code of Model/Elem.lean with separate, fused or unrounded operations.
-/
import Verif.Model.Elem
import Verif.Spec.Fusion
import Mathlib.Analysis.SpecialFunctions.Pow.Real

namespace Spec.Elem
open Go Radolan Radolan.Elem Radolan.Trig Spec.Fusion

/-- the results of `f` of a variable, for every float64 that may be stored in the variable -/
def stored (v : Inter → Prop) (f : F64 → Inter → Prop) : Inter → Prop := fun w => ∃ x, Observable v x ∧ f x w

/-- all results of `math.Ldexp` -/
def scaled (v : Inter → Prop) (k : Int) : Inter → Prop := call (ldexp · k) v

/-- `exp` is one of the two exponential functions of Go's package math, `log` its logarithm, compiled by a conforming
compiler; `sqrt` is rounded correctly (an instruction of the processor; IEEE 754 requires it): no float64 is nearer to
the square root. -/
structure GoElementary (exp log sqrt : F64 → F64) : Prop where
  exp : ∀ x, Observable (expOf (permittedArith noLib) just stored scaled x) (exp x) ∨
    Observable (amdExpOf (permittedArith noLib) just stored scaled x) (exp x)
  log : ∀ x, Observable (logOf (permittedArith noLib) just x) (log x)
  sqrt : ∀ x : F64, x.isFin = true → 0 ≤ x.val → (sqrt x).isFin = true ∧
    ∀ z : F64, z.isFin = true → |((sqrt x).val : ℝ) - Real.sqrt x.val| ≤ |(z.val : ℝ) - Real.sqrt x.val|

end Spec.Elem
