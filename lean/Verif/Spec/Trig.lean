/-
The trigonometric functions of package math as a conforming Go compiler may translate them: every evaluation of the
code of Model/Trig.lean with separate, fused or unrounded operations.
-/
import Verif.Model.Trig
import Verif.Spec.Fusion

namespace Spec.Trig
open Go Radolan Radolan.Trig Spec.Fusion

/-- the results of `if zz > 1e-14 { a } else { b }`: `a` if some possible value of `zz` is larger, `b` if some is not -/
def larger (zz a b : Inter → Prop) : Inter → Prop := fun w =>
  (∃ x, Observable zz x ∧ Fl.lt (Fl.lit f64 (1 / 10 ^ 14)) x = true ∧ a w) ∨
  (∃ x, Observable zz x ∧ Fl.lt (Fl.lit f64 (1 / 10 ^ 14)) x = false ∧ b w)

/-- the sine, cosine and tangent of `M` are the ones of Go's package math, compiled by a conforming compiler -/
structure GoTrig (M : MathLib) (big : F64 → Nat × F64) : Prop where
  sin : ∀ x, Observable (sinOf (permittedArith noLib) just big x) (M.sin x)
  cos : ∀ x, Observable (cosOf (permittedArith noLib) just big x) (M.cos x)
  tan : ∀ x, Observable (tanOf (permittedArith noLib) just larger big x) (M.tan x)

end Spec.Trig
