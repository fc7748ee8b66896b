/-
Which pixel a place belongs to.
-/
import Mathlib.Data.Real.Basic

namespace Spec

/-- `Pos t d u k`: a coordinate `u` on an axis of `d` pixels belongs to column or row `k`, or to none, and is at least `t`
away from a boundary. The strip of one pixel before the first one counts as part of the first one (Go's conversion of
floating point numbers to integers cuts off the fraction). -/
inductive Pos (t : ℝ) (d : Int) (u : ℝ) : Option Nat → Prop where
  | inside {k : Nat} : (k : Int) < d → k + t ≤ u → u < k + 1 - t → Pos t d u (some k)
  | strip : -1 + t < u → u < 1 - t → Pos t d u (some 0)
  | before : u ≤ -1 - t → Pos t d u none
  | behind : d + t ≤ u → Pos t d u none

end Spec
