/-
Which places radolan2png marks on the map.
-/
import Mathlib.Data.Real.Basic

namespace Spec

/-- The mesh, by tenths of a degree north and east: points every tenth of a degree on the parallels of 46, ..., 54 degrees
and on the meridians of 1, 2, 3, 4 and 5.1, 6.1, ..., 15.1 degrees. -/
def MeshPlace (n e : Nat) : Prop :=
  460 ≤ n ∧ n < 550 ∧ 10 ≤ e ∧ e ≤ 160 ∧
    (n % 10 = 0 ∨ e ∈ [10, 20, 30, 40, 51, 61, 71, 81, 91, 101, 111, 121, 131, 141, 151])

/-- A coordinate `u` lies on the pixel `k` of an axis or within `t` of it; the strip of one pixel before the first one
counts as part of the first one. -/
def Touches (t u : ℝ) (k : Nat) : Prop := (k - t ≤ u ∨ k = 0 ∧ -1 - t ≤ u) ∧ u ≤ k + 1 + t

end Spec
