/-
Model of /repo/radolan2png/borders.go: the coordinates as float64 values.
-/
import Verif.Model.BorderTable
import Verif.Model.Cli

namespace Radolan.Cli
open Go

/-- borders.go:11-12502: the float64 values of the literals -/
def border : List (F64 × F64) :=
  borderTable.map fun p => (Fl.lit f64 (mkRat p.1 (10 ^ 6)), Fl.lit f64 (mkRat p.2 (10 ^ 6)))

end Radolan.Cli
