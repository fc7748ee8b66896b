/-
Model of /repo/catalog.go.
-/
import Verif.Model.Types

namespace Radolan
open Go

/-- catalog.go:3-12 -/
structure Spec where
  px : Int
  py : Int
  dx : Int
  dy : Int
  rx : Int
  ry : Int
  deriving DecidableEq, Repr

/-- catalog.go:15-30 (rx, ry are integer float64 constants) -/
def dimensionCatalog : List (Bytes × Spec) :=
  [ (str "OL", ⟨200, 224, 200, 200, 2, 2⟩),
    (str "OX", ⟨200, 224, 200, 200, 1, 1⟩),
    (str "PD", ⟨200, 224, 200, 200, 1, 1⟩),
    (str "PE", ⟨200, 224, 200, 200, 2, 2⟩),
    (str "PF", ⟨200, 224, 200, 200, 1, 1⟩),
    (str "PH", ⟨200, 224, 200, 200, 1, 1⟩),
    (str "PL", ⟨200, 224, 200, 200, 2, 2⟩),
    (str "PM", ⟨200, 224, 200, 200, 2, 2⟩),
    (str "PR", ⟨200, 224, 200, 200, 1, 1⟩),
    (str "PU", ⟨200, 2400, 200, 200, 1, 1⟩),
    (str "PV", ⟨200, 224, 200, 200, 1, 1⟩),
    (str "PX", ⟨200, 224, 200, 200, 1, 1⟩),
    (str "PY", ⟨200, 224, 200, 200, 1, 1⟩),
    (str "PZ", ⟨200, 2400, 200, 200, 2, 2⟩) ]

/-- catalog.go:46-115 -/
def unitCatalog : List (Bytes × Int) :=
  [ (str "CH", Unit_mm),
    (str "CX", Unit_dBZ),
    (str "D2", Unit_mm),
    (str "D3", Unit_mm),
    (str "EA", Unit_dBZ),
    (str "EB", Unit_mm),
    (str "EC", Unit_mm),
    (str "EH", Unit_mm),
    (str "EM", Unit_mm),
    (str "EW", Unit_mm),
    (str "EX", Unit_dBZ),
    (str "EY", Unit_mm),
    (str "EZ", Unit_mm),
    (str "FX", Unit_dBZ),
    (str "FZ", Unit_dBZ),
    (str "HX", Unit_dBZ),
    (str "OL", Unit_dBZ),
    (str "OX", Unit_dBZ),
    (str "PA", Unit_dBZ),
    (str "PC", Unit_dBZ),
    (str "PD", Unit_mps),
    (str "PE", Unit_km),
    (str "PF", Unit_dBZ),
    (str "PG", Unit_dBZ),
    (str "PH", Unit_mm),
    (str "PI", Unit_dBZ),
    (str "PK", Unit_dBZ),
    (str "PL", Unit_dBZ),
    (str "PM", Unit_dBZ),
    (str "PN", Unit_dBZ),
    (str "PR", Unit_mps),
    (str "PU", Unit_mps),
    (str "PV", Unit_mps),
    (str "PX", Unit_dBZ),
    (str "PY", Unit_mm),
    (str "PZ", Unit_dBZ),
    (str "RA", Unit_mm),
    (str "RB", Unit_mm),
    (str "RE", Unit_mm),
    (str "RH", Unit_mm),
    (str "RK", Unit_mm),
    (str "RL", Unit_mm),
    (str "RM", Unit_mm),
    (str "RN", Unit_mm),
    (str "RQ", Unit_mm),
    (str "RR", Unit_mm),
    (str "RU", Unit_mm),
    (str "RW", Unit_mm),
    (str "RX", Unit_dBZ),
    (str "RY", Unit_mm),
    (str "RZ", Unit_mm),
    (str "S2", Unit_mm),
    (str "S3", Unit_mm),
    (str "SF", Unit_mm),
    (str "SH", Unit_mm),
    (str "SQ", Unit_mm),
    (str "TB", Unit_mm),
    (str "TH", Unit_mm),
    (str "TW", Unit_mm),
    (str "TX", Unit_dBZ),
    (str "TZ", Unit_mm),
    (str "W1", Unit_mm),
    (str "W2", Unit_mm),
    (str "W3", Unit_mm),
    (str "W4", Unit_mm),
    (str "WN", Unit_dBZ),
    (str "WX", Unit_dBZ),
    (str "YW", Unit_mm) ]

/-- catalog.go:42-44, `Unit.String`: indexing a five element slice; `none` is the panic. -/
def unitString (u : Int) : Option String :=
  index? ["unknown unit", "mm", "dBZ", "km", "m/s"] u

end Radolan
