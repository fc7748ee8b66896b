/-
Which products are measured in which unit (RADOLAN/RADVOR-OP composite format), grouped by unit.
-/
import Verif.Spec.Api

namespace Spec
open Go Radolan

inductive Unit where
  | mm | dBZ | km | mps

/-- the exported constant for a unit -/
def Unit.code : Unit → Int
  | .mm => Unit_mm
  | .dBZ => Unit_dBZ
  | .km => Unit_km
  | .mps => Unit_mps

def productsIn : Unit → List Bytes
  | .mm => ["CH", "D2", "D3", "EB", "EC", "EH", "EM", "EW", "EY", "EZ", "PH", "PY", "RA", "RB", "RE", "RH", "RK",
      "RL", "RM", "RN", "RQ", "RR", "RU", "RW", "RY", "RZ", "S2", "S3", "SF", "SH", "SQ", "TB", "TH", "TW", "TZ",
      "W1", "W2", "W3", "W4", "YW"].map str
  | .dBZ => ["CX", "EA", "EX", "FX", "FZ", "HX", "OL", "OX", "PA", "PC", "PF", "PG", "PI", "PK", "PL", "PM", "PN",
      "PX", "PZ", "RX", "TX", "WN", "WX"].map str
  | .km => ["PE"].map str
  | .mps => ["PD", "PR", "PU", "PV"].map str

end Spec
