/-
What radolan2png is expected to print.
-/
import Verif.Spec.Clock
import Verif.Spec.Units
import Verif.Spec.EndToEnd

namespace Spec
open Go (Bytes str)

/-- a civil time as text: 2006-01-02 15:04:00 +0000 UTC -/
def Civil.text (t : Civil) : Bytes :=
  asciiDigits [t.year / 1000, t.year / 100 % 10, t.year / 10 % 10, t.year % 10] ++ str "-" ++ two t.month ++ str "-" ++ two t.day ++
    str " " ++ two t.hour ++ str ":" ++ two t.minute ++ str ":00 +0000 UTC"

def Unit.name : Unit → Bytes
  | .mm => str "mm"
  | .dBZ => str "dBZ"
  | .km => str "km"
  | .mps => str "m/s"

/-- product, unit and time -/
def summaryLine (label : Bytes) (u : Unit) (t : Civil) : Bytes :=
  label ++ str "-Image (" ++ u.name ++ str ") showing " ++ t.text ++ str "\n"

/-- edges of the grid in kilometres -/
def gridLine (width height : Nat) : Bytes :=
  str "detected grid: " ++ nat width ++ str ".0 km * " ++ nat height ++ str ".0 km\n"

/-- minutes later on the calendar -/
def Civil.after (t : Civil) : Nat → Civil
  | 0 => t
  | n + 1 => (t.after n).tick

end Spec
