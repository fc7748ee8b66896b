/-
What radolan2png writes to the standard output.
-/
import Verif.Model.CliIO
import Verif.Model.Catalog
import Verif.Go.Text

namespace Radolan.CliIO
open Go

/-- radolan2png.go:25-26, 42, 69: the text of an event. (`Unit.String` cannot fail on a parsed composite, C26; if it did,
fmt would print another text.) -/
def Event.text : Event → Bytes
  | .usage prog => str "radolan2png converts radolan composite files to png images.\n\n\tUsage: " ++ prog ++
      str " <input> <output.png>\n\n"
  | .summary product unit forecast => product ++ str "-Image (" ++ ((unitString unit).map str).getD [] ++
      str ") showing " ++ timeString forecast ++ str "\n"
  | .gridSize w h => str "detected grid: " ++ fixed1 w ++ str " km * " ++ fixed1 h ++ str " km\n"
  | _ => []

/-- the standard output after a sequence of events -/
def stdout (es : List Event) : Bytes := es.flatMap Event.text

end Radolan.CliIO
