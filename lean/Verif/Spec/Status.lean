/-
Which files radolan2png can draw.
-/
import Verif.Spec.Content

namespace Spec
open Go (Bytes str)

/-- the product label of the header is in the catalogue of units -/
def Listed (H : Head) : Prop := ∃ u, H.text.take 2 ∈ productsIn u

/-- the picture can be held in memory: four bytes for each pixel, all rows (200 rows if no grid is declared, the height
of the radar image of a local product) -/
def Drawable (H : Head) : Prop :=
  ∃ rows cols, H.Declares rows cols ∧
    4 * (cols * if H.val (str "GP") = none ∧ H.val (str "BG") = none then 200 else rows) ≤ 2 ^ 48

end Spec
