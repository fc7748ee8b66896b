/-
What a file states, whatever its header says: attributes and pixels.
-/
import Verif.Spec.Reading
import Verif.Spec.Api
import Verif.Spec.Pixels
import Verif.Spec.Units

namespace Spec
open Go (Bytes str F32)

namespace Head
variable (H : Head)

/-- the number in the field `k`, zero if there is no such field -/
def Says (k : String) (n : Int) : Prop :=
  match H.val (str k) with
  | none => n = 0
  | some v => ReadsInt v n

/-- an integer reduced to 64 bits, two's complement -/
def reduced (n : Int) : Int := Int.bmod n (2 ^ 64)

/-- nanoseconds per minute -/
def minute : Int := 60 * 1000000000

/-- the interval is stated in units of ten minutes -/
def tens : Bool := H.text.take 2 ∈ [str "W1", str "W2", str "W3", str "W4"]

/-- what the header says about the composite -/
structure Attributes (c : Radolan.Composite) : Prop where
  label : c.product = H.text.take 2
  stored : H.Declares c.py c.px
  width : c.dx = c.px
  height : c.dy = if H.val (str "GP") = none ∧ H.val (str "BG") = none then 200 else c.py
  format : H.Says "VS" c.format
  capture : ∃ t, StampedAt H.text t ∧ c.captureTime = t.instant
  forecast : ∃ n, H.Says "VV" n ∧ c.forecastTime = c.captureTime + reduced (n * minute)
  interval : ∃ n, H.Says "INT" n ∧ c.interval = reduced (n * minute * if H.tens then 10 else 1)

/-- the pixels of a file without level field: row `y`, counted from the top, is row `Py - 1 - y` of the data section, one
or two bytes for a pixel -/
def Bytewise (data : Bytes) (c : Radolan.Composite) : Prop :=
  ∃ n p, H.Announces n ∧ H.Says "E" p ∧ ∀ x y : Nat, (x : Int) < c.px → (y : Int) < c.py →
    (H.Sized n c.py c.px 2 →
      ∃ lo hi, data[2 * ((c.py.toNat - 1 - y) * c.px.toNat + x)]? = some lo ∧
        data[2 * ((c.py.toNat - 1 - y) * c.px.toNat + x) + 1]? = some hi ∧
        plain c y x = some (pairValue (decide (c.dataUnit = Unit.dBZ.code)) p lo.toNat hi.toNat)) ∧
    (¬ H.Sized n c.py c.px 2 →
      H.Sized n c.py c.px 1 ∧ ∃ b, data[(c.py.toNat - 1 - y) * c.px.toNat + x]? = some b ∧
        plain c y x = some (byteValue (decide (c.dataUnit = Unit.dBZ.code)) p b.toNat))

/-- the pixels of a file with level field `v`: row `y` is what line `y` of the data section means, given its level table -/
def Linewise (v data : Bytes) (c : Radolan.Composite) : Prop :=
  ∃ (levels : List F32) (ls : List Bytes) (rest : Bytes), Levels v levels ∧ data = lines ls ++ rest ∧
    (ls.length : Int) = c.py ∧ (∀ l ∈ ls, (10 : UInt8) ∉ l) ∧ List.Forall₂ (Decodes levels c.px.toNat) ls c.plainData

end Head

end Spec
