/-
A writer of RADOLAN files with the fixed width encodings: what a file says, and its bytes.
-/
import Verif.Spec.Calendar
import Verif.Spec.Pixels

namespace Spec
open Go (Bytes str)

/-- decimal digits of a number, most significant first, without leading zeros -/
def digits (n : Nat) : List Nat := if n < 10 then [n] else digits (n / 10) ++ [n % 10]

def nat (n : Nat) : Bytes := asciiDigits (digits n)

/-- a number with sign, as in "E-01" -/
def signed (n : Int) : Bytes := if n < 0 then [45] ++ nat n.natAbs else [43] ++ nat n.natAbs

/-- right justified in `w` characters -/
def justified (w n : Nat) : Bytes := List.replicate (w - (nat n).length) 32 ++ nat n

/-- the contents of a composite product -/
structure Content where
  /-- two characters -/
  label : Bytes
  /-- WMO number: five digits -/
  wmo : List Nat
  time : Civil
  /-- format version -/
  format : Nat
  /-- interval in minutes (for W1..W4: in ten minutes) -/
  interval : Nat
  /-- forecast offset in minutes -/
  forecast : Nat
  /-- decimal exponent of the data -/
  precision : Int
  rows : Nat
  cols : Nat
  /-- two bytes per pixel instead of one -/
  wide : Bool
  /-- the data section, bottom row first -/
  data : Bytes

/-- bytes per pixel -/
def Content.depth (p : Content) : Nat := if p.wide then 2 else 1

/-- the leading letters of the label (the parser takes them for a key) -/
def Content.letters (p : Content) : Bytes := p.label.takeWhile fun b => decide (upper b)

structure Content.WF (p : Content) : Prop where
  /-- a letter, followed by a letter or a digit -/
  label : ∃ a b, p.label = [a, b] ∧ upper a ∧ (upper b ∨ (48 ≤ b ∧ b ≤ 57))
  /-- the label is not one of the header keys -/
  letters : p.letters ∉ knownKeys
  wmo : p.wmo.length = 5 ∧ ∀ d ∈ p.wmo, d < 10
  time : p.time.Valid ∧ 1969 ≤ p.time.year ∧ p.time.year ≤ 2068
  format : p.format < 2 ^ 63
  interval : p.interval ≤ 15372286
  forecast : p.forecast ≤ 153722867
  precision : -(2 ^ 63) < p.precision ∧ p.precision < 2 ^ 63
  rows : 1 ≤ p.rows ∧ p.rows ≤ 10 ^ 9
  cols : 1 ≤ p.cols ∧ p.cols ≤ 10 ^ 9
  data : p.data.length = p.depth * (p.rows * p.cols)

/-- the header fields, given the text of the length field -/
def Content.fieldsBY (p : Content) (length : Bytes) : List Field :=
  [ ⟨p.letters, p.label.drop p.letters.length ++ two p.time.day ++ two p.time.hour ++ two p.time.minute
      ++ asciiDigits p.wmo ++ two p.time.month ++ two (p.time.year % 100)⟩,
    ⟨str "BY", length⟩,
    ⟨str "VS", justified 2 p.format⟩,
    ⟨str "PR", str " "⟩,
    ⟨str "E", signed p.precision⟩,
    ⟨str "INT", justified 4 p.interval⟩,
    ⟨str "GP", justified 4 p.rows ++ str "x" ++ justified 4 p.cols⟩,
    ⟨str "VV", str " " ++ nat p.forecast⟩ ]

/-- length of header and delimiter; the length field has 20 characters -/
def Content.headerLength (p : Content) : Nat := (header (p.fieldsBY (List.replicate 20 32))).length + 1

/-- the header fields; the length field is the length of the whole file -/
def Content.fields (p : Content) : List Field :=
  p.fieldsBY (justified 20 (p.headerLength + p.depth * (p.rows * p.cols)))

/-- the bytes of the file -/
def Content.serialise (p : Content) : Bytes := file p.fields p.data

/-- the value of the pixel in column x of row y (row 0 on top), in Go's float32 arithmetic -/
def Content.pixel (p : Content) (dBZ : Bool) (x y : Nat) : Option Go.F32 :=
  let i := (p.rows - 1 - y) * p.cols + x
  if p.wide then
    match p.data[2 * i]?, p.data[2 * i + 1]? with
    | some lo, some hi => some (pairValue dBZ p.precision lo.toNat hi.toNat)
    | _, _ => none
  else (p.data[i]?).map fun b => byteValue dBZ p.precision b.toNat

end Spec
