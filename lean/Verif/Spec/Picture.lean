/-
A writer of run-length coded picture products (level table and one coded line per row): what a picture says, and its bytes.
-/
import Verif.Spec.EndToEnd
import Verif.Spec.Runlength

namespace Spec
open Go (Bytes str)

/-- a number of tenths in Fortran format F5.1: right justified in five characters, one decimal -/
def f51 (t : Int) : Bytes :=
  let text := (if t < 0 then [45] else []) ++ nat (t.natAbs / 10) ++ str "." ++ nat (t.natAbs % 10)
  List.replicate (5 - text.length) 32 ++ text

/-- three digits -/
def three (n : Nat) : Bytes := asciiDigits [n / 100, n / 10 % 10, n % 10]

/-- a picture product -/
structure Picture where
  /-- two characters -/
  label : Bytes
  /-- WMO number: five digits -/
  wmo : List Nat
  time : Civil
  /-- the levels, in tenths -/
  levels : List Int
  /-- text naming the radar stations used -/
  stations : Bytes
  cols : Nat
  /-- class codes, top row first: 0 is missing, k the k-th level -/
  rows : List (List Nat)
  /-- line number byte of each line -/
  lineNumber : Nat → UInt8

/-- the leading letters of the label (the parser takes them for a key) -/
def Picture.letters (p : Picture) : Bytes := p.label.takeWhile fun b => decide (upper b)

/-- 24 rows of side view above 200 rows of map -/
def Picture.strip (p : Picture) : Bool := decide (p.label ∈ stripProducts)

/-- 12 layers of 200 rows -/
def Picture.volume (p : Picture) : Bool := decide (p.label ∈ volumeProducts)

structure Picture.WF (p : Picture) : Prop where
  /-- a letter, followed by a letter or a digit -/
  label : ∃ a b, p.label = [a, b] ∧ upper a ∧ (upper b ∨ (48 ≤ b ∧ b ≤ 57))
  /-- the label is not one of the header keys -/
  letters : p.letters ∉ knownKeys
  wmo : p.wmo.length = 5 ∧ ∀ d ∈ p.wmo, d < 10
  time : p.time.Valid ∧ 1969 ≤ p.time.year ∧ p.time.year ≤ 2068
  levels : p.levels.length ≤ 99 ∧ ∀ t ∈ p.levels, -999 ≤ t ∧ t ≤ 9999
  stations : p.stations.length < 2 ^ 32 ∧ ∀ b ∈ p.stations, b < 128 ∧ ¬ upper b ∧ b ≠ 3
  /-- the dimensions of local products are fixed, those of others have three digits in the header -/
  size : if p.strip then p.rows.length = 224 ∧ p.cols = 200 else if p.volume then p.rows.length = 2400 ∧ p.cols = 200
    else (1 ≤ p.rows.length ∧ p.rows.length ≤ 999) ∧ 1 ≤ p.cols ∧ p.cols ≤ 999
  rows : ∀ r ∈ p.rows, r.length = p.cols ∧ ∀ k ∈ r, k < 16
  lineNumber : ∀ i, p.lineNumber i ≠ 10

/-- the data section: one encoded line per row -/
def Picture.data (p : Picture) : Bytes := lines (p.rows.mapIdx fun i r => encodeLine (p.lineNumber i) r)

/-- the header fields, given the text of the length field; local products do not declare their dimensions -/
def Picture.fieldsBY (p : Picture) (length : Bytes) : List Field :=
  [ ⟨p.letters, p.label.drop p.letters.length ++ two p.time.day ++ two p.time.hour ++ two p.time.minute
      ++ asciiDigits p.wmo ++ two p.time.month ++ two (p.time.year % 100)⟩,
    ⟨str "BY", length⟩,
    ⟨str "LV", justified 2 p.levels.length ++ (p.levels.map f51).flatten⟩,
    ⟨str "CS", str "0"⟩,
    ⟨str "MX", str " 0"⟩,
    ⟨str "MS", str " " ++ p.stations⟩ ] ++
  if p.strip || p.volume then [] else [⟨str "BG", three p.rows.length ++ three p.cols⟩]

/-- length of header and delimiter; the length field has 20 characters -/
def Picture.headerLength (p : Picture) : Nat := (header (p.fieldsBY (List.replicate 20 32))).length + 1

/-- the header fields; the length field is the length of the whole file -/
def Picture.fields (p : Picture) : List Field := p.fieldsBY (justified 20 (p.headerLength + p.data.length))

/-- the bytes of the file -/
def Picture.serialise (p : Picture) : Bytes := file p.fields p.data

/-- rows and layers of the grid -/
def Picture.height (p : Picture) : Nat := if p.strip || p.volume then 200 else p.rows.length
def Picture.layers (p : Picture) : Nat := if p.volume then 12 else 1

/-- the class code of the pixel in column x of row y in layer z -/
def Picture.code (p : Picture) (x y z : Nat) : Option Nat :=
  (p.rows[if p.strip then 24 + y else 200 * z + y]?).bind (·[x]?)

end Spec
