/-
The checks a file has to pass, in order, and the error text that belongs to each.
-/
import Verif.Spec.Accept
import Verif.Spec.Numeral

namespace Spec
open Go (Bytes str)

/-- `text` belongs to the first check of the list that fails -/
def FirstFailing (checks : List (String × Prop)) (text : String) : Prop :=
  ∃ pre P post, checks = pre ++ (text, P) :: post ∧ (∀ q ∈ pre, q.2) ∧ ¬ P

/-- all checks succeed -/
def Passed (checks : List (String × Prop)) : Prop := ∀ q ∈ checks, q.2

/-- the field `k`, if present, begins with a number -/
def Numeric (fs : List Field) (k : String) : Prop := ∀ v, value fs (str k) = some v → ∃ n, ReadsInt v n

/-- the length field announces `n` bytes -/
def Announces (fs : List Field) (n : Int) : Prop := ∃ v, value fs (str "BY") = some v ∧ ReadsInt v n

/-- The checks of the header, in the order of the error texts.  -/
def headerChecks (fs : List Field) : List (String × Prop) := [
  ("radolan.parseHeader: header corrupted: too short", 21 ≤ (header fs).length),
  ("radolan.parseHeader: could not parse data length: ", ∃ n, Announces fs n),
  ("radolan.parseHeader: could not parse capture time: ", Stamped (header fs)),
  ("radolan.parseHeader: could not parse forecast time: ", Numeric fs "VV"),
  ("radolan.parseHeader: could not parse interval: ", Numeric fs "INT"),
  ("radolan.parseHeader: could not parse dimensions (GP): ",
    ∀ v, value fs (str "GP") = some v → ∃ rows cols, ReadsGrid v rows cols),
  ("radolan.parseHeader: could not parse dimensions (BG): ",
    value fs (str "GP") = none → ∀ v, value fs (str "BG") = some v → ∃ rows cols, ReadsGrid3 v rows cols),
  ("radolan.parseHeader: no dimension information available",
    value fs (str "GP") = none → value fs (str "BG") = none →
      (header fs).take 2 ∈ stripProducts ∨ (header fs).take 2 ∈ volumeProducts),
  ("radolan.parseHeader: could not parse precision: ", Numeric fs "E"),
  ("radolan.parseHeader: level field too short", ∀ v, value fs (str "LV") = some v → 2 ≤ v.length),
  ("radolan.parseHeader: could not parse level count: ",
    ∀ v, value fs (str "LV") = some v → ∃ n, ReadsInt (v.take 2) n),
  ("radolan.parseHeader: invalid level format: ",
    ∀ v, value fs (str "LV") = some v → ∀ n, ReadsInt (v.take 2) n → (v.length : Int) = 2 + 5 * n),
  ("radolan.parseHeader: invalid level value: ",
    ∀ v, value fs (str "LV") = some v → ∀ i, 2 + 5 * i < v.length → IsLevelText ((v.drop (2 + 5 * i)).take 5)),
  ("radolan.parseHeader: invalid format value: ", Numeric fs "VS")]

/-- `l` is line `i` (from zero) of `data` -/
def LineOf (data : Bytes) (i : Nat) (l : Bytes) : Prop :=
  ∃ ls rest, data = lines ls ++ l ++ 10 :: rest ∧ ls.length = i ∧ (∀ m ∈ ls, (10 : UInt8) ∉ m) ∧ (10 : UInt8) ∉ l

/-- after the line number and continued offset bytes comes an offset byte below 16 -/
def BadOffset (l : Bytes) : Prop :=
  ∃ (nr : UInt8) (more : Nat) (b : UInt8) (rest : Bytes), l = nr :: (List.replicate more 255 ++ b :: rest) ∧ b < 16

/-- the checks of line `i` of a run-length coded picture with `cols` columns -/
def lineChecks (cols : Int) (data : Bytes) (i : Nat) : List (String × Prop) := [
  ("radolan.readLineRunlength: ", ∃ l, LineOf data i l),
  ("radolan.decodeRunlength: invalid offset value", ∀ l, LineOf data i l → ¬ BadOffset l),
  ("radolan.decodeRunlength: destination size exceeded",
    ∀ l, LineOf data i l → ∀ gap runs, RunLine l gap runs → Fits cols.toNat gap runs)]

/-- the announced length `n` is that of header, delimiter and `k` bytes for each pixel (computed with 64 bits) -/
def Sized (fs : List Field) (n rows cols k : Int) : Prop :=
  (2 ^ 64 : Int) ∣ n - ((header fs).length + 1 + k * (rows * cols))

/-- The checks of the data section behind a header announcing `n` bytes and a grid of `rows` times `cols` pixels. -/
def dataChecks (fs : List Field) (n rows cols : Int) (data : Bytes) : List (String × Prop) :=
  ("radolan.parseData: parsed header data required", rows ≠ 0 ∧ cols ≠ 0) ::
  if value fs (str "LV") = none then [
    ("radolan.parseUnknown: unknown encoding", Sized fs n rows cols 2 ∨ Sized fs n rows cols 1),
    ("radolan.readLineLittleEndian: ", Sized fs n rows cols 2 → 2 * (rows * cols) ≤ data.length),
    ("radolan.readLineSingleByte: ", ¬ Sized fs n rows cols 2 → rows * cols ≤ data.length)]
  else (List.range rows.toNat).flatMap (lineChecks cols data)

/-- `text` names what is wrong with the file made of header `fs` and `data`: the first header check that fails, or, all
of them passed, the first data check that fails -/
def Diagnosis (fs : List Field) (data : Bytes) (text : String) : Prop :=
  FirstFailing (headerChecks fs) text ∨
  (Passed (headerChecks fs) ∧ ∃ n rows cols, Announces fs n ∧ Declares fs rows cols ∧
    FirstFailing (dataChecks fs n rows cols data) text)

end Spec
