/-
Which headers are readable: the exact texts.
-/
import Verif.Spec.Numeral

namespace Spec
open Go (Bytes str)

/-- `text` begins with the number `n` -/
def ReadsInt (text : Bytes) (n : Int) : Prop := ∃ rest, Number text n rest

/-- `text` begins with two numbers with an x between them -/
def ReadsGrid (text : Bytes) (rows cols : Int) : Prop := ∃ mid rest, Number text rows (120 :: mid) ∧ Number mid cols rest

/-- like `Number`, but sign and digits are at most three characters, and a digit may follow if they are exactly three -/
def Number3 (text : Bytes) (n : Int) (rest : Bytes) : Prop :=
  ∃ (ws : Bytes) (sign : Sign) (ds : List Nat), text = ws ++ sign.text ++ asciiDigits ds ++ rest ∧
    Blank ws ∧ ds ≠ [] ∧ (∀ d ∈ ds, d < 10) ∧ (sign.text ++ asciiDigits ds).length ≤ 3 ∧
    ((sign.text ++ asciiDigits ds).length = 3 ∨ ∀ b ∈ rest.head?, ¬ IsDigit b) ∧ n = sign.apply (decimal ds)

/-- `text` begins with two numbers of at most three characters -/
def ReadsGrid3 (text : Bytes) (rows cols : Int) : Prop := ∃ mid rest, Number3 text rows mid ∧ Number3 mid cols rest

/-- the header states the date and time `t`: day, hour, minute in characters 3 to 8, month and year in characters 14 to
17. Go reads the year also from a sign and one digit. -/
def StampedAt (header : Bytes) (t : Civil) : Prop :=
  t.Valid ∧ 1969 ≤ t.year ∧ t.year ≤ 2068 ∧
    (header.drop 2).take 6 = two t.day ++ two t.hour ++ two t.minute ∧ (header.drop 13).take 2 = two t.month ∧
    ((header.drop 15).take 2 = two (t.year % 100) ∨
      ∃ k < 10, ((header.drop 15).take 2 = [43, UInt8.ofNat (48 + k)] ∧ t.year = 2000 + k) ∨
        ((header.drop 15).take 2 = [45, UInt8.ofNat (48 + k)] ∧ t.year = 2000 - k))

/-- the header carries a valid date and time -/
def Stamped (header : Bytes) : Prop := ∃ t, StampedAt header t

/-- the dimensions a header declares: the GP field, else the BG field, else by the label -/
def Declares (fs : List Field) (rows cols : Int) : Prop :=
  match value fs (str "GP"), value fs (str "BG") with
  | some v, _ => ReadsGrid v rows cols
  | none, some v => ReadsGrid3 v rows cols
  | none, none =>
    ((header fs).take 2 ∈ stripProducts ∧ rows = 224 ∧ cols = 200) ∨
    ((header fs).take 2 ∈ volumeProducts ∧ rows = 2400 ∧ cols = 200)

/-- `text` is a table of these levels: two characters with their number, then five characters for each of them -/
def Levels (text : Bytes) (levels : List Go.F32) : Prop :=
  ReadsInt (text.take 2) levels.length ∧ text.length = 2 + 5 * levels.length ∧
    ∀ i f, levels[i]? = some f → LevelText ((text.drop (2 + 5 * i)).take 5) f

/-- `text` is a table of levels -/
def LevelTable (text : Bytes) : Prop := ∃ levels, Levels text levels

/-- the header is readable; it announces `length` bytes and a grid of `rows` times `cols` pixels -/
structure Readable (fs : List Field) (length rows cols : Int) : Prop where
  long : 21 ≤ (header fs).length
  stamped : Stamped (header fs)
  length : ∃ v, value fs (str "BY") = some v ∧ ReadsInt v length
  numbers : ∀ k ∈ [str "VV", str "INT", str "E", str "VS"], ∀ v, value fs k = some v → ∃ n, ReadsInt v n
  grid : Declares fs rows cols
  levels : ∀ v, value fs (str "LV") = some v → LevelTable v

/-- the dimensions can be allocated -/
def Fit (rows cols : Int) : Prop := 1 ≤ rows ∧ rows * 24 ≤ 2 ^ 48 ∧ 1 ≤ cols ∧ cols * 4 ≤ 2 ^ 48

/-- the data section is complete: without level field one or two bytes per pixel, as announced; with level field one
decodable line per row -/
def Complete (fs : List Field) (length rows cols : Int) (data : Bytes) : Prop :=
  if value fs (str "LV") = none then
    ∃ k : Int, (k = 1 ∨ k = 2) ∧ length = (header fs).length + 1 + k * (rows * cols) ∧ k * (rows * cols) ≤ data.length
  else
    ∃ ls rest, data = lines ls ++ rest ∧ (ls.length : Int) = rows ∧
      ∀ l ∈ ls, (10 : UInt8) ∉ l ∧ (BlankLine l ∨ ∃ gap runs, RunLine l gap runs ∧ Fits cols.toNat gap runs)

end Spec
