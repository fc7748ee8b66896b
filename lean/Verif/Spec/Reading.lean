/-
How any header text is understood, and the checks a file has to pass, for every header text.
-/
import Verif.Spec.Diagnosis

namespace Spec
open Go (Bytes str)

/-- A header: its text and the values of its keys. -/
structure Head where
  text : Bytes
  val : Bytes → Option Bytes

/-! ### any bytes -/

/-- The characters of a text, with code point and bytes: encoded in UTF-8; a byte that begins no encoded character is a
character of its own with the code point U+FFFD (this is how Go ranges over a string). -/
inductive Chars : Bytes → List (Nat × Bytes) → Prop
  | nil : Chars [] []
  | char {cp : Nat} {rest : Bytes} {l : List (Nat × Bytes)} (valid : scalar cp) (tail : Chars rest l) :
      Chars (utf8 cp ++ rest) ((cp, utf8 cp) :: l)
  | stray {b : UInt8} {rest : Bytes} {l : List (Nat × Bytes)} (none : ∀ cp, scalar cp → ¬ utf8 cp <+: b :: rest)
      (tail : Chars rest l) : Chars (b :: rest) ((0xFFFD, [b]) :: l)

/-- upper-case letters: A to Z, and beyond ASCII those that `U` (the Unicode tables) tells -/
def Capital (U : Nat → Bool) (c : Nat × Bytes) : Prop := if c.1 < 128 then 65 ≤ c.1 ∧ c.1 ≤ 90 else U c.1 = true

/-- what counts of a run of characters: all bytes, but of the last character the first byte only -/
def seen : List (Nat × Bytes) → Bytes
  | [] => []
  | [c] => c.2.take 1
  | c :: d :: l => c.2 ++ seen (d :: l)

/-- a key of upper-case letters and a value without upper-case letters -/
structure Item where
  key : List (Nat × Bytes)
  val : List (Nat × Bytes)

structure Item.WF (U : Nat → Bool) (i : Item) : Prop where
  key : i.key ≠ []
  up : ∀ c ∈ i.key, Capital U c
  val : i.val ≠ []
  low : ∀ c ∈ i.val, ¬ Capital U c

def Item.field (i : Item) : Field := ⟨seen i.key, seen i.val⟩

/-- How the characters of a header are understood: as fields, an upper-case key and a value without upper-case letters
each, the last field counting if a key is repeated; a key at the end without value has the value of the field before it; a
text that does not begin with an upper-case letter has no fields; a text of upper-case letters only is a key with an empty
value. -/
inductive Reads (U : Nat → Bool) : List (Nat × Bytes) → (Bytes → Option Bytes) → Prop
  | fields (is : List Item) (ne : is ≠ []) (wf : ∀ i ∈ is, i.WF U) :
      Reads U (is.flatMap fun i => i.key ++ i.val) (value (is.map Item.field))
  | trailing (is : List Item) (g : Item) (k : List (Nat × Bytes)) (wf : ∀ i ∈ is ++ [g], i.WF U) (ne : k ≠ [])
      (up : ∀ c ∈ k, Capital U c) :
      Reads U (((is ++ [g]).flatMap fun i => i.key ++ i.val) ++ k) (value ((is ++ [g]).map Item.field ++ [⟨seen k, seen g.val⟩]))
  | headless (c : Nat × Bytes) (rest : List (Nat × Bytes)) (low : ¬ Capital U c) : Reads U (c :: rest) (fun _ => none)
  | key (k : List (Nat × Bytes)) (up : ∀ c ∈ k, Capital U c) : Reads U k (value [⟨seen k, []⟩])

/-- a header text, without delimiter, and its reading -/
def Understood (U : Nat → Bool) (H : Head) : Prop := (3 : UInt8) ∉ H.text ∧ ∃ cs, Chars H.text cs ∧ Reads U cs H.val

/-! ### ASCII -/

/-- The same for a header in ASCII, where bytes are characters. -/
inductive AsciiHead : Head → Prop
  | fields (fs : List Field) (ne : fs ≠ []) (wf : ∀ f ∈ fs, f.WF) : AsciiHead ⟨header fs, value fs⟩
  | trailing (fs : List Field) (g : Field) (k : Bytes) (wf : ∀ f ∈ fs ++ [g], f.WF) (ne : k ≠ []) (up : ∀ b ∈ k, upper b) :
      AsciiHead ⟨header (fs ++ [g]) ++ k, value (fs ++ [g] ++ [⟨k, g.val⟩])⟩
  | headless (b : UInt8) (rest : Bytes) (low : ¬ upper b) (ascii : ∀ c ∈ b :: rest, c < 128 ∧ c ≠ 3) :
      AsciiHead ⟨b :: rest, fun _ => none⟩
  | key (k : Bytes) (up : ∀ b ∈ k, upper b) : AsciiHead ⟨k, value [⟨k, []⟩]⟩

namespace Head
variable (H : Head)

/-- a file with this header -/
def file (data : Bytes) : Bytes := H.text ++ [3] ++ data

/-- the field `k`, if present, begins with a number -/
def Numeric (k : String) : Prop := ∀ v, H.val (str k) = some v → ∃ n, ReadsInt v n

/-- the length field announces `n` bytes -/
def Announces (n : Int) : Prop := ∃ v, H.val (str "BY") = some v ∧ ReadsInt v n

/-- the dimensions a header declares: the GP field, else the BG field, else by the label -/
def Declares (rows cols : Int) : Prop :=
  match H.val (str "GP"), H.val (str "BG") with
  | some v, _ => ReadsGrid v rows cols
  | none, some v => ReadsGrid3 v rows cols
  | none, none =>
    (H.text.take 2 ∈ stripProducts ∧ rows = 224 ∧ cols = 200) ∨
    (H.text.take 2 ∈ volumeProducts ∧ rows = 2400 ∧ cols = 200)

/-- The checks of the header, in the order of the error texts.  -/
def headerChecks : List (String × Prop) := [
  ("radolan.parseHeader: header corrupted: too short", 21 ≤ H.text.length),
  ("radolan.parseHeader: could not parse data length: ", ∃ n, H.Announces n),
  ("radolan.parseHeader: could not parse capture time: ", Stamped H.text),
  ("radolan.parseHeader: could not parse forecast time: ", H.Numeric "VV"),
  ("radolan.parseHeader: could not parse interval: ", H.Numeric "INT"),
  ("radolan.parseHeader: could not parse dimensions (GP): ",
    ∀ v, H.val (str "GP") = some v → ∃ rows cols, ReadsGrid v rows cols),
  ("radolan.parseHeader: could not parse dimensions (BG): ",
    H.val (str "GP") = none → ∀ v, H.val (str "BG") = some v → ∃ rows cols, ReadsGrid3 v rows cols),
  ("radolan.parseHeader: no dimension information available",
    H.val (str "GP") = none → H.val (str "BG") = none →
      H.text.take 2 ∈ stripProducts ∨ H.text.take 2 ∈ volumeProducts),
  ("radolan.parseHeader: could not parse precision: ", H.Numeric "E"),
  ("radolan.parseHeader: level field too short", ∀ v, H.val (str "LV") = some v → 2 ≤ v.length),
  ("radolan.parseHeader: could not parse level count: ",
    ∀ v, H.val (str "LV") = some v → ∃ n, ReadsInt (v.take 2) n),
  ("radolan.parseHeader: invalid level format: ",
    ∀ v, H.val (str "LV") = some v → ∀ n, ReadsInt (v.take 2) n → (v.length : Int) = 2 + 5 * n),
  ("radolan.parseHeader: invalid level value: ",
    ∀ v, H.val (str "LV") = some v → ∀ i, 2 + 5 * i < v.length → IsLevelText ((v.drop (2 + 5 * i)).take 5)),
  ("radolan.parseHeader: invalid format value: ", H.Numeric "VS")]

/-- the announced length `n` is that of header, delimiter and `k` bytes for each pixel (computed with 64 bits) -/
def Sized (n rows cols k : Int) : Prop := (2 ^ 64 : Int) ∣ n - (H.text.length + 1 + k * (rows * cols))

/-- The checks of the data section behind a header announcing `n` bytes and a grid of `rows` times `cols` pixels. -/
def dataChecks (n rows cols : Int) (data : Bytes) : List (String × Prop) :=
  ("radolan.parseData: parsed header data required", rows ≠ 0 ∧ cols ≠ 0) ::
  if H.val (str "LV") = none then [
    ("radolan.parseUnknown: unknown encoding", H.Sized n rows cols 2 ∨ H.Sized n rows cols 1),
    ("radolan.readLineLittleEndian: ", H.Sized n rows cols 2 → 2 * (rows * cols) ≤ data.length),
    ("radolan.readLineSingleByte: ", ¬ H.Sized n rows cols 2 → rows * cols ≤ data.length)]
  else (List.range rows.toNat).flatMap (lineChecks cols data)

/-- the header is in order, announces `n` bytes and declares `rows` times `cols` pixels -/
def Orderly (n rows cols : Int) : Prop :=
  Passed H.headerChecks ∧ H.Announces n ∧ H.Declares rows cols

/-- nonzero dimensions that cannot be allocated -/
def Impossible (rows cols : Int) : Prop := rows ≠ 0 ∧ cols ≠ 0 ∧ ¬ Fit rows cols

/-- the file is fine -/
def Fine (data : Bytes) : Prop :=
  ∃ n rows cols, H.Orderly n rows cols ∧ Fit rows cols ∧ Passed (H.dataChecks n rows cols data)

/-- `text` names what is wrong with the file: the first header check that fails, or, all of them passed and the dimensions
possible, the first data check that fails -/
def Wrong (data : Bytes) (text : String) : Prop :=
  FirstFailing H.headerChecks text ∨
  ∃ n rows cols, H.Orderly n rows cols ∧ ¬ Impossible rows cols ∧ FirstFailing (H.dataChecks n rows cols data) text

end Head

end Spec
