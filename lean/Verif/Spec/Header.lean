/-
Specification of RADOLAN headers, independent of the parser: a header is a sequence of fields, each an
upper-case key followed by a value without upper-case letters; a file is a header, the byte 0x03, and the data.
Numbers are described by their digits.
-/
import Mathlib.Data.Rat.Defs
import Verif.Go.Basic

namespace Spec
open Go (Bytes str)

/-- ASCII upper-case letter -/
def upper (b : UInt8) : Prop := 65 ≤ b ∧ b ≤ 90

instance (b : UInt8) : Decidable (upper b) := by unfold upper; infer_instance

/-- A field: upper-case key and ASCII value without upper-case letters and without the header delimiter. -/
structure Field where
  key : Bytes
  val : Bytes
  deriving DecidableEq

def Field.WF (f : Field) : Prop :=
  f.key ≠ [] ∧ (∀ b ∈ f.key, upper b) ∧ f.val ≠ [] ∧ ∀ b ∈ f.val, b < 128 ∧ ¬ upper b ∧ b ≠ 3

instance (f : Field) : Decidable f.WF := by unfold Field.WF; infer_instance

/-- the text of a header -/
def header : List Field → Bytes
  | [] => []
  | f :: fs => f.key ++ f.val ++ header fs

/-- a file: header, delimiter, data section -/
def file (fs : List Field) (data : Bytes) : Bytes := header fs ++ [3] ++ data

/-- the value of a key: the last field with that key counts -/
def value : List Field → Bytes → Option Bytes
  | [], _ => none
  | f :: fs, k =>
    match value fs k with
    | some v => some v
    | none => if f.key = k then some f.val else none

/-- value of a decimal digit sequence, most significant first -/
def decimal : List Nat → Nat
  | [] => 0
  | d :: ds => d * 10 ^ ds.length + decimal ds

def asciiDigits (ds : List Nat) : Bytes := ds.map fun d => UInt8.ofNat (48 + d)

/-- sign character(s): nothing, '+' or '-' -/
inductive Sign where
  | none | plus | minus
  deriving DecidableEq

def Sign.text : Sign → Bytes
  | .none => []
  | .plus => [43]
  | .minus => [45]

def Sign.apply : Sign → Int → Int
  | .minus, n => -n
  | _, n => n

/-- `text` is the number `n`: blanks, optional sign, digits; anything but a digit may follow -/
def IsInt (text : Bytes) (n : Int) : Prop :=
  ∃ (blanks : Nat) (sign : Sign) (ds : List Nat) (rest : Bytes),
    text = List.replicate blanks 32 ++ sign.text ++ asciiDigits ds ++ rest ∧
    ds ≠ [] ∧ (∀ d ∈ ds, d < 10) ∧ (∀ b ∈ rest, b < 128) ∧ (∀ b ∈ rest.head?, ¬ (48 ≤ b ∧ b ≤ 57)) ∧
    n = sign.apply (decimal ds) ∧ -(2 ^ 63) ≤ n ∧ n < 2 ^ 63

end Spec

namespace Spec
open Go (Bytes str)

/-- `text` is exactly a number: blanks, optional sign, digits -/
def NumText (text : Bytes) (n : Int) : Prop :=
  ∃ (blanks : Nat) (sign : Sign) (ds : List Nat),
    text = List.replicate blanks 32 ++ sign.text ++ asciiDigits ds ∧
    ds ≠ [] ∧ (∀ d ∈ ds, d < 10) ∧ n = sign.apply (decimal ds) ∧ -(2 ^ 63) ≤ n ∧ n < 2 ^ 63

/-- `text` has the form "rows x columns" of a GP field; text not beginning with a digit may follow -/
def IsGrid (text : Bytes) (rows cols : Int) : Prop :=
  ∃ t1 t2 rest, text = t1 ++ [120] ++ t2 ++ rest ∧ NumText t1 rows ∧ NumText t2 cols ∧
    (∀ b ∈ rest, b < 128) ∧ (∀ b ∈ rest.head?, ¬ (48 ≤ b ∧ b ≤ 57))

/-- `text` begins with two numbers of exactly three digits each, the form of a BG field -/
def IsGrid3 (text : Bytes) (rows cols : Nat) : Prop :=
  ∃ (d1 d2 : List Nat) (rest : Bytes), text = asciiDigits d1 ++ asciiDigits d2 ++ rest ∧
    d1.length = 3 ∧ d2.length = 3 ∧ (∀ d ∈ d1 ++ d2, d < 10) ∧ (∀ b ∈ rest, b < 128) ∧
    rows = decimal d1 ∧ cols = decimal d2

/-- local products without dimensions in their header: 200 x 200 pixels and a strip of 24 rows above -/
def stripProducts : List Bytes :=
  ["OL", "OX", "PD", "PE", "PF", "PH", "PL", "PM", "PR", "PV", "PX", "PY"].map str

/-- local volume products: 12 layers of 200 x 200 pixels -/
def volumeProducts : List Bytes := ["PU", "PZ"].map str

/-- Fortran F5.1: five characters, one decimal -/
def IsF51 (text : Bytes) (q : ℚ) : Prop :=
  ∃ (blanks : Nat) (sign : Sign) (ip : List Nat) (d : Nat),
    text = List.replicate blanks 32 ++ sign.text ++ asciiDigits ip ++ [46] ++ asciiDigits [d] ∧ text.length = 5 ∧
    (∀ d ∈ ip, d < 10) ∧ d < 10 ∧ q = (sign.apply (decimal (ip ++ [d])) : ℚ) / 10

end Spec
