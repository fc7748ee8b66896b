/-
The texts of numbers.
-/
import Verif.Spec.Calendar
import Verif.Spec.Utf8
import Verif.Spec.Runlength

namespace Spec
open Go (Bytes str)

/-- white space that may precede a number (code points; no line feed) -/
def White (c : Nat) : Prop :=
  c = 9 ∨ c = 11 ∨ c = 12 ∨ c = 13 ∨ c = 32 ∨ c = 0x85 ∨ c = 0xA0 ∨ c = 0x1680 ∨ (0x2000 ≤ c ∧ c ≤ 0x200A) ∨
    c = 0x2028 ∨ c = 0x2029 ∨ c = 0x202F ∨ c = 0x205F ∨ c = 0x3000

/-- a text of white space, in UTF-8 -/
def Blank (text : Bytes) : Prop := ∃ cs : List Nat, text = cs.flatMap utf8 ∧ ∀ c ∈ cs, White c

def IsDigit (b : UInt8) : Prop := 48 ≤ b ∧ b ≤ 57

/-- `text` consists of white space, an optional sign, at least one digit, and `rest`, which does not go on with a digit;
the number `n` fits into 64 bits -/
def Number (text : Bytes) (n : Int) (rest : Bytes) : Prop :=
  ∃ (ws : Bytes) (sign : Sign) (ds : List Nat), text = ws ++ sign.text ++ asciiDigits ds ++ rest ∧
    Blank ws ∧ ds ≠ [] ∧ (∀ d ∈ ds, d < 10) ∧ (∀ b ∈ rest.head?, ¬ IsDigit b) ∧
    n = sign.apply (decimal ds) ∧ -(2 ^ 63) ≤ n ∧ n < 2 ^ 63

end Spec
