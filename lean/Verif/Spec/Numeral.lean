/-
Which texts are levels: the numbers `fmt.Sscanf` reads with "%f".
-/
import Verif.Spec.Number
import Verif.Go.Float

namespace Spec
open Go (Bytes F32 Fl f32 f64)

/-- the value of a digit: 0 to 9, in base 16 also a to f and A to F -/
inductive Digit : (base c d : Nat) → Prop
  | decimal {base d : Nat} (h : d < 10) : Digit base (48 + d) d
  | small {d : Nat} (h : d < 6) : Digit 16 (97 + d) (10 + d)
  | capital {d : Nat} (h : d < 6) : Digit 16 (65 + d) (10 + d)

/-- `text` consists of `count` digits, at least one, with single underscores between some of them; they denote `n` -/
inductive Digits (base : Nat) : (text : List Nat) → (n count : Nat) → Prop
  | one {c d : Nat} (h : Digit base c d) : Digits base [c] d 1
  | next {t : List Nat} {n k c d : Nat} (h : Digits base t n k) (hc : Digit base c d) :
      Digits base (t ++ [c]) (n * base + d) (k + 1)
  | separated {t : List Nat} {n k c d : Nat} (h : Digits base t n k) (hc : Digit base c d) :
      Digits base (t ++ [95, c]) (n * base + d) (k + 1)

/-- digits with a point: before, between or after them -/
inductive Pointed (base : Nat) : (text : List Nat) → ℚ → Prop
  | before {t : List Nat} {n k : Nat} (h : Digits base t n k) : Pointed base (46 :: t) (n / base ^ k)
  | between {t t' : List Nat} {n n' k k' : Nat} (h : Digits base t n k) (h' : Digits base t' n' k') :
      Pointed base (t ++ 46 :: t') (n + n' / base ^ k')
  | after {t : List Nat} {n k : Nat} (h : Digits base t n k) : Pointed base (t ++ [46]) n

/-- digits with or without a point -/
def Mantissa (base : Nat) (text : List Nat) (q : ℚ) : Prop :=
  Pointed base text q ∨ ∃ n k : Nat, Digits base text n k ∧ q = n

/-- the characters of a sign -/
def Sign.chars (s : Sign) : List Nat := s.text.map UInt8.toNat

/-- a signed number of digits -/
def Exponent (text : List Nat) (e : Int) : Prop :=
  ∃ (s : Sign) (t : List Nat) (n k : Nat), text = s.chars ++ t ∧ Digits 10 t n k ∧ e = s.apply n

/-- `v` is the number with this sign and magnitude, rounded to float32; it is not too large -/
def Rounded (s : Sign) (q : ℚ) (v : F32) : Prop :=
  v = Fl.mk f32 (decide (s = .minus)) (if s = .minus then -q else q) ∧ v.isFin = true

def digitChars : List Nat := [48, 49, 50, 51, 52, 53, 54, 55, 56, 57, 95]

/-- `text` denotes the float32 `v`. A character of `more` after it would be taken as a part of it. -/
inductive Numeral : (text : List Nat) → (v : F32) → (more : List Nat) → Prop
  /-- NaN in capital or small letters, without sign -/
  | nan {a b c : Nat} (ha : a = 110 ∨ a = 78) (hb : b = 97 ∨ b = 65) (hc : c = 110 ∨ c = 78) : Numeral [a, b, c] .nan []
  /-- Inf in capital or small letters -/
  | inf (s : Sign) {a b c : Nat} (ha : a = 105 ∨ a = 73) (hb : b = 110 ∨ b = 78) (hc : c = 102 ∨ c = 70) :
      Numeral (s.chars ++ [a, b, c]) (.inf (decide (s = .minus))) []
  /-- 12 -/
  | whole (s : Sign) {t : List Nat} {n k : Nat} {v : F32} (h : Digits 10 t n k) (hv : Rounded s n v) :
      Numeral (s.chars ++ t) v (digitChars ++ [46, 101, 69, 112, 80] ++ if t = [48] then [120, 88] else [])
  /-- 12.5 -/
  | pointed (s : Sign) {t : List Nat} {q : ℚ} {v : F32} (h : Pointed 10 t q) (hv : Rounded s q v) :
      Numeral (s.chars ++ t) v (digitChars ++ [101, 69, 112, 80])
  /-- 12.5e-3 -/
  | scientific (s : Sign) {t x : List Nat} {q : ℚ} {c : Nat} {e : Int} {v : F32} (h : Mantissa 10 t q)
      (hc : c = 101 ∨ c = 69) (hx : Exponent x e) (hv : Rounded s (q * (10 : ℚ) ^ e) v) :
      Numeral (s.chars ++ t ++ c :: x) v digitChars
  /-- 0x1f.8p-3; an underscore may follow the prefix -/
  | hexadecimal (s : Sign) {t u x : List Nat} {q : ℚ} {p c : Nat} {e : Int} {v : F32} (hp : p = 120 ∨ p = 88)
      (h : Mantissa 16 t q) (hu : u = t ∨ (u = 95 :: t ∧ t.head? ≠ some 46)) (hc : c = 112 ∨ c = 80) (hx : Exponent x e)
      (hv : Rounded s (q * (2 : ℚ) ^ e) v) : Numeral (s.chars ++ [48, p] ++ u ++ c :: x) v digitChars
  /-- 12.5p3, which is 12.5 times two to the third: rounded to float32, multiplied in float64, and rounded again, possibly to
  an infinity; no underscores in the exponent -/
  | binary (s : Sign) {t ds : List Nat} {q : ℚ} {e : Int} {w : F32} (s' : Sign) (h : Mantissa 10 t q) (hw : Rounded s q w)
      (hn : ds ≠ []) (hd : ∀ d ∈ ds, d < 10) (he : e = s'.apply (decimal ds)) (h63 : -(2 ^ 63) ≤ e ∧ e < 2 ^ 63) :
      Numeral (s.chars ++ t ++ 112 :: (s'.chars ++ ds.map (48 + ·)))
        ((Fl.mk f64 w.sign (w.val * (2 : ℚ) ^ e)).conv f32) digitChars

/-- `text`, of at most five characters, is white space, a number, and something that does not go on with the number -/
def LevelText (text : Bytes) (v : F32) : Prop :=
  ∃ (ws : Bytes) (tok : List Nat) (rest : Bytes) (more : List Nat), text = ws ++ tok.map UInt8.ofNat ++ rest ∧ Blank ws ∧
    Numeral tok v more ∧ (∀ b ∈ rest.head?, b.toNat ∉ more) ∧ text.length ≤ 5

/-- `text` is a level -/
def IsLevelText (text : Bytes) : Prop := ∃ v, LevelText text v

end Spec
