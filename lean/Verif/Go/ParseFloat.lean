/-
`strconv.ParseFloat(s, 32)`, `strconv.Atoi` and `math.Ldexp`, and the conversion of floating point tokens in package fmt
(Go standard library, strconv/atof.go, strconv/atoi.go, math/ldexp.go, fmt/scan.go; not part of /repo). Only the fact that
an error is returned is modelled, not its text. The functions work on the characters of an ASCII token.
-/
import Verif.Go.Float

namespace Go

def isDigit (r : Nat) : Bool := 48 ≤ r && r ≤ 57

/-- value of a digit string -/
def digitsVal (l : List Nat) : Nat := l.foldl (fun a d => 10 * a + (d - 48)) 0

/-- `s.accept(sign)` with `sign = "+-"`: is the number negative, and what follows the sign -/
def signSplit (l : List Nat) : Bool × List Nat :=
  match l with
  | 43 :: t => (false, t)
  | 45 :: t => (true, t)
  | _ => (false, l)

/-- `strconv.lower` -/
def lower (c : Nat) : Nat := c ||| 32

/-- `strconv.commonPrefixLenIgnoreCase`: how many characters `s` and the lower case word have in common, upper and lower
case being the same -/
def commonPrefixLen : List Nat → List Nat → Nat
  | c :: s, p :: word => if (if 65 ≤ c ∧ c ≤ 90 then c + 32 else c) = p then commonPrefixLen s word + 1 else 0
  | _, _ => 0

/-- "infinity" -/
def infinityWord : List Nat := [105, 110, 102, 105, 110, 105, 116, 121]

/-- the part of `strconv.special` for infinities, after the sign -/
def specialInf (neg : Bool) (s : List Nat) : Option (F32 × List Nat) :=
  let n := commonPrefixLen s infinityWord
  let n := if 3 < n ∧ n < 8 then 3 else n
  if n = 3 ∨ n = 8 then some (.inf neg, s.drop n) else none

/-- `strconv.special`: the value and the characters not used -/
def special (s : List Nat) : Option (F32 × List Nat) :=
  match s with
  | [] => none
  | c :: t =>
    if c = 43 then specialInf false t
    else if c = 45 then specialInf true t
    else if c = 105 ∨ c = 73 then specialInf false s
    else if c = 110 ∨ c = 78 then
      if commonPrefixLen s [110, 97, 110] = 3 then some (.nan, s.drop 3) else none
    else none

/-- what `strconv.underscoreOK` remembers of the last character -/
inductive Saw where
  | start
  | digit
  | underscore
  | other
deriving DecidableEq

/-- one turn of the loop in `strconv.underscoreOK`; `none` is `return false` -/
def sawStep (hex : Bool) (saw : Saw) (c : Nat) : Option Saw :=
  if isDigit c || (hex && (97 ≤ lower c && lower c ≤ 102)) then some .digit
  else if c = 95 then (if saw = .digit then some .underscore else none)
  else if saw = .underscore then none
  else some .other

def sawLoop (hex : Bool) : Saw → List Nat → Option Saw
  | saw, [] => some saw
  | saw, c :: s => (sawStep hex saw c).bind fun saw => sawLoop hex saw s

/-- the optional base prefix in `strconv.underscoreOK` -/
def basePrefix (s : List Nat) : Bool :=
  match s with
  | 48 :: c :: _ => lower c = 98 || lower c = 111 || lower c = 120
  | _ => false

/-- the base prefix is that of hexadecimal numbers -/
def hexBase (s : List Nat) : Bool :=
  match s with
  | 48 :: c :: _ => lower c = 120
  | _ => false

/-- `strconv.underscoreOK` -/
def underscoreOK (s : List Nat) : Bool :=
  let s := (signSplit s).2
  let hex := hexBase s
  match (if basePrefix s then sawLoop hex .digit (s.drop 2) else sawLoop hex .start s) with
  | none => false
  | some saw => saw != .underscore

/-- what the first loop of `strconv.readFloat` collects. Simplification: `mant` is the whole mantissa, not its first 19 (or
16) digits, and `frac` the number of digits after the point; the code keeps a truncated mantissa and the position of the
point, and looks at the text again where the digits dropped could matter for the rounding. -/
structure Mantissa where
  sawdot : Bool
  sawdigits : Bool
  mant : Nat
  frac : Nat

/-- one more digit of the mantissa -/
def Mantissa.push (base : Nat) (m : Mantissa) (d : Nat) : Mantissa :=
  { m with sawdigits := true, mant := m.mant * base + d, frac := if m.sawdot then m.frac + 1 else m.frac }

/-- the first loop of `strconv.readFloat`, and the characters that are left -/
def mantLoop (hex : Bool) : Mantissa → List Nat → Mantissa × List Nat
  | m, [] => (m, [])
  | m, c :: s =>
    if c = 95 then mantLoop hex m s
    else if c = 46 then (if m.sawdot then (m, c :: s) else mantLoop hex { m with sawdot := true } s)
    else if isDigit c then mantLoop hex (m.push (if hex then 16 else 10) (c - 48)) s
    else if hex && (97 ≤ lower c && lower c ≤ 102) then mantLoop hex (m.push 16 (lower c - 97 + 10)) s
    else (m, c :: s)

/-- the loop over the digits of the exponent in `strconv.readFloat`, and the characters that are left -/
def expLoop : Nat → List Nat → Nat × List Nat
  | e, [] => (e, [])
  | e, c :: s =>
    if isDigit c then expLoop (if e < 10000 then e * 10 + (c - 48) else e) s
    else if c = 95 then expLoop e s
    else (e, c :: s)

/-- the optional exponent in `strconv.readFloat`; `none` if the text is not a number up to its last character -/
def readExp (hex : Bool) (s : List Nat) : Option Int :=
  match s with
  | [] => if hex then none else some 0
  | c :: s =>
    if lower c = (if hex then 112 else 101) then
      match (signSplit s).2 with
      | [] => none
      | d :: t =>
        if isDigit d then
          let (e, rest) := expLoop 0 (d :: t)
          if rest = [] then some (if (signSplit s).1 then -(e : Int) else e) else none
        else none
    else none

/-- does `strconv.readFloat` see the prefix of a hexadecimal number (`i+2 < len(s)`) -/
def hexPrefix (s : List Nat) : Bool :=
  match s with
  | 48 :: c :: _ :: _ => lower c = 120
  | _ => false

/-- `strconv.readFloat`, followed by the rounding to float32 and the test in `ParseFloat` that the whole text was used:
the sign and the exact magnitude. (`underscoreOK` is true for texts without underscore, so that the code's flag
`underscores` does not matter.) -/
def readFloat (s : List Nat) : Option (Bool × ℚ) := do
  let hex := hexPrefix (signSplit s).2
  let l := if hex then (signSplit s).2.drop 2 else (signSplit s).2
  let (m, l) := mantLoop hex ⟨false, false, 0, 0⟩ l
  if m.sawdigits then
    let e ← readExp hex l
    if underscoreOK s then
      some ((signSplit s).1, if hex then m.mant / 16 ^ m.frac * (2 : ℚ) ^ e else m.mant / 10 ^ m.frac * (10 : ℚ) ^ e)
    else none
  else none

/-- `strconv.ParseFloat(s, 32)`: the value rounded to the nearest float32, ties to even; a value that is too large is an
error -/
def parseFloat32 (s : List Nat) : Option F32 :=
  match special s with
  | some (v, rest) => if rest = [] then some v else none
  | none => do
    let (neg, q) ← readFloat s
    let r := Fl.mk f32 neg (if neg then -q else q)
    if r.isFin then some r else none

/-- `strconv.Atoi` -/
def atoi (s : List Nat) : Option Int :=
  let ds := (signSplit s).2
  if ds ≠ [] ∧ ds.all isDigit then
    let v : Int := if (signSplit s).1 then -(digitsVal ds : Int) else digitsVal ds
    if -(2 ^ 63) ≤ v ∧ v < 2 ^ 63 then some v else none
  else none

/-- `math.Ldexp` -/
def ldexp (x : F64) (m : Int) : F64 :=
  match x with
  | .fin q _ => Fl.mk f64 x.sign (q * (2 : ℚ) ^ m)
  | _ => x

/-- `float32(s.convertFloat(tok, 32))`: a decimal number with a binary exponent is handled in package fmt, everything else by
`strconv.ParseFloat`. -/
def convertFloat32 (tok : List Nat) : Option F32 :=
  if tok.contains 112 && !(tok.contains 120 || tok.contains 88) then do
    let v ← parseFloat32 (tok.takeWhile (· != 112))
    let m ← atoi ((tok.dropWhile (· != 112)).drop 1)
    some ((ldexp (v.conv f64) m).conv f32)
  else parseFloat32 tok

/-! ### `(*ss).floatToken` (fmt/scan.go) -/

/-- decimal digits and underscore -/
def isDec (r : Nat) : Bool := isDigit r || r == 95

/-- hexadecimal digits and underscore -/
def isHex (r : Nat) : Bool := isDec r || (97 ≤ r && r ≤ 102) || (65 ≤ r && r ≤ 70)

/-- `s.accept(sign)`: the sign, and what follows it -/
def signToken (l : List Nat) : List Nat × List Nat :=
  match l with
  | 43 :: t => ([43], t)
  | 45 :: t => ([45], t)
  | _ => ([], l)

/-- exponent? -/
def expToken (exp : List Nat) (l : List Nat) : List Nat :=
  match l with
  | [] => []
  | c :: l => if exp.contains c then c :: ((signToken l).1 ++ (signToken l).2.takeWhile isDec) else []

/-- decimal point, fraction, exponent? -/
def fracToken (digits : Nat → Bool) (exp : List Nat) (l : List Nat) : List Nat :=
  match l with
  | [] => []
  | c :: t => if c = 46 then 46 :: (t.takeWhile digits ++ expToken exp (t.dropWhile digits)) else expToken exp l

/-- digits (with a base prefix), fraction, exponent -/
def numToken (l : List Nat) : List Nat :=
  match l with
  | 48 :: x :: t =>
    if x = 120 ∨ x = 88 then 48 :: x :: (t.takeWhile isHex ++ fracToken isHex [112, 80] (t.dropWhile isHex))
    else l.takeWhile isDec ++ fracToken isDec [101, 69, 112, 80] (l.dropWhile isDec)
  | _ => l.takeWhile isDec ++ fracToken isDec [101, 69, 112, 80] (l.dropWhile isDec)

/-- a word of three letters is accepted letter by letter (`accept(a) && accept(b) && accept(c)`): the letters accepted
and the rest -/
def wordToken : List (Nat × Nat) → List Nat → List Nat × List Nat
  | (lo, up) :: word, c :: l =>
    if c = lo ∨ c = up then (c :: (wordToken word l).1, (wordToken word l).2) else ([], c :: l)
  | _, l => ([], l)

def nanLetters : List (Nat × Nat) := [(110, 78), (97, 65), (110, 78)]
def infLetters : List (Nat × Nat) := [(105, 73), (110, 78), (102, 70)]

/-- the token after the sign: Inf or a number -/
def bodyToken (l : List Nat) : List Nat :=
  let (w, t) := wordToken infLetters l
  if w.length = 3 then w else w ++ numToken t

/-- `(*ss).floatToken`: the longest prefix the scanner takes for a floating point token. -/
def floatToken (l : List Nat) : List Nat :=
  let (w, t) := wordToken nanLetters l
  if w.length = 3 then w else w ++ ((signToken t).1 ++ bodyToken (signToken t).2)

end Go
