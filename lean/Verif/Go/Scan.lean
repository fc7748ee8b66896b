/-
`fmt.Sscanf` for the formats used in header.go: "%d", "%dx%d", "%3d%3d" and "%f".
The scanner works on the runes of its input, as Go's does. Only the fact that an error is returned
is modelled, not its text. (Go standard library, fmt/scan.go; not part of /repo.)
-/
import Verif.Go.Basic
import Verif.Go.ParseFloat

namespace Go

/-- `fmt.isSpace` (scan.go, table `space`) -/
def isSpace (r : Nat) : Bool :=
  (0x09 ≤ r && r ≤ 0x0d) || r == 0x20 || r == 0x85 || r == 0xa0 || r == 0x1680
    || (0x2000 ≤ r && r ≤ 0x200a) || r == 0x2028 || r == 0x2029 || r == 0x202f || r == 0x205f
    || r == 0x3000

/-- `(*ss).SkipSpace` with `nlIsSpace = false`: a newline is an error (`none`). A carriage return is
skipped either way (before a newline by the `peek` rule, otherwise as a space). -/
def skipSpace : List Nat → Option (List Nat)
  | [] => some []
  | r :: rs => if r = 10 then none else if isSpace r then skipSpace rs else some (r :: rs)

/-- `(*ss).scanInt` for verb 'd': optional sign, at least one digit, `strconv.ParseInt` range check. -/
def scanInt (l : List Nat) : Option (Int × List Nat) := do
  let l ← skipSpace l
  let ds := (signSplit l).2.takeWhile isDigit
  if ds = [] then none
  else
    let v : Int := if (signSplit l).1 then -(digitsVal ds : Int) else (digitsVal ds : Int)
    if -(2 ^ 63) ≤ v ∧ v < 2 ^ 63 then some (v, (signSplit l).2.dropWhile isDigit) else none

/-- one `%d` directive: skip spaces, then scan an integer -/
def scanD (l : List Nat) : Option (Int × List Nat) := do
  let l ← skipSpace l
  scanInt l

/-- one `%<w>d` directive: skip spaces, then scan an integer from at most `w` runes -/
def scanDw (w : Nat) (l : List Nat) : Option (Int × List Nat) := do
  let l ← skipSpace l
  let (v, rest) ← scanInt (l.take w)
  some (v, rest ++ l.drop w)

/-- `fmt.Sscanf(s, "%d", &v)`: the stored value, or `none` for an error -/
def sscanfD (s : Bytes) : Option Int := (scanD (runes s)).map Prod.fst

/-- `fmt.Sscanf(s, "%dx%d", &a, &b)`: the values stored (a variable that was not reached is `none`);
the call fails iff the second one is `none`. -/
def sscanfDxD (s : Bytes) : Option Int × Option Int :=
  match scanD (runes s) with
  | none => (none, none)
  | some (a, rest) =>
    match rest with
    | 120 :: rest => (some a, (scanD rest).map Prod.fst)
    | _ => (some a, none)

/-- `fmt.Sscanf(s, "%3d%3d", &a, &b)` -/
def sscanf3D3D (s : Bytes) : Option Int × Option Int :=
  match scanDw 3 (runes s) with
  | none => (none, none)
  | some (a, rest) => (some a, (scanDw 3 rest).map Prod.fst)

/-- `fmt.Sscanf(s, "%f", &v)` with `v float32` -/
def sscanfF (s : Bytes) : Option F32 := do
  let l ← skipSpace (runes s)
  if l = [] then none else convertFloat32 (floatToken l)

end Go
