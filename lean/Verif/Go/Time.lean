/-
The fragment of package time used in header.go: `time.Parse("0215040106", s)`, `Time.Add`,
`Duration` multiplication.  A `time.Time` (always UTC here) is its number of nanoseconds since the
Unix epoch, an unbounded integer (Go stores 64-bit seconds plus nanoseconds; no value reachable from
this code comes near the limits).
-/
import Verif.Go.Basic

namespace Go

/-- `time.Time{}`: January 1, year 1, 00:00:00 UTC -/
def zeroTime : Int := -62135596800 * 1000000000

/-- `time.Minute` in nanoseconds -/
def minuteNs : Int := 60 * 1000000000

/-- `time.isLeap` -/
def isLeap (y : Int) : Bool := y % 4 = 0 && (y % 100 ≠ 0 || y % 400 = 0)

/-- `time.daysBefore[m-1]`: days in a non-leap year before month `m` (1..12) begins -/
def daysBefore (m : Nat) : Int :=
  match m with
  | 1 => 0 | 2 => 31 | 3 => 59 | 4 => 90 | 5 => 120 | 6 => 151
  | 7 => 181 | 8 => 212 | 9 => 243 | 10 => 273 | 11 => 304 | 12 => 334 | _ => 365

/-- `time.daysIn` -/
def daysIn (m : Nat) (y : Int) : Int :=
  if m = 2 ∧ isLeap y then 29 else daysBefore (m + 1) - daysBefore m

/-- days from the Unix epoch to the civil date, the closed form computed by `time.Date` -/
def unixDays (y : Int) (m d : Nat) : Int :=
  365 * (y - 1) + (y - 1) / 4 - (y - 1) / 100 + (y - 1) / 400
    + daysBefore m + (if isLeap y ∧ 3 ≤ m then 1 else 0) + ((d : Int) - 1) - 719162

/-- `time.Date(y, m, d, h, min, 0, 0, time.UTC)` for in-range arguments -/
def date (y : Int) (m d h min : Nat) : Int :=
  ((unixDays y m d * 24 + h) * 60 + min) * minuteNs

def isDigitB (b : UInt8) : Bool := 48 ≤ b && b ≤ 57

/-- `time.getnum` -/
def getnum (fixed : Bool) (s : Bytes) : Option (Nat × Bytes) :=
  match s with
  | a :: b :: rest =>
    if !isDigitB a then none
    else if isDigitB b then some ((a.toNat - 48) * 10 + (b.toNat - 48), rest)
    else if fixed then none else some (a.toNat - 48, b :: rest)
  | [a] => if !isDigitB a then none else if fixed then none else some (a.toNat - 48, [])
  | [] => none

/-- `time.atoi` on a two-byte string (optional sign, then digits only) -/
def atoi2 (a b : UInt8) : Option Int :=
  if a = 43 then (if isDigitB b then some ((b.toNat : Int) - 48) else none)
  else if a = 45 then (if isDigitB b then some (-((b.toNat : Int) - 48)) else none)
  else if isDigitB a && isDigitB b then some (((a.toNat : Int) - 48) * 10 + ((b.toNat : Int) - 48))
  else none

/-- two-digit year with Go's pivot: 69..99 are 19xx, everything else is relative to 2000 -/
def pivotYear (y : Int) : Int := if 69 ≤ y then y + 1900 else y + 2000

/-- `time.Parse("0215040106", s)`: day, hour, minute, month, two-digit year; then no extra text and
a valid day of the month. -/
def parseTime (s : Bytes) : Option Int := do
  let (day, s) ← getnum true s
  let (hour, s) ← getnum false s
  if 24 ≤ hour then none else
  let (min, s) ← getnum true s
  if 60 ≤ min then none else
  let (month, s) ← getnum true s
  if month = 0 ∨ 12 < month then none else
  match s with
  | [a, b] => do
    let y2 ← atoi2 a b
    let year := pivotYear y2
    if day < 1 ∨ daysIn month year < (day : Int) then none
    else some (date year month day hour min)
  | _ => none

end Go
