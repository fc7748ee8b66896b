/-
The fragment of packages fmt, strconv and time that radolan2png uses to print: `%s` of strings and times, `%.1f`.
-/
import Verif.Go.Time
import Verif.Go.Float

namespace Go

/-- decimal digits of a number (`strconv.Itoa` on non-negative numbers) -/
def itoa (n : Nat) : Bytes :=
  if n < 10 then [UInt8.ofNat (48 + n)] else itoa (n / 10) ++ [UInt8.ofNat (48 + n % 10)]

/-- `time.appendInt`: sign and digits, filled with zeros to `width` digits -/
def appendInt (x : Int) (width : Nat) : Bytes :=
  let ds := itoa x.natAbs
  (if x < 0 then [45] else []) ++ List.replicate (width - ds.length) 48 ++ ds

/-- `time.absDate`, second part: month and day of the day of the year (from 0): treat the leap day on its own, estimate the
month as if all had 31 days and correct the estimate -/
def absMonth (leap : Bool) (day : Nat) : Nat × Nat :=
  if leap && day = 59 then (2, 29)
  else
    let day : Int := if leap && 59 < day then (day : Int) - 1 else day
    let month := (day / 31).toNat
    let last := daysBefore (month + 2)
    if last ≤ day then (month + 2, (day - last + 1).toNat)
    else (month + 1, (day - daysBefore (month + 1) + 1).toNat)

/-- `time.absDate`, the date of a number of days since 1 January of year 1 (the library counts from a year that is the
first of a 400 year cycle, too): cut off cycles of 400, 100, 4 years and of one year -/
def absDate (days : Int) : Int × Nat × Nat :=
  let cycles := days / 146097
  let d := (days - 146097 * cycles).toNat
  let n100 := d / 36524
  let n100 := n100 - n100 / 4
  let d := d - 36524 * n100
  let n4 := d / 1461
  let d := d - 1461 * n4
  let n1 := d / 365
  let n1 := n1 - n1 / 4
  let year : Int := 400 * cycles + 100 * n100 + 4 * n4 + n1 + 1
  (year, absMonth (isLeap year) (d - 365 * n1))

/-- `time.appendNano` for the layout ".999999999": nothing if zero, else without trailing zeros -/
def fraction (nano : Int) : Bytes :=
  let ds := (appendInt nano 9).reverse.dropWhile (· = 48)
  if ds.isEmpty then [] else [46] ++ ds.reverse

/-- `Time.String` of a time in UTC without monotonic clock reading, as `time.Parse` and `Time.Add` give it:
layout "2006-01-02 15:04:05.999999999 -0700 MST" -/
def timeString (t : Int) : Bytes :=
  let sec := t / 1000000000
  let date := absDate (sec / 86400 + 719162)
  let s := sec % 86400
  appendInt date.1 4 ++ [45] ++ appendInt date.2.1 2 ++ [45] ++ appendInt date.2.2 2 ++ [32] ++
    appendInt (s / 3600) 2 ++ [58] ++ appendInt (s % 3600 / 60) 2 ++ [58] ++ appendInt (s % 60) 2 ++
    fraction (t % 1000000000) ++ str " +0000 UTC"

/-- `fmt` verb %.1f (strconv.FormatFloat(x, 'f', 1, 64): the exact decimal expansion, rounded to nearest even) -/
def fixed1 (x : F64) : Bytes :=
  if x = .nan then str "NaN"
  else if x = .inf false then str "+Inf"
  else if x = .inf true then str "-Inf"
  else
    let n := (roundEven (10 * |x.val|)).toNat
    (if x.sign then [45] else []) ++ itoa (n / 10) ++ [46, UInt8.ofNat (48 + n % 10)]

end Go
