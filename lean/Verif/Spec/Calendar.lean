/-
The Gregorian calendar by counting days, and the time stamp of a RADOLAN header.
-/
import Verif.Spec.Header

namespace Spec
open Go (Bytes)

/-- a civil date and time of day (UTC) -/
structure Civil where
  year : Nat
  month : Nat
  day : Nat
  hour : Nat
  minute : Nat

def leap (y : Nat) : Prop := 4 ∣ y ∧ (¬ 100 ∣ y ∨ 400 ∣ y)

instance (y : Nat) : Decidable (leap y) := by unfold leap; infer_instance

def monthLength (y m : Nat) : Nat :=
  if m ∈ [1, 3, 5, 7, 8, 10, 12] then 31
  else if m ∈ [4, 6, 9, 11] then 30
  else if leap y then 29 else 28

def Civil.Valid (t : Civil) : Prop :=
  1 ≤ t.month ∧ t.month ≤ 12 ∧ 1 ≤ t.day ∧ t.day ≤ monthLength t.year t.month ∧ t.hour < 24 ∧ t.minute < 60

instance (t : Civil) : Decidable t.Valid := by unfold Civil.Valid; infer_instance

/-- days of the first `m` months of year `y` -/
def monthsDays (y : Nat) : Nat → Nat
  | 0 => 0
  | m + 1 => monthsDays y m + monthLength y (m + 1)

/-- days of the first `n` years from 1969 on -/
def yearsDays : Nat → Nat
  | 0 => 0
  | n + 1 => yearsDays n + monthsDays (1969 + n) 12

/-- days since 1 January 1970, for dates from 1969 on -/
def Civil.days (t : Civil) : Int :=
  (yearsDays (t.year - 1969) : Int) - 365 + monthsDays t.year (t.month - 1) + t.day - 1

/-- nanoseconds since 1 January 1970, for dates from 1969 on -/
def Civil.instant (t : Civil) : Int :=
  ((t.days * 24 + t.hour) * 60 + t.minute) * 60 * 1000000000

/-- two decimal digits -/
def two (n : Nat) : Bytes := asciiDigits [n / 10, n % 10]

/-- the first bytes of a header: product label, day, hour, minute, five bytes of WMO number, month, year -/
def stamp (label wmo : Bytes) (t : Civil) : Bytes :=
  label ++ two t.day ++ two t.hour ++ two t.minute ++ wmo ++ two t.month ++ two (t.year % 100)

/-- header keys the parser looks at -/
def knownKeys : List Bytes := ["BY", "VV", "INT", "GP", "BG", "E", "LV", "VS"].map Go.str

end Spec
