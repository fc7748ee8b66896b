/-
The calendar as a clock that advances minute by minute, and the order of civil times.
-/
import Verif.Spec.Calendar

namespace Spec

/-- earlier in the calendar: compare years, then months, days, hours, minutes -/
def Civil.Before (s t : Civil) : Prop :=
  s.year < t.year ∨ s.year = t.year ∧ (s.month < t.month ∨ s.month = t.month ∧ (s.day < t.day ∨ s.day = t.day ∧
    (s.hour < t.hour ∨ s.hour = t.hour ∧ s.minute < t.minute)))

/-- one minute later -/
def Civil.tick (t : Civil) : Civil :=
  if t.minute < 59 then { t with minute := t.minute + 1 }
  else if t.hour < 23 then { t with hour := t.hour + 1, minute := 0 }
  else if t.day < monthLength t.year t.month then { t with day := t.day + 1, hour := 0, minute := 0 }
  else if t.month < 12 then { t with month := t.month + 1, day := 1, hour := 0, minute := 0 }
  else ⟨t.year + 1, 1, 1, 0, 0⟩

end Spec
