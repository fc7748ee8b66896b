/- Printed dates and numbers. -/
import Verif.Go.Text
import Verif.Spec.Printout
import Verif.Lemmas.Time
import Verif.Props.Clock

namespace Go
open _root_.Spec Radolan

theorem absMonth_table : ∀ (l : Bool) (m : Fin 13) (d : Fin 32), 1 ≤ m.val → 1 ≤ d.val →
    (d.val : Int) ≤ (if m.val = 2 ∧ l = true then 29 else daysBefore (m.val + 1) - daysBefore m.val) →
    0 ≤ daysBefore m.val + (if l = true ∧ 3 ≤ m.val then 1 else 0) + ((d.val : Int) - 1) ∧
    daysBefore m.val + (if l = true ∧ 3 ≤ m.val then 1 else 0) + ((d.val : Int) - 1) < (if l = true then 366 else 365) ∧
    absMonth l (daysBefore m.val + (if l = true ∧ 3 ≤ m.val then 1 else 0) + ((d.val : Int) - 1)).toNat = (m.val, d.val) := by
  decide +kernel

theorem cycles {a : Int} {b c e yd : Nat} {leap : Bool} (hb : b ≤ 3) (hc : c ≤ 24) (he : e ≤ 3)
    (hl : leap = true ↔ e = 3 ∧ (c ≠ 24 ∨ b = 3)) (hy : yd < if leap = true then 366 else 365) :
    absDate (146097 * a + (36524 * b + 1461 * c + 365 * e + yd : Nat)) =
      (400 * a + 100 * b + 4 * c + e + 1, absMonth (isLeap (400 * a + 100 * b + 4 * c + e + 1)) yd) := by
  have hyd : yd < 366 := by split at hy <;> omega
  have hlast : yd = 365 → e = 3 ∧ (c ≠ 24 ∨ b = 3) := by
    intro h
    by_cases hh : leap = true
    · exact hl.mp hh
    · rw [if_neg hh] at hy; omega
  have hr : 36524 * b + 1461 * c + 365 * e + yd < 146097 := by omega
  have q0 : (146097 * a + ((36524 * b + 1461 * c + 365 * e + yd : Nat) : Int)) / 146097 = a := by omega
  have q1 : (146097 * a + ((36524 * b + 1461 * c + 365 * e + yd : Nat) : Int) - 146097 * a).toNat =
      36524 * b + 1461 * c + 365 * e + yd := by omega
  have q2 : (36524 * b + 1461 * c + 365 * e + yd) / 36524 - (36524 * b + 1461 * c + 365 * e + yd) / 36524 / 4 = b := by
    by_cases h : 1461 * c + 365 * e + yd < 36524
    · have : (36524 * b + 1461 * c + 365 * e + yd) / 36524 = b := by omega
      rw [this]; omega
    · have : b = 3 ∧ 1461 * c + 365 * e + yd = 36524 := by omega
      have h2 : (36524 * b + 1461 * c + 365 * e + yd) / 36524 = 4 := by omega
      rw [h2]; omega
  have q3 : 36524 * b + 1461 * c + 365 * e + yd - 36524 * b = 1461 * c + 365 * e + yd := by omega
  have q4 : (1461 * c + 365 * e + yd) / 1461 = c := by omega
  have q5 : 1461 * c + 365 * e + yd - 1461 * c = 365 * e + yd := by omega
  have q6 : (365 * e + yd) / 365 - (365 * e + yd) / 365 / 4 = e := by
    by_cases h : yd < 365
    · have : (365 * e + yd) / 365 = e := by omega
      rw [this]; omega
    · have : e = 3 ∧ yd = 365 := by omega
      have h2 : (365 * e + yd) / 365 = 4 := by omega
      rw [h2]; omega
  have q7 : 365 * e + yd - 365 * e = yd := by omega
  unfold absDate
  simp only [q0, q1, q2, q3, q4, q5, q6, q7]

/-- the date of a day is read back from the day count -/
theorem absDate_unixDays {y : Nat} {m d : Nat} (hy : 1 ≤ y) (h1 : 1 ≤ m) (h2 : m ≤ 12) (h3 : 1 ≤ d) (h4 : (d : Int) ≤ daysIn m y) :
    absDate (unixDays y m d + 719162) = ((y : Int), m, d) := by
  have hd31 : d < 32 := by
    have : ∀ (l : Bool) (m : Fin 13), 1 ≤ m.val → (if m.val = 2 ∧ l = true then (29 : Int) else daysBefore (m.val + 1) - daysBefore m.val) ≤ 31 := by
      decide +kernel
    have := this (isLeap y) ⟨m, by omega⟩ h1
    unfold daysIn at h4
    simp only at this
    omega
  obtain ⟨t1, t2, t3⟩ := absMonth_table (isLeap y) ⟨m, by omega⟩ ⟨d, hd31⟩ h1 h3 h4
  simp only at t1 t2 t3
  set yd := daysBefore m + (if isLeap (y : Int) = true ∧ 3 ≤ m then 1 else 0) + ((d : Int) - 1) with hyd
  obtain ⟨k, hk⟩ := Int.eq_ofNat_of_zero_le t1
  -- the year within its cycles
  obtain ⟨a, b, c, e, hb, hc, he, hN⟩ : ∃ a b c e : Nat, b ≤ 3 ∧ c ≤ 24 ∧ e ≤ 3 ∧ y = 400 * a + 100 * b + 4 * c + e + 1 :=
    ⟨(y - 1) / 400, (y - 1) % 400 / 100, (y - 1) % 100 / 4, (y - 1) % 4, by omega, by omega, by omega, by omega⟩
  have hl : isLeap (y : Int) = true ↔ e = 3 ∧ (c ≠ 24 ∨ b = 3) := by
    unfold isLeap
    simp only [Bool.and_eq_true, Bool.or_eq_true, decide_eq_true_eq, hN]
    push_cast
    omega
  have hcy := cycles (a := a) (yd := k) hb hc he hl (by
    rw [hk] at t2
    split at t2 <;> rename_i hh <;> simp only [hh, if_true, Bool.false_eq_true, if_false] <;> omega)
  have hday : unixDays y m d + 719162 = 146097 * (a : Int) + ((36524 * b + 1461 * c + 365 * e + k : Nat) : Int) := by
    have e1 : unixDays y m d = 365 * ((y : Int) - 1) + ((y : Int) - 1) / 4 - ((y : Int) - 1) / 100 + ((y : Int) - 1) / 400 + yd - 719162 := by
      unfold unixDays; rw [hyd]; ring
    have e2 : ((y : Int) - 1) / 4 = 100 * a + 25 * b + c := by omega
    have e3 : ((y : Int) - 1) / 100 = 4 * a + b := by omega
    have e4 : ((y : Int) - 1) / 400 = a := by omega
    rw [e1, e2, e3, e4, hk]
    push_cast
    omega
  have hyear : (400 * (a : Int) + 100 * b + 4 * c + e + 1) = y := by omega
  rw [hyear] at hcy
  rw [hday, hcy]
  rw [hk] at t3
  simp only [Int.toNat_natCast] at t3
  rw [t3]

theorem itoa_small {n : Nat} (h : n < 10) : itoa n = [UInt8.ofNat (48 + n)] := by
  unfold itoa; rw [if_pos h]

theorem itoa_step {n : Nat} (h : 10 ≤ n) : itoa n = itoa (n / 10) ++ [UInt8.ofNat (48 + n % 10)] := by
  conv_lhs => unfold itoa
  rw [if_neg (by omega)]

theorem appendInt_two {n : Nat} (h : n < 100) : appendInt n 2 = two n := by
  unfold appendInt
  simp only [Int.natAbs_natCast, if_neg (by omega : ¬ ((n : Nat) : Int) < 0), List.nil_append]
  by_cases hk : n < 10
  · have e1 : n / 10 = 0 := by omega
    have e2 : n % 10 = n := by omega
    rw [itoa_small hk, two, e1, e2]
    rfl
  · rw [itoa_step (by omega), itoa_small (by omega : n / 10 < 10)]
    rfl

theorem appendInt_four {n : Nat} (h1 : 1000 ≤ n) (h2 : n ≤ 9999) :
    appendInt n 4 = asciiDigits [n / 1000, n / 100 % 10, n / 10 % 10, n % 10] := by
  unfold appendInt
  simp only [Int.natAbs_natCast, if_neg (by omega : ¬ ((n : Nat) : Int) < 0), List.nil_append]
  have e1 : n / 10 / 10 = n / 100 := by omega
  have e2 : n / 10 / 10 / 10 = n / 1000 := by omega
  rw [itoa_step (by omega), itoa_step (by omega : 10 ≤ n / 10), itoa_step (by omega : 10 ≤ n / 10 / 10), e2,
    itoa_small (by omega : n / 1000 < 10), e1]
  rfl

theorem fraction_zero : fraction 0 = [] := by
  unfold fraction appendInt
  rw [show (0 : Int).natAbs = 0 from rfl, itoa_small (by omega)]
  decide

theorem itoa_nat (n : Nat) : itoa n = nat n := by
  induction n using Nat.strongRecOn with
  | _ n ih =>
    unfold nat digits
    by_cases h : n < 10
    · rw [itoa_small h, if_pos h]; rfl
    · rw [itoa_step (by omega), if_neg h, ih _ (by omega)]
      simp [nat, asciiDigits]

/-- the printed form of a civil time -/
theorem time_text {t : Civil} (hv : t.Valid) (hy : 1969 ≤ t.year) (hy' : t.year ≤ 9999) : timeString t.instant = t.text := by
  have hd := date_eq hy hv
  obtain ⟨h1, h2, h3, h4, h5, h6⟩ := hv
  have hdate := absDate_unixDays (y := t.year) (m := t.month) (d := t.day) (by omega) h1 h2 h3 (by
    rw [daysIn_eq _ h1 h2]; exact_mod_cast h4)
  have key : t.instant = (unixDays t.year t.month t.day * 86400 + t.hour * 3600 + t.minute * 60) * 1000000000 := by
    rw [← hd]; unfold date minuteNs; ring
  set u := unixDays t.year t.month t.day with hu
  have s1 : t.instant / 1000000000 = u * 86400 + t.hour * 3600 + t.minute * 60 := by omega
  have s2 : t.instant % 1000000000 = 0 := by omega
  have s3 : (u * 86400 + t.hour * 3600 + t.minute * 60) / 86400 = u := by omega
  have s4 : (u * 86400 + t.hour * 3600 + t.minute * 60) % 86400 = (t.hour * 3600 + t.minute * 60 : Nat) := by omega
  have s5 : ((t.hour * 3600 + t.minute * 60 : Nat) : Int) / 3600 = (t.hour : Nat) := by omega
  have s6 : ((t.hour * 3600 + t.minute * 60 : Nat) : Int) % 3600 / 60 = (t.minute : Nat) := by omega
  have s7 : ((t.hour * 3600 + t.minute * 60 : Nat) : Int) % 60 = (0 : Nat) := by omega
  have hd31 : t.day < 100 := by have := (Props.monthLength_pos t.year t.month).2; omega
  unfold timeString
  simp only [s1, s2, s3, s4, s5, s6, s7, hdate, fraction_zero]
  rw [appendInt_four (by omega) hy', appendInt_two (by omega : t.month < 100), appendInt_two hd31,
    appendInt_two (by omega : t.hour < 100), appendInt_two (by omega : t.minute < 100), appendInt_two (by omega : 0 < 100)]
  unfold Civil.text
  simp only [List.append_assoc]
  rfl

theorem after_spec {t : Civil} (hv : t.Valid) (hy : 1969 ≤ t.year) (n : Nat) :
    (t.after n).Valid ∧ t.year ≤ (t.after n).year ∧ (t.after n).instant = t.instant + n * 60000000000 := by
  induction n with
  | zero => exact ⟨hv, Nat.le_refl _, by simp [Civil.after]⟩
  | succ n ih =>
    obtain ⟨i1, i2, i3⟩ := ih
    refine ⟨Props.tick_valid i1, ?_, ?_⟩
    · have : (t.after n).year ≤ (t.after n).tick.year := by unfold Civil.tick; split <;> (try split) <;> (try split) <;> (try split) <;> simp
      exact _root_.le_trans i2 this
    · have := Props.C75_tick i1 (by omega)
      show (t.after n).tick.instant = _
      rw [this, i3]; push_cast; ring

/-- the calendar year grows with the days -/
theorem year_days {t : Civil} (hv : t.Valid) (hy : 1969 ≤ t.year) : 525600 * ((t.year : Int) - 1969) * 60000000000 - 366 * 86400 * 1000000000 ≤ t.instant := by
  have hd := date_eq hy hv
  obtain ⟨h1, h2, h3, h4, h5, h6⟩ := hv
  have e := yearsDays_eq (t.year - 1969)
  unfold Civil.instant Civil.days
  have : 365 * (t.year - 1969) ≤ yearsDays (t.year - 1969) := by
    generalize t.year - 1969 = k
    clear e hd
    induction k with
    | zero => simp
    | succ k ih =>
      have : 365 ≤ monthsDays (1969 + k) 12 := by rw [yearLength_eq]; split <;> omega
      unfold yearsDays
      omega
  push_cast
  omega

end Go
