/- time.Parse on the header time stamp. -/
import Verif.Go.Time
import Verif.Spec.Calendar
import Verif.Lemmas.Numbers

namespace Radolan
open Go

theorem isLeap_iff (y : Nat) : isLeap (y : Int) = true ↔ Spec.leap y := by
  unfold isLeap Spec.leap
  simp only [Bool.and_eq_true, Bool.or_eq_true, decide_eq_true_eq]
  omega

theorem monthsDays_eq (y : Nat) {m : Nat} (h1 : 1 ≤ m) (h2 : m ≤ 12) :
    (Spec.monthsDays y (m - 1) : Int) = daysBefore m + (if isLeap y ∧ 3 ≤ m then 1 else 0) := by
  have hl := isLeap_iff y
  by_cases h : Spec.leap y
  · have hl' : isLeap (y : Int) = true := hl.mpr h
    have : m = 1 ∨ m = 2 ∨ m = 3 ∨ m = 4 ∨ m = 5 ∨ m = 6 ∨ m = 7 ∨ m = 8 ∨ m = 9 ∨ m = 10 ∨ m = 11 ∨ m = 12 := by
      omega
    rcases this with h' | h' | h' | h' | h' | h' | h' | h' | h' | h' | h' | h' <;> subst h' <;>
      simp [Spec.monthsDays, Spec.monthLength, daysBefore, hl', h]
  · have hl' : isLeap (y : Int) = false := by rw [← Bool.not_eq_true, hl]; exact h
    have : m = 1 ∨ m = 2 ∨ m = 3 ∨ m = 4 ∨ m = 5 ∨ m = 6 ∨ m = 7 ∨ m = 8 ∨ m = 9 ∨ m = 10 ∨ m = 11 ∨ m = 12 := by
      omega
    rcases this with h' | h' | h' | h' | h' | h' | h' | h' | h' | h' | h' | h' <;> subst h' <;>
      simp [Spec.monthsDays, Spec.monthLength, daysBefore, hl', h]

theorem yearLength_eq (y : Nat) : Spec.monthsDays y 12 = if Spec.leap y then 366 else 365 := by
  by_cases h : Spec.leap y <;> simp [Spec.monthsDays, Spec.monthLength, h]

theorem yearsDays_eq (n : Nat) :
    (Spec.yearsDays n : Int) - 365 = 365 * ((1969 + n : Nat) - 1 : Int) + ((1969 + n : Nat) - 1 : Int) / 4
      - ((1969 + n : Nat) - 1 : Int) / 100 + ((1969 + n : Nat) - 1 : Int) / 400 - 719162 := by
  induction n with
  | zero => decide
  | succ n ih =>
    rw [Spec.yearsDays, yearLength_eq]
    split
    · rename_i h
      unfold Spec.leap at h
      push_cast at ih ⊢
      omega
    · rename_i h
      unfold Spec.leap at h
      push_cast at ih ⊢
      omega

theorem date_eq {t : Spec.Civil} (hy : 1969 ≤ t.year) (hv : t.Valid) :
    date t.year t.month t.day t.hour t.minute = t.instant := by
  obtain ⟨h1, h2, _⟩ := hv
  unfold date unixDays Spec.Civil.instant Spec.Civil.days minuteNs
  have e1 := monthsDays_eq t.year h1 h2
  have e2 := yearsDays_eq (t.year - 1969)
  have e3 : 1969 + (t.year - 1969) = t.year := by omega
  rw [e3] at e2
  rw [e1, e2]
  ring

theorem daysIn_eq (y : Nat) {m : Nat} (h1 : 1 ≤ m) (h2 : m ≤ 12) : daysIn m y = Spec.monthLength y m := by
  unfold daysIn
  have hl := isLeap_iff y
  have : m = 1 ∨ m = 2 ∨ m = 3 ∨ m = 4 ∨ m = 5 ∨ m = 6 ∨ m = 7 ∨ m = 8 ∨ m = 9 ∨ m = 10 ∨ m = 11 ∨ m = 12 := by
    omega
  rcases this with h' | h' | h' | h' | h' | h' | h' | h' | h' | h' | h' | h' <;> subst h' <;>
    simp [Spec.monthLength, daysBefore, hl]

theorem isDigitB_iff (b : UInt8) : isDigitB b = true ↔ ∃ d < 10, b = UInt8.ofNat (48 + d) := by
  unfold isDigitB
  simp only [Bool.and_eq_true, decide_eq_true_eq]
  rw [UInt8.le_iff_toNat_le, UInt8.le_iff_toNat_le]
  have e1 : (48 : UInt8).toNat = 48 := rfl
  have e2 : (57 : UInt8).toNat = 57 := rfl
  rw [e1, e2]
  constructor
  · intro h
    refine ⟨b.toNat - 48, by omega, ?_⟩
    rw [← UInt8.toNat_inj, digit_toNat (by omega)]; omega
  · rintro ⟨d, hd, rfl⟩
    rw [digit_toNat hd]; omega

theorem two_digits {n : Nat} (h : n < 100) (rest : Bytes) (fixed : Bool) :
    getnum fixed (Spec.two n ++ rest) = some (n, rest) := by
  unfold Spec.two Spec.asciiDigits
  simp only [List.map_cons, List.map_nil, List.cons_append, List.nil_append, getnum]
  have d1 : n / 10 < 10 := by omega
  have d2 : n % 10 < 10 := by omega
  rw [(isDigitB_iff _).mpr ⟨_, d1, rfl⟩, (isDigitB_iff _).mpr ⟨_, d2, rfl⟩, digit_toNat d1, digit_toNat d2]
  simp; omega

theorem getnum_two {s r : Bytes} {n : Nat} (h : getnum true s = some (n, r)) :
    n < 100 ∧ s = Spec.two n ++ r := by
  unfold getnum at h
  split at h
  · rename_i a b rest
    split at h
    · simp at h
    · rename_i ha
      split at h
      · rename_i hb
        simp only [Bool.not_eq_true', Bool.not_eq_false] at ha
        obtain ⟨d1, h1, rfl⟩ := (isDigitB_iff a).mp ha
        obtain ⟨d2, h2, rfl⟩ := (isDigitB_iff b).mp hb
        rw [digit_toNat h1, digit_toNat h2] at h
        simp only [Option.some.injEq, Prod.mk.injEq] at h
        obtain ⟨hn, rfl⟩ := h
        refine ⟨by omega, ?_⟩
        have e1 : n / 10 = d1 := by omega
        have e2 : n % 10 = d2 := by omega
        simp [Spec.two, Spec.asciiDigits, e1, e2]
      · simp at h
  · rename_i a
    split at h
    · simp at h
    · simp at h
  · simp at h

theorem atoi2_two {n : Nat} (h : n < 100) :
    atoi2 (UInt8.ofNat (48 + n / 10)) (UInt8.ofNat (48 + n % 10)) = some (n : Int) := by
  have d1 : n / 10 < 10 := by omega
  have d2 : n % 10 < 10 := by omega
  unfold atoi2
  rw [if_neg, if_neg, if_pos]
  · rw [digit_toNat d1, digit_toNat d2]
    simp only [Option.some.injEq]; omega
  · rw [(isDigitB_iff _).mpr ⟨_, d1, rfl⟩, (isDigitB_iff _).mpr ⟨_, d2, rfl⟩]; rfl
  · intro h; have := congrArg UInt8.toNat h; rw [digit_toNat d1] at this
    have e : (45 : UInt8).toNat = 45 := rfl
    omega
  · intro h; have := congrArg UInt8.toNat h; rw [digit_toNat d1] at this
    have e : (43 : UInt8).toNat = 43 := rfl
    omega

/-- time.Parse on the digits of a civil time -/
theorem parseTime_digits {t : Spec.Civil} (hy : 1969 ≤ t.year ∧ t.year ≤ 2068)
    (hd : t.day < 100 ∧ t.hour < 100 ∧ t.minute < 100 ∧ t.month < 100) :
    parseTime (Spec.two t.day ++ Spec.two t.hour ++ Spec.two t.minute ++ (Spec.two t.month ++ Spec.two (t.year % 100)))
      = if t.Valid then some t.instant else none := by
  obtain ⟨h1, h2, h3, h4⟩ := hd
  unfold parseTime
  simp only [List.append_assoc]
  rw [two_digits h1]
  simp only [Option.bind_eq_bind, Option.bind_some]
  rw [two_digits h2]
  simp only [Option.bind_some]
  by_cases hh : 24 ≤ t.hour
  · rw [if_pos hh, if_neg]; unfold Spec.Civil.Valid; omega
  rw [if_neg hh, two_digits h3]
  simp only [Option.bind_some]
  by_cases hm : 60 ≤ t.minute
  · rw [if_pos hm, if_neg]; unfold Spec.Civil.Valid; omega
  rw [if_neg hm, two_digits h4]
  simp only [Option.bind_some]
  by_cases hmo : t.month = 0 ∨ 12 < t.month
  · rw [if_pos hmo, if_neg]; unfold Spec.Civil.Valid; omega
  rw [if_neg hmo]
  unfold Spec.two Spec.asciiDigits
  simp only [List.map_cons, List.map_nil]
  rw [atoi2_two (by omega)]
  simp only [Option.bind_some]
  have hp : pivotYear ((t.year % 100 : Nat) : Int) = (t.year : Int) := by
    unfold pivotYear; split <;> omega
  rw [hp, daysIn_eq t.year (by omega) (by omega)]
  by_cases hday : t.day < 1 ∨ (Spec.monthLength t.year t.month : Int) < (t.day : Int)
  · rw [if_pos hday, if_neg]; unfold Spec.Civil.Valid; omega
  · have hv : t.Valid := by unfold Spec.Civil.Valid; omega
    rw [if_neg hday, if_pos hv, date_eq hy.1 hv]

theorem getnum_hour {s r : Bytes} {n : Nat} (h : getnum false s = some (n, r)) :
    (n < 100 ∧ s = Spec.two n ++ r) ∨ getnum true r = none := by
  unfold getnum at h
  split at h
  · rename_i a b rest
    split at h
    · simp at h
    · rename_i ha
      split at h
      · rename_i hb
        left
        simp only [Bool.not_eq_true', Bool.not_eq_false] at ha
        obtain ⟨d1, h1, rfl⟩ := (isDigitB_iff a).mp ha
        obtain ⟨d2, h2, rfl⟩ := (isDigitB_iff b).mp hb
        rw [digit_toNat h1, digit_toNat h2] at h
        simp only [Option.some.injEq, Prod.mk.injEq] at h
        obtain ⟨hn, rfl⟩ := h
        refine ⟨by omega, ?_⟩
        have e1 : n / 10 = d1 := by omega
        have e2 : n % 10 = d2 := by omega
        simp [Spec.two, Spec.asciiDigits, e1, e2]
      · rename_i hb
        right
        simp only [Bool.false_eq_true, if_false, Option.some.injEq, Prod.mk.injEq] at h
        obtain ⟨_, rfl⟩ := h
        simp only [Bool.not_eq_true] at hb
        cases rest <;> simp [getnum, hb]
  · rename_i a
    split at h
    · simp at h
    · right
      simp only [Bool.false_eq_true, if_false, Option.some.injEq, Prod.mk.injEq] at h
      obtain ⟨_, rfl⟩ := h
      rfl
  · simp at h

/-- everything time.Parse accepts -/
theorem parseTime_some {s : Bytes} {x : Int} (h : parseTime s = some x) :
    ∃ (t : Spec.Civil) (yy : Bytes), t.Valid ∧ 1969 ≤ t.year ∧ t.year ≤ 2068 ∧
      s = Spec.two t.day ++ Spec.two t.hour ++ Spec.two t.minute ++ (Spec.two t.month ++ yy) ∧
      (yy = Spec.two (t.year % 100) ∨
        ∃ k < 10, (yy = [43, UInt8.ofNat (48 + k)] ∧ t.year = 2000 + k) ∨
          (yy = [45, UInt8.ofNat (48 + k)] ∧ t.year = 2000 - k)) ∧ x = t.instant := by
  unfold parseTime at h
  simp only [Option.bind_eq_bind, Option.bind_eq_some_iff] at h
  obtain ⟨⟨day, s1⟩, h1, ⟨hour, s2⟩, h2, h⟩ := h
  simp only at h h1 h2
  split at h
  · simp at h
  rename_i hh
  simp only [Option.bind_eq_some_iff] at h
  obtain ⟨⟨min, s3⟩, h3, h⟩ := h
  simp only at h
  split at h
  · simp at h
  rename_i hm
  simp only [Option.bind_eq_some_iff] at h
  obtain ⟨⟨month, s4⟩, h4, h⟩ := h
  simp only at h
  split at h
  · simp at h
  rename_i hmo
  split at h
  · rename_i a b
    simp only [Option.bind_eq_some_iff] at h
    obtain ⟨y2, hy, h⟩ := h
    split at h
    · simp at h
    rename_i hday
    simp only [Option.some.injEq] at h
    have g1 := getnum_two h1
    have g3 := getnum_two h3
    have g4 := getnum_two h4
    have g2 : hour < 100 ∧ s1 = Spec.two hour ++ s2 := by
      rcases getnum_hour h2 with g | g
      · exact g
      · rw [g] at h3; simp at h3
    obtain ⟨_, rfl⟩ := g1
    obtain ⟨_, rfl⟩ := g2
    obtain ⟨_, rfl⟩ := g3
    obtain ⟨_, rfl⟩ := g4
    have fin : ∀ yr : Nat, 1969 ≤ yr → yr ≤ 2068 → pivotYear y2 = (yr : Int) →
        (([a, b] : Bytes) = Spec.two (yr % 100) ∨
        ∃ k < 10, (([a, b] : Bytes) = [43, UInt8.ofNat (48 + k)] ∧ yr = 2000 + k) ∨
          (([a, b] : Bytes) = [45, UInt8.ofNat (48 + k)] ∧ yr = 2000 - k)) →
        ∃ (t : Spec.Civil) (yy : Bytes), t.Valid ∧ 1969 ≤ t.year ∧ t.year ≤ 2068 ∧
          Spec.two day ++ (Spec.two hour ++ (Spec.two min ++ (Spec.two month ++ [a, b])))
            = Spec.two t.day ++ Spec.two t.hour ++ Spec.two t.minute ++ (Spec.two t.month ++ yy) ∧
          (yy = Spec.two (t.year % 100) ∨
            ∃ k < 10, (yy = [43, UInt8.ofNat (48 + k)] ∧ t.year = 2000 + k) ∨
              (yy = [45, UInt8.ofNat (48 + k)] ∧ t.year = 2000 - k)) ∧ x = t.instant := by
      intro yr hy1 hy2 hp hyy
      rw [hp, daysIn_eq yr (by omega) (by omega)] at hday
      have hv : (⟨yr, month, day, hour, min⟩ : Spec.Civil).Valid := by
        unfold Spec.Civil.Valid; simp only; omega
      refine ⟨⟨yr, month, day, hour, min⟩, [a, b], hv, hy1, hy2, by simp, hyy, ?_⟩
      rw [← h, hp]
      exact date_eq (t := ⟨yr, month, day, hour, min⟩) hy1 hv
    unfold atoi2 at hy
    split at hy
    · rename_i ha
      subst ha
      split at hy
      · rename_i hb
        obtain ⟨k, hk, rfl⟩ := (isDigitB_iff b).mp hb
        rw [digit_toNat hk] at hy
        simp only [Option.some.injEq] at hy
        refine fin (2000 + k) (by omega) (by omega) ?_ (Or.inr ⟨k, hk, Or.inl ⟨rfl, rfl⟩⟩)
        rw [← hy]; unfold pivotYear; rw [if_neg (by omega)]; omega
      · simp at hy
    · split at hy
      · rename_i ha
        subst ha
        split at hy
        · rename_i hb
          obtain ⟨k, hk, rfl⟩ := (isDigitB_iff b).mp hb
          rw [digit_toNat hk] at hy
          simp only [Option.some.injEq] at hy
          refine fin (2000 - k) (by omega) (by omega) ?_ (Or.inr ⟨k, hk, Or.inr ⟨rfl, rfl⟩⟩)
          rw [← hy]; unfold pivotYear; rw [if_neg (by omega)]; omega
        · simp at hy
      · split at hy
        · rename_i hab
          rw [Bool.and_eq_true] at hab
          obtain ⟨d1, k1, rfl⟩ := (isDigitB_iff a).mp hab.1
          obtain ⟨d2, k2, rfl⟩ := (isDigitB_iff b).mp hab.2
          rw [digit_toNat k1, digit_toNat k2] at hy
          simp only [Option.some.injEq] at hy
          by_cases hp : 69 ≤ d1 * 10 + d2
          · refine fin (1900 + (d1 * 10 + d2)) (by omega) (by omega) ?_ (Or.inl ?_)
            · rw [← hy]; unfold pivotYear; rw [if_pos (by omega)]; omega
            · have e1 : (1900 + (d1 * 10 + d2)) % 100 / 10 = d1 := by omega
              have e2 : (1900 + (d1 * 10 + d2)) % 100 % 10 = d2 := by omega
              unfold Spec.two; rw [e1, e2]; rfl
          · refine fin (2000 + (d1 * 10 + d2)) (by omega) (by omega) ?_ (Or.inl ?_)
            · rw [← hy]; unfold pivotYear; rw [if_neg (by omega)]; omega
            · have e1 : (2000 + (d1 * 10 + d2)) % 100 / 10 = d1 := by omega
              have e2 : (2000 + (d1 * 10 + d2)) % 100 % 10 = d2 := by omega
              unfold Spec.two; rw [e1, e2]; rfl
        · simp at hy
  · simp at h

end Radolan
