/-
C75: header times and the calendar.
-/
import Verif.Spec.Clock
import Verif.Props.Time

namespace Props
open Go Radolan _root_.Spec

theorem monthLength_pos (y m : Nat) : 28 ≤ monthLength y m ∧ monthLength y m ≤ 31 := by
  unfold monthLength
  split
  · omega
  · split
    · omega
    · split <;> omega

theorem monthsDays_mono (y : Nat) {m n : Nat} (h : m < n) : monthsDays y m + monthLength y (m + 1) ≤ monthsDays y n := by
  induction n with
  | zero => omega
  | succ n ih =>
    rw [show monthsDays y (n + 1) = monthsDays y n + monthLength y (n + 1) from rfl]
    by_cases hm : m = n
    · subst hm; omega
    · have := ih (by omega); omega

theorem yearsDays_mono {m n : Nat} (h : m < n) : yearsDays m + monthsDays (1969 + m) 12 ≤ yearsDays n := by
  induction n with
  | zero => omega
  | succ n ih =>
    rw [yearsDays]
    by_cases hm : m = n
    · subst hm; omega
    · have := ih (by omega); omega

/-- the days before a date, within the year -/
theorem inYear_lt {t : Civil} (hv : t.Valid) : monthsDays t.year (t.month - 1) + t.day ≤ monthsDays t.year 12 := by
  obtain ⟨h1, h2, h3, h4, _⟩ := hv
  have := monthsDays_mono t.year (m := t.month - 1) (n := 12) (by omega)
  rw [show t.month - 1 + 1 = t.month by omega] at this
  omega

theorem days_lt {s t : Civil} (hs : s.Valid) (ht : t.Valid) (hy : 1969 ≤ s.year)
    (h : s.year < t.year ∨ s.year = t.year ∧ (s.month < t.month ∨ s.month = t.month ∧ s.day < t.day)) : s.days < t.days := by
  unfold Civil.days
  obtain ⟨t1, t2, t3, t4, _⟩ := ht
  rcases h with h | ⟨h1, h | ⟨h2, h3⟩⟩
  · have a := yearsDays_mono (m := s.year - 1969) (n := t.year - 1969) (by omega)
    rw [show 1969 + (s.year - 1969) = s.year by omega] at a
    have b := inYear_lt hs
    omega
  · obtain ⟨s1, s2, s3, s4, _⟩ := hs
    have a := monthsDays_mono s.year (m := s.month - 1) (n := t.month - 1) (by omega)
    rw [show s.month - 1 + 1 = s.month by omega] at a
    rw [← h1]
    omega
  · rw [← h1, ← h2]; omega

theorem instant_lt {s t : Civil} (hs : s.Valid) (ht : t.Valid) (hy : 1969 ≤ s.year) (h : s.Before t) : s.instant < t.instant := by
  unfold Civil.instant
  have s5 := hs.2.2.2.2
  have t5 := ht.2.2.2.2
  by_cases hd : s.year < t.year ∨ s.year = t.year ∧ (s.month < t.month ∨ s.month = t.month ∧ s.day < t.day)
  · have := days_lt hs ht hy hd
    omega
  · unfold Civil.Before at h
    have e : s.year = t.year ∧ s.month = t.month ∧ s.day = t.day := by omega
    have ed : s.days = t.days := by unfold Civil.days; rw [e.1, e.2.1, e.2.2]
    rw [ed]
    omega

theorem before_total (s t : Civil) : s.Before t ∨ s = t ∨ t.Before s := by
  unfold Civil.Before
  by_cases h : s.year = t.year ∧ s.month = t.month ∧ s.day = t.day ∧ s.hour = t.hour ∧ s.minute = t.minute
  · right; left
    cases s; cases t
    simp only at h
    obtain ⟨rfl, rfl, rfl, rfl, rfl⟩ := h
    rfl
  · omega

theorem before_iff {s t : Civil} (hs : s.Valid) (ht : t.Valid) (hy : 1969 ≤ s.year) (hy' : 1969 ≤ t.year) :
    (s.instant < t.instant ↔ s.Before t) ∧ (s.instant = t.instant ↔ s = t) := by
  rcases before_total s t with h | h | h
  · have := instant_lt hs ht hy h
    refine ⟨⟨fun _ => h, fun _ => this⟩, ⟨fun e => by omega, fun e => by subst e; omega⟩⟩
  · subst h
    refine ⟨⟨fun h => by omega, fun h => ?_⟩, by simp⟩
    unfold Civil.Before at h; omega
  · have := instant_lt ht hs hy' h
    refine ⟨⟨fun _ => by omega, fun h' => ?_⟩, ⟨fun e => by omega, fun e => by subst e; omega⟩⟩
    have := instant_lt hs ht hy h'
    omega

/-- The capture time of an accepted input that begins with the time stamp of a civil time is that instant. -/
theorem C75_stamp {E : Env} {input label wmo : Bytes} {t : Civil} {c : Composite} (hl : label.length = 2) (hw : wmo.length = 5)
    (hv : t.Valid) (hy : 1969 ≤ t.year ∧ t.year ≤ 2068) (hi : input.take 17 = stamp label wmo t) (hS : Success E input c) :
    c.captureTime = t.instant := by
  obtain ⟨t', hv', hy1, hy2, hc, h1, h2, h3⟩ := C21_capture_time hS
  have hin : ∀ a n, a + n ≤ 17 → (input.drop a).take n = ((stamp label wmo t).drop a).take n := by
    intro a n h
    rw [← hi, List.drop_take, List.take_take, Nat.min_eq_left (by omega)]
  rw [hin 2 6 (by omega)] at h1
  rw [hin 13 2 (by omega)] at h2
  rw [hin 15 2 (by omega)] at h3
  obtain ⟨a, b, rfl⟩ : ∃ a b, label = [a, b] := by
    match label, hl with
    | [a, b], _ => exact ⟨a, b, rfl⟩
  obtain ⟨c', d, e, f, g, rfl⟩ : ∃ c d e f g, wmo = [c, d, e, f, g] := by
    match wmo, hw with
    | [c, d, e, f, g], _ => exact ⟨c, d, e, f, g, rfl⟩
  have dig : ∀ {m n : Nat}, m < 10 → n < 10 → UInt8.ofNat (48 + m) = UInt8.ofNat (48 + n) → m = n := by
    intro m n hm hn he
    have := congrArg UInt8.toNat he
    rw [digit_toNat hm, digit_toNat hn] at this
    omega
  have two_inj : ∀ {m n : Nat}, m < 100 → n < 100 → UInt8.ofNat (48 + m / 10) = UInt8.ofNat (48 + n / 10) →
      UInt8.ofNat (48 + m % 10) = UInt8.ofNat (48 + n % 10) → m = n := by
    intro m n hm hn e1 e2
    have := dig (by omega) (by omega) e1
    have := dig (by omega) (by omega) e2
    omega
  obtain ⟨m1, m2, m3, m4, m5, m6⟩ := hv
  obtain ⟨n1, n2, n3, n4, n5, n6⟩ := hv'
  have ml := (monthLength_pos t.year t.month).2
  have nl := (monthLength_pos t'.year t'.month).2
  have h1' : two t.day ++ two t.hour ++ two t.minute = two t'.day ++ two t'.hour ++ two t'.minute := h1
  have h2' : two t.month = two t'.month := h2
  have h3' : two (t.year % 100) = two (t'.year % 100) ∨
        ∃ k < 10, (two (t.year % 100) = [43, UInt8.ofNat (48 + k)] ∧ t'.year = 2000 + k) ∨
          (two (t.year % 100) = [45, UInt8.ofNat (48 + k)] ∧ t'.year = 2000 - k) := h3
  simp only [two, asciiDigits, List.map_cons, List.map_nil, List.cons_append, List.nil_append, List.cons.injEq, and_true] at h1' h2' h3'
  obtain ⟨d1, d2, d3, d4, d5, d6⟩ := h1'
  have e1 := two_inj (by omega) (by omega) d1 d2
  have e2 := two_inj (by omega) (by omega) d3 d4
  have e3 := two_inj (by omega) (by omega) d5 d6
  have e4 := two_inj (by omega) (by omega) h2'.1 h2'.2
  have e5 : t.year = t'.year := by
    rcases h3' with ⟨g1, g2⟩ | ⟨k, _, ⟨⟨g1, _⟩, _⟩ | ⟨⟨g1, _⟩, _⟩⟩
    · have := two_inj (m := t.year % 100) (n := t'.year % 100) (by omega) (by omega) g1 g2
      omega
    · have := congrArg UInt8.toNat g1
      rw [digit_toNat (by omega)] at this
      have e : (43 : UInt8).toNat = 43 := rfl
      omega
    · have := congrArg UInt8.toNat g1
      rw [digit_toNat (by omega)] at this
      have e : (45 : UInt8).toNat = 45 := rfl
      omega
  have : t = t' := by
    cases t; cases t'
    simp only at e1 e2 e3 e4 e5
    subst e1 e2 e3 e4 e5
    rfl
  rw [hc, this]

/-- Capture times are ordered as the times in the headers, and equal only if these are. -/
theorem C75_order {E : Env} {input input' label label' wmo wmo' : Bytes} {s t : Civil} {c c' : Composite}
    (hl : label.length = 2) (hw : wmo.length = 5) (hl' : label'.length = 2) (hw' : wmo'.length = 5)
    (hs : s.Valid) (ht : t.Valid) (hy : 1969 ≤ s.year ∧ s.year ≤ 2068) (hy' : 1969 ≤ t.year ∧ t.year ≤ 2068)
    (hi : input.take 17 = stamp label wmo s) (hi' : input'.take 17 = stamp label' wmo' t)
    (hS : Success E input c) (hS' : Success E input' c') :
    (c.captureTime < c'.captureTime ↔ s.Before t) ∧ (c.captureTime = c'.captureTime ↔ s = t) := by
  rw [C75_stamp hl hw hs hy hi hS, C75_stamp hl' hw' ht hy' hi' hS']
  exact before_iff hs ht hy.1 hy'.1

theorem tick_valid {t : Civil} (hv : t.Valid) : t.tick.Valid := by
  obtain ⟨h1, h2, h3, h4, h5, h6⟩ := hv
  have a := monthLength_pos t.year (t.month + 1)
  have b := monthLength_pos (t.year + 1) 1
  unfold Civil.tick
  split
  · exact ⟨h1, h2, h3, h4, h5, by simp only; omega⟩
  · split
    · exact ⟨h1, h2, h3, h4, by simp only; omega, by simp only; omega⟩
    · split
      · exact ⟨h1, h2, by simp only; omega, by simp only; omega, by simp only; omega, by simp only; omega⟩
      · split
        · exact ⟨by simp only; omega, by simp only; omega, by simp only; omega, by simp only; omega, by simp only; omega, by simp only; omega⟩
        · exact ⟨by simp only; omega, by simp only; omega, by simp only; omega, by simp only; omega, by simp only; omega, by simp only; omega⟩

/-- One minute on the clock is one minute of time: across hours, days, months of every length, leap days and years. -/
theorem C75_tick {t : Civil} (hv : t.Valid) (hy : 1969 ≤ t.year) : t.tick.instant = t.instant + 60 * 1000000000 := by
  obtain ⟨h1, h2, h3, h4, h5, h6⟩ := hv
  unfold Civil.tick
  split
  · simp only [Civil.instant, Civil.days]; push_cast; ring
  · rename_i hm
    have em : t.minute = 59 := by omega
    split
    · simp only [Civil.instant, Civil.days, em]; push_cast; ring
    · rename_i hh
      have eh : t.hour = 23 := by omega
      split
      · simp only [Civil.instant, Civil.days, em, eh]; push_cast; ring
      · rename_i hd
        have ed : t.day = monthLength t.year t.month := by omega
        split
        · have e : monthsDays t.year t.month = monthsDays t.year (t.month - 1) + monthLength t.year t.month := by
            conv_lhs => rw [show t.month = t.month - 1 + 1 by omega]
            rw [monthsDays, show t.month - 1 + 1 = t.month by omega]
          simp only [Civil.instant, Civil.days, em, eh, ed, Nat.add_sub_cancel, e]; push_cast; ring
        · have e12 : t.month = 12 := by omega
          have e : yearsDays (t.year + 1 - 1969) = yearsDays (t.year - 1969) + (monthsDays t.year 11 + monthLength t.year 12) := by
            rw [show t.year + 1 - 1969 = t.year - 1969 + 1 by omega, yearsDays, show 1969 + (t.year - 1969) = t.year by omega]
            rfl
          simp only [Civil.instant, Civil.days, em, eh, ed, e12, e, monthsDays, Nat.sub_self]; push_cast; ring

/-- Every minute from 1 January 1969 to 31 December 2068 is the instant of exactly one valid civil time. -/
theorem C75_every_minute (n : Nat) (hn : n < 100 * 525960) :
    ∃ t : Civil, t.Valid ∧ 1969 ≤ t.year ∧ t.year ≤ 2068 ∧ t.instant = (-365 * 24 * 60 + n) * 60 * 1000000000 ∧
      ∀ t' : Civil, t'.Valid → 1969 ≤ t'.year → t'.instant = t.instant → t' = t := by
  have ex : ∀ n : Nat, ∃ t : Civil, t.Valid ∧ 1969 ≤ t.year ∧ t.instant = (-365 * 24 * 60 + (n : Int)) * 60 * 1000000000 := by
    intro n
    induction n with
    | zero => exact ⟨⟨1969, 1, 1, 0, 0⟩, by decide, by decide, by decide⟩
    | succ n ih =>
      obtain ⟨t, hv, hy, ht⟩ := ih
      refine ⟨t.tick, tick_valid hv, ?_, ?_⟩
      · unfold Civil.tick
        split
        · exact hy
        · split
          · exact hy
          · split
            · exact hy
            · split
              · exact hy
              · simp only; omega
      · rw [C75_tick hv hy, ht]; push_cast; ring
  obtain ⟨t, hv, hy, ht⟩ := ex n
  refine ⟨t, hv, hy, ?_, ht, fun t' hv' hy' he => ((before_iff hv' hv hy' hy).2).mp he⟩
  by_contra hlt
  have hb : (⟨2068, 12, 31, 23, 59⟩ : Civil).Before t := by unfold Civil.Before; simp only; omega
  have := instant_lt (s := ⟨2068, 12, 31, 23, 59⟩) (by decide) hv (by decide) hb
  have e : (⟨2068, 12, 31, 23, 59⟩ : Civil).instant = (-365 * 24 * 60 + (100 * 525960 - 1)) * 60 * 1000000000 := by decide +kernel
  rw [e, ht] at this
  omega

example : ∃ c, Success env0 sampleRX c ∧ sampleRX.take 17 = stamp (str "RX") (str "10000") ⟨2017, 2, 2, 13, 10⟩ ∧
    (⟨2017, 2, 2, 13, 10⟩ : Civil).Valid :=
  let ⟨c, h, _⟩ := sampleRX_ok; ⟨c, h, by decide, by decide⟩

/-- the last minute of a leap year's February -/
example : (⟨2016, 2, 28, 23, 59⟩ : Civil).Valid ∧ (⟨2016, 2, 28, 23, 59⟩ : Civil).tick.day = 29 := by decide

end Props
