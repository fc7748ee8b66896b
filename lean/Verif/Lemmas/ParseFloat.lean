/- `strconv.ParseFloat` and the numerals of Spec/Numeral. -/
import Verif.Go.ParseFloat
import Verif.Spec.Numeral
import Mathlib.Tactic.FieldSimp
import Mathlib.Tactic.IntervalCases

namespace Radolan
open Go
open _root_.Spec (Digit Digits Pointed)

/-- base 16 or 10 -/
abbrev base (hex : Bool) : Nat := if hex then 16 else 10

/-- the characters of digits and the underscore -/
abbrev isD (hex : Bool) (c : Nat) : Bool := if hex then isHex c else isDec c

/-- neither digit nor underscore, in both bases -/
def Stop (hex : Bool) (c : Nat) : Prop := isD hex c = false

theorem lower_of_range {c : Nat} (h : 97 ≤ c ∧ c ≤ 102) : lower c = c := by
  obtain ⟨h1, h2⟩ := h
  interval_cases c <;> rfl

theorem lower_of_capital {c : Nat} (h : 65 ≤ c ∧ c ≤ 70) : lower c = c + 32 := by
  obtain ⟨h1, h2⟩ := h
  interval_cases c <;> rfl

theorem lower_le {c n : Nat} (h : lower c ≤ n) : c ≤ n := le_trans (Nat.left_le_or) h

theorem lower_hex {c : Nat} (h1 : 97 ≤ lower c) (h2 : lower c ≤ 102) : (97 ≤ c ∧ c ≤ 102) ∨ (65 ≤ c ∧ c ≤ 70) := by
  have := lower_le h2
  revert h1 h2
  unfold lower
  interval_cases c <;> decide

theorem lower_eq {c k : Nat} (hk : k = 101 ∨ k = 112 ∨ k = 120 ∨ k = 98 ∨ k = 111) : lower c = k ↔ c = k ∨ c + 32 = k := by
  constructor
  · intro h
    have := lower_le h.le
    rcases hk with rfl | rfl | rfl | rfl | rfl <;> revert h <;> unfold lower <;> interval_cases c <;> decide
  · rintro (rfl | h)
    · rcases hk with rfl | rfl | rfl | rfl | rfl <;> rfl
    · have : c = k - 32 := by omega
      subst this
      rcases hk with rfl | rfl | rfl | rfl | rfl <;> rfl

/-- the test for digits in `underscoreOK` and `readFloat` -/
theorem digit_test (hex : Bool) (c : Nat) :
    (isDigit c || (hex && (97 ≤ lower c && lower c ≤ 102))) = true ↔ isD hex c = true ∧ c ≠ 95 := by
  unfold isD isHex isDec isDigit
  cases hex
  · simp only [Bool.false_and, Bool.or_false, Bool.false_eq_true, if_false, Bool.or_eq_true, Bool.and_eq_true,
      decide_eq_true_eq, beq_iff_eq]
    omega
  · simp only [Bool.true_and, if_true, Bool.or_eq_true, Bool.and_eq_true, decide_eq_true_eq, beq_iff_eq]
    constructor
    · rintro (h | ⟨h1, h2⟩)
      · omega
      · rcases lower_hex h1 h2 with h | h <;> omega
    · rintro ⟨((h | h) | h) | h, h'⟩
      · left; omega
      · omega
      · right; rw [lower_of_range h]; omega
      · right; rw [lower_of_capital h]; omega

theorem digit_isD {hex : Bool} {c d : Nat} (h : Digit (base hex) c d) : isD hex c = true ∧ c ≠ 95 := by
  rcases hex with - | -
  · generalize hb : base false = b at h
    have : b = 10 := by rw [← hb]; rfl
    cases h with
    | decimal h => refine ⟨?_, by omega⟩; simp [isD, isDec, isDigit]; omega
    | small h => omega
    | capital h => omega
  · generalize hb : base true = b at h
    have : b = 16 := by rw [← hb]; rfl
    cases h with
    | decimal h => refine ⟨?_, by omega⟩; simp [isD, isHex, isDec, isDigit]; omega
    | small h => refine ⟨?_, by omega⟩; simp [isD, isHex, isDec, isDigit]; omega
    | capital h => refine ⟨?_, by omega⟩; simp [isD, isHex, isDec, isDigit]; omega

theorem isD_digit {hex : Bool} {c : Nat} (h : isD hex c = true) (h' : c ≠ 95) : ∃ d, Digit (base hex) c d := by
  unfold isD isHex isDec isDigit at h
  cases hex
  · simp only [Bool.false_eq_true, if_false, Bool.or_eq_true, Bool.and_eq_true, decide_eq_true_eq, beq_iff_eq] at h
    have e : c = 48 + (c - 48) := by omega
    rw [e]; exact ⟨_, .decimal (by omega)⟩
  · simp only [if_true, Bool.or_eq_true, Bool.and_eq_true, decide_eq_true_eq, beq_iff_eq] at h
    rcases h with ((h | h) | h) | h
    · have e : c = 48 + (c - 48) := by omega
      rw [e]; exact ⟨_, .decimal (by omega)⟩
    · omega
    · have e : c = 97 + (c - 97) := by omega
      rw [e]; exact ⟨_, .small (by omega)⟩
    · have e : c = 65 + (c - 65) := by omega
      rw [e]; exact ⟨_, .capital (by omega)⟩

theorem sawStep_digit {hex : Bool} {c : Nat} (saw : Saw) (h : isD hex c = true) (h' : c ≠ 95) :
    sawStep hex saw c = some .digit := by
  unfold sawStep
  rw [if_pos ((digit_test hex c).mpr ⟨h, h'⟩)]

theorem sawStep_underscore {hex : Bool} (saw : Saw) :
    sawStep hex saw 95 = if saw = .digit then some .underscore else none := by
  unfold sawStep
  rw [if_neg (by rw [digit_test]; simp), if_pos rfl]

theorem sawStep_stop {hex : Bool} {c : Nat} (saw : Saw) (h : Stop hex c) :
    sawStep hex saw c = if saw = .underscore then none else some .other := by
  unfold sawStep
  have h95 : c ≠ 95 := by
    rintro rfl
    unfold Stop at h
    cases hex <;> simp [isD, isHex, isDec] at h
  rw [if_neg (by rw [digit_test]; rintro ⟨h1, _⟩; rw [Stop] at h; rw [h] at h1; simp at h1), if_neg h95]

theorem sawLoop_append (hex : Bool) (l r : List Nat) : ∀ saw,
    sawLoop hex saw (l ++ r) = (sawLoop hex saw l).bind fun s => sawLoop hex s r := by
  induction l with
  | nil => intro saw; rfl
  | cons c l ih =>
    intro saw
    simp only [List.cons_append, sawLoop]
    cases sawStep hex saw c with
    | none => rfl
    | some s => simpa using ih s

theorem sawLoop_snoc (hex : Bool) (l : List Nat) (c : Nat) (saw : Saw) :
    sawLoop hex saw (l ++ [c]) = (sawLoop hex saw l).bind fun s => sawStep hex s c := by
  rw [sawLoop_append]
  congr 1
  funext s
  simp [sawLoop]

/-- after digits and underscores, from a state that is neither -/
theorem saw_group {hex : Bool} {saw : Saw} (hs : saw = .start ∨ saw = .other) : ∀ {D : List Nat},
    (∀ c ∈ D, isD hex c = true) →
    (sawLoop hex saw D = some .digit ↔ ∃ n k, Digits (base hex) D n k) ∧
    (∀ s, sawLoop hex saw D = some s → s = .digit ∨ s = .underscore ∨ D = []) ∧
    (sawLoop hex saw D = some .underscore ↔ ∃ D' n k, D = D' ++ [95] ∧ Digits (base hex) D' n k) := by
  intro D
  induction D using List.reverseRecOn with
  | nil =>
    intro _
    refine ⟨⟨fun h => ?_, ?_⟩, by simp, ⟨fun h => ?_, ?_⟩⟩
    · simp only [sawLoop, Option.some.injEq] at h; subst h; simp at hs
    · rintro ⟨n, k, h⟩
      generalize hD : ([] : List Nat) = D at h
      cases h <;> simp at hD
    · simp only [sawLoop, Option.some.injEq] at h; subst h; simp at hs
    · rintro ⟨D', n, k, h, _⟩; simp at h
  | append_singleton D c ih =>
    intro hD
    obtain ⟨i1, i2, i3⟩ := ih (fun x hx => hD x (by simp [hx]))
    have hc := hD c (by simp)
    have hinv : ∀ {n k}, Digits (base hex) (D ++ [c]) n k → c ≠ 95 ∧
        (D = [] ∨ (∃ n k, Digits (base hex) D n k) ∨ ∃ D' n k, D = D' ++ [95] ∧ Digits (base hex) D' n k) := by
      intro n k h
      generalize hE : D ++ [c] = E at h
      cases h with
      | one h =>
        rename_i c'
        have := List.append_eq_singleton_iff.mp hE
        have hcc : c = c' ∧ D = [] := by simpa [and_comm] using this
        rw [hcc.1]
        exact ⟨(digit_isD h).2, Or.inl hcc.2⟩
      | next h hc' =>
        obtain ⟨rfl, h2⟩ := List.append_inj' hE rfl
        simp only [List.cons.injEq, and_true] at h2
        subst h2
        exact ⟨(digit_isD hc').2, Or.inr (Or.inl ⟨_, _, h⟩)⟩
      | separated h hc' =>
        rename_i t n k c' d
        rw [show t ++ [95, c'] = (t ++ [95]) ++ [c'] by simp] at hE
        obtain ⟨rfl, h2⟩ := List.append_inj' hE rfl
        simp only [List.cons.injEq, and_true] at h2
        subst h2
        exact ⟨(digit_isD hc').2, Or.inr (Or.inr ⟨_, _, _, rfl, h⟩)⟩
    rw [sawLoop_snoc]
    by_cases h95 : c = 95
    · subst h95
      simp only [sawStep_underscore]
      refine ⟨⟨fun h => ?_, ?_⟩, fun s h => ?_, ⟨fun h => ?_, ?_⟩⟩
      · cases hl : sawLoop hex saw D with
        | none => rw [hl] at h; simp at h
        | some s => rw [hl] at h; simp only [Option.bind_some] at h; split at h <;> simp at h
      · rintro ⟨n, k, h⟩; exact absurd rfl (hinv h).1
      · cases hl : sawLoop hex saw D with
        | none => rw [hl] at h; simp at h
        | some s' =>
          rw [hl] at h; simp only [Option.bind_some] at h
          split at h
          · simp only [Option.some.injEq] at h; exact Or.inr (Or.inl h.symm)
          · simp at h
      · cases hl : sawLoop hex saw D with
        | none => rw [hl] at h; simp at h
        | some s' =>
          rw [hl] at h; simp only [Option.bind_some] at h
          split at h
          · rename_i e; subst e
            obtain ⟨n, k, hd⟩ := i1.mp hl
            exact ⟨D, n, k, rfl, hd⟩
          · simp at h
      · rintro ⟨D', n, k, h, hd⟩
        obtain ⟨rfl, _⟩ := List.append_inj' h rfl
        rw [i1.mpr ⟨n, k, hd⟩]; rfl
    · obtain ⟨d, hd⟩ := isD_digit hc h95
      have hst : (sawLoop hex saw D).bind (fun s => sawStep hex s c) = (sawLoop hex saw D).bind fun _ => some .digit := by
        congr 1; funext s; exact sawStep_digit s hc h95
      rw [hst]
      refine ⟨⟨fun h => ?_, ?_⟩, fun s h => ?_, ⟨fun h => ?_, ?_⟩⟩
      · cases hl : sawLoop hex saw D with
        | none => rw [hl] at h; simp at h
        | some s =>
          rcases i2 s hl with rfl | rfl | rfl
          · obtain ⟨n, k, hn⟩ := i1.mp hl; exact ⟨_, _, .next hn hd⟩
          · obtain ⟨D', n, k, rfl, hn⟩ := i3.mp hl
            rw [List.append_assoc]; exact ⟨_, _, .separated hn hd⟩
          · exact ⟨_, _, .one hd⟩
      · rintro ⟨n, k, h⟩
        rcases (hinv h).2 with rfl | h | h
        · rfl
        · rw [i1.mpr h]; rfl
        · rw [i3.mpr h]; rfl
      · cases hl : sawLoop hex saw D with
        | none => rw [hl] at h; simp at h
        | some s' => rw [hl] at h; simp only [Option.bind_some, Option.some.injEq] at h; exact Or.inl h.symm
      · cases hl : sawLoop hex saw D with
        | none => rw [hl] at h; simp at h
        | some s' => rw [hl] at h; simp at h
      · rintro ⟨D', n, k, h, _⟩
        obtain ⟨_, h2⟩ := List.append_inj' h rfl
        simp only [List.cons.injEq, and_true] at h2
        exact absurd h2 h95

/-- the loop of `underscoreOK` ends well -/
def Good (hex : Bool) (saw : Saw) (l : List Nat) : Prop := ∃ f, sawLoop hex saw l = some f ∧ f ≠ .underscore

theorem good_nil {hex : Bool} {saw : Saw} : Good hex saw [] ↔ saw ≠ .underscore := by
  unfold Good; simp [sawLoop]

theorem good_stop {hex : Bool} {saw : Saw} {c : Nat} {r : List Nat} (h : Stop hex c) :
    Good hex saw (c :: r) ↔ saw ≠ .underscore ∧ Good hex .other r := by
  unfold Good
  simp only [sawLoop, sawStep_stop saw h]
  by_cases e : saw = .underscore
  · simp [e]
  · simp [e]

/-- texts that are empty or begin with a character that is no digit -/
def Halts (hex : Bool) (r : List Nat) : Prop := ∀ c ∈ r.head?, Stop hex c

theorem good_underscore {hex : Bool} {r : List Nat} (h : Halts hex r) : ¬ Good hex .underscore r := by
  cases r with
  | nil => rw [good_nil]; simp
  | cons c r => rw [good_stop (h c (by simp))]; simp

theorem good_digits {hex : Bool} {saw : Saw} {D r : List Nat} {n k : Nat} (h : Digits (base hex) D n k) :
    Good hex saw (D ++ r) ↔ Good hex .digit r := by
  have : sawLoop hex saw D = some .digit := by
    induction h with
    | one h => simp only [sawLoop, sawStep_digit saw (digit_isD h).1 (digit_isD h).2]; rfl
    | next h hc ih => rw [sawLoop_snoc, ih]; exact sawStep_digit _ (digit_isD hc).1 (digit_isD hc).2
    | separated h hc ih =>
      rename_i t n k c d
      rw [show t ++ [95, c] = (t ++ [95]) ++ [c] by simp, sawLoop_snoc, sawLoop_snoc, ih]
      simp only [Option.bind_some, sawStep_underscore, if_true]
      exact sawStep_digit _ (digit_isD hc).1 (digit_isD hc).2
  unfold Good
  rw [sawLoop_append, this]; rfl

theorem good_group {hex : Bool} {saw : Saw} (hs : saw = .start ∨ saw = .other) {D r : List Nat}
    (hD : ∀ c ∈ D, isD hex c = true) (hr : Halts hex r) (h : Good hex saw (D ++ r)) :
    (D = [] ∧ Good hex saw r) ∨ ((∃ n k, Digits (base hex) D n k) ∧ Good hex .digit r) := by
  obtain ⟨g1, g2, g3⟩ := saw_group hs hD
  obtain ⟨f, hf, hne⟩ := h
  rw [sawLoop_append] at hf
  cases hl : sawLoop hex saw D with
  | none => rw [hl] at hf; simp at hf
  | some s =>
    rw [hl] at hf
    rcases g2 s hl with rfl | rfl | rfl
    · exact Or.inr ⟨g1.mp hl, f, hf, hne⟩
    · exact absurd ⟨f, hf, hne⟩ (good_underscore hr)
    · simp only [sawLoop, Option.some.injEq] at hl
      subst hl
      exact Or.inl ⟨rfl, f, hf, hne⟩

/-- after the prefix of a hexadecimal number, which counts as a digit -/
theorem good_prefixed {hex : Bool} {D r : List Nat} (hD : ∀ c ∈ D, isD hex c = true) (hr : Halts hex r)
    (h : Good hex .digit (D ++ r)) :
    (D = [] ∨ (∃ n k, Digits (base hex) D n k) ∨ ∃ t n k, D = 95 :: t ∧ Digits (base hex) t n k) ∧ Good hex .digit r := by
  cases D with
  | nil => exact ⟨Or.inl rfl, h⟩
  | cons c D =>
    have hc := hD c (by simp)
    have hD' : ∀ x ∈ D, isD hex x = true := fun x hx => hD x (by simp [hx])
    by_cases h95 : c = 95
    · subst h95
      cases D with
      | nil =>
        exfalso
        obtain ⟨f, hf, hne⟩ := h
        simp only [List.cons_append, List.nil_append, sawLoop, sawStep_underscore, if_true, Option.bind_some] at hf
        exact good_underscore hr ⟨f, hf, hne⟩
      | cons c' D =>
        have hc' := hD' c' (by simp)
        by_cases h95' : c' = 95
        · subst h95'
          obtain ⟨f, hf, hne⟩ := h
          simp [sawLoop, sawStep_underscore] at hf
        · have key : Good hex .start ((c' :: D) ++ r) := by
            obtain ⟨f, hf, hne⟩ := h
            refine ⟨f, ?_, hne⟩
            simp only [List.cons_append, sawLoop, sawStep_underscore, if_true, Option.bind_some,
              sawStep_digit _ hc' h95'] at hf ⊢
            exact hf
          rcases good_group (Or.inl rfl) hD' hr key with ⟨h1, _⟩ | ⟨⟨n, k, h1⟩, h2⟩
          · simp at h1
          · exact ⟨Or.inr (Or.inr ⟨_, n, k, rfl, h1⟩), h2⟩
    · have key : Good hex .start ((c :: D) ++ r) := by
        obtain ⟨f, hf, hne⟩ := h
        refine ⟨f, ?_, hne⟩
        simp only [List.cons_append, sawLoop, sawStep_digit _ hc h95] at hf ⊢
        exact hf
      rcases good_group (Or.inl rfl) hD hr key with ⟨h1, _⟩ | ⟨h1, h2⟩
      · simp at h1
      · exact ⟨Or.inr (Or.inl h1), h2⟩

/-! ### the mantissa -/

theorem mantLoop_digit {hex : Bool} {m : Go.Mantissa} {c d : Nat} {s : List Nat} (h : Digit (base hex) c d) :
    mantLoop hex m (c :: s) = mantLoop hex (m.push (base hex) d) s := by
  have ht := digit_isD h
  have hb : ∀ b, b = base hex → Digit b c d := by rintro b rfl; exact h
  rcases hex with - | -
  · have h := hb 10 rfl
    cases h with
    | decimal h =>
      rw [mantLoop, if_neg ht.2, if_neg (by omega), if_pos (by simp [isDigit]; omega)]
      congr 2; omega
  · have h := hb 16 rfl
    cases h with
    | decimal h =>
      rw [mantLoop, if_neg ht.2, if_neg (by omega), if_pos (by simp [isDigit]; omega)]
      congr 2; omega
    | @small d h =>
      have hl : lower (97 + d) = 97 + d := lower_of_range (c := 97 + d) ⟨by omega, by omega⟩
      rw [mantLoop, if_neg ht.2, if_neg (by omega), if_neg (by simp [isDigit]; omega),
        if_pos (by rw [hl]; simp; omega), hl]
      congr 2; omega
    | @capital d h =>
      have hl : lower (65 + d) = 65 + d + 32 := lower_of_capital (c := 65 + d) ⟨by omega, by omega⟩
      rw [mantLoop, if_neg ht.2, if_neg (by omega), if_neg (by simp [isDigit]; omega),
        if_pos (by rw [hl]; simp; omega), hl]
      congr 2; omega

theorem mantLoop_underscore {hex : Bool} {m : Go.Mantissa} {s : List Nat} :
    mantLoop hex m (95 :: s) = mantLoop hex m s := by
  rw [mantLoop, if_pos rfl]

theorem mantLoop_digits {hex : Bool} {D : List Nat} {n k : Nat} (h : Digits (base hex) D n k) : ∀ (m : Go.Mantissa)
    (r : List Nat), mantLoop hex m (D ++ r) = mantLoop hex
      { m with sawdigits := true, mant := m.mant * base hex ^ k + n, frac := if m.sawdot then m.frac + k else m.frac } r := by
  induction h with
  | one h =>
    intro m r
    rw [List.singleton_append, mantLoop_digit h]
    simp [Go.Mantissa.push]
  | next h hc ih =>
    intro m r
    rw [List.append_assoc, ih, List.singleton_append, mantLoop_digit hc]
    congr 1
    simp only [Go.Mantissa.push, Go.Mantissa.mk.injEq, true_and]
    refine ⟨by ring, ?_⟩
    split <;> omega
  | separated h hc ih =>
    intro m r
    rw [List.append_assoc, ih, List.cons_append, mantLoop_underscore, List.singleton_append, mantLoop_digit hc]
    congr 1
    simp only [Go.Mantissa.push, Go.Mantissa.mk.injEq, true_and]
    refine ⟨by ring, ?_⟩
    split <;> omega

theorem mantLoop_stop {hex : Bool} {m : Go.Mantissa} {r : List Nat} (h : Halts hex r) (h46 : ∀ c ∈ r.head?, c ≠ 46) :
    mantLoop hex m r = (m, r) := by
  cases r with
  | nil => rfl
  | cons c r =>
    have hc := h c (by simp)
    have h95 : c ≠ 95 := by
      rintro rfl
      unfold Stop at hc
      cases hex <;> simp [isD, isHex, isDec] at hc
    have ht : ¬ (isDigit c || (hex && (97 ≤ lower c && lower c ≤ 102))) = true := by
      rw [digit_test]; rintro ⟨h1, _⟩; rw [Stop] at hc; rw [hc] at h1; simp at h1
    rw [mantLoop, if_neg h95, if_neg (h46 c (by simp))]
    rw [Bool.or_eq_true, not_or] at ht
    rw [if_neg ht.1, if_neg ht.2]

theorem mantLoop_point {hex : Bool} {m : Go.Mantissa} {s : List Nat} (h : m.sawdot = false) :
    mantLoop hex m (46 :: s) = mantLoop hex { m with sawdot := true } s := by
  rw [mantLoop, if_neg (by decide), if_pos rfl, if_neg (by rw [h]; simp)]

/-- a mantissa is read to its value -/
theorem mantLoop_mantissa {hex : Bool} {t r : List Nat} {q : ℚ} (h : Spec.Mantissa (base hex) t q) (hr : Halts hex r)
    (h46 : ∀ c ∈ r.head?, c ≠ 46) :
    ∃ m : Go.Mantissa, mantLoop hex ⟨false, false, 0, 0⟩ (t ++ r) = (m, r) ∧ m.sawdigits = true ∧
      (m.mant / (base hex : ℚ) ^ m.frac : ℚ) = q := by
  have hb : ((base hex : Nat) : ℚ) ≠ 0 := by cases hex <;> simp [base]
  rcases h with h | ⟨n, k, h, rfl⟩
  · cases h with
    | before h =>
      rw [List.cons_append, mantLoop_point rfl, mantLoop_digits h, mantLoop_stop hr h46]
      exact ⟨_, rfl, rfl, by simp⟩
    | between h h' =>
      rw [List.append_assoc, mantLoop_digits h, List.cons_append, mantLoop_point rfl, mantLoop_digits h', mantLoop_stop hr h46]
      refine ⟨_, rfl, rfl, ?_⟩
      simp only [if_true, Bool.false_eq_true, if_false]
      push_cast
      field_simp
      simp
    | after h =>
      rw [List.append_assoc, mantLoop_digits h, List.singleton_append, mantLoop_point rfl, mantLoop_stop hr h46]
      exact ⟨_, rfl, rfl, by simp⟩
  · rw [mantLoop_digits h, mantLoop_stop hr h46]
    exact ⟨_, rfl, rfl, by simp⟩

end Radolan
