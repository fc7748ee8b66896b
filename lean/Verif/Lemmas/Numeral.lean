/- The floating point tokens of package fmt and their values: exactly the numerals of Spec/Numeral. -/
import Verif.Lemmas.ParseFloat
import Verif.Lemmas.Numbers

namespace Radolan
open Go
open _root_.Spec (Digit Digits Pointed Sign)

theorem digits_length {b : Nat} {t : List Nat} {n k : Nat} (h : Digits b t n k) : 1 ≤ k ∧ k ≤ t.length := by
  induction h with
  | one _ => simp
  | next _ _ ih => simp; omega
  | separated _ _ ih => simp; omega

theorem digits_isD {hex : Bool} {t : List Nat} {n k : Nat} (h : Digits (base hex) t n k) :
    ∀ c ∈ t, isD hex c = true := by
  induction h with
  | one h => intro c hc; simp only [List.mem_singleton] at hc; subst hc; exact (digit_isD h).1
  | next _ h ih =>
    intro c hc
    rcases List.mem_append.mp hc with hc | hc
    · exact ih c hc
    · simp only [List.mem_singleton] at hc; subst hc; exact (digit_isD h).1
  | separated _ h ih =>
    intro c hc
    rcases List.mem_append.mp hc with hc | hc
    · exact ih c hc
    · simp only [List.mem_cons, List.not_mem_nil, or_false] at hc
      rcases hc with rfl | rfl
      · cases hex <;> rfl
      · exact (digit_isD h).1

/-- the first character is a digit -/
theorem digits_head {hex : Bool} {t : List Nat} {n k : Nat} (h : Digits (base hex) t n k) :
    ∃ c l, t = c :: l ∧ isD hex c = true ∧ c ≠ 95 := by
  induction h with
  | one h => exact ⟨_, _, rfl, digit_isD h⟩
  | next _ _ ih => obtain ⟨c, l, rfl, h⟩ := ih; exact ⟨c, _, rfl, h⟩
  | separated _ _ ih => obtain ⟨c, l, rfl, h⟩ := ih; exact ⟨c, _, rfl, h⟩

theorem isDigit_of_dec {c : Nat} (h : isDec c = true) (h' : c ≠ 95) : isDigit c = true := by
  unfold isDec at h
  simpa [h'] using h

theorem isHex_of_dec {c : Nat} (h : isDec c = true) : isHex c = true := by
  unfold isHex; simp [h]

theorem digit_ten {c : Nat} (h : isDigit c = true) (b : Nat) : Digit b c (c - 48) := by
  unfold isDigit at h
  simp only [Bool.and_eq_true, decide_eq_true_eq] at h
  have e : c = 48 + (c - 48) := by omega
  conv => arg 2; rw [e]
  exact .decimal (by omega)

/-- decimal digits are digits in both bases -/
theorem digits_rebase {b : Nat} (b' : Nat) {t : List Nat} {n k : Nat} (h : Digits b t n k) :
    (∀ c ∈ t, isDec c = true) → (∀ {c d}, Digit b c d → c ≠ 95) → ∃ n', Digits b' t n' k := by
  intro hd h95
  induction h with
  | one h => exact ⟨_, .one (digit_ten (isDigit_of_dec (hd _ (by simp)) (h95 h)) b')⟩
  | next _ h ih =>
    obtain ⟨n', h'⟩ := ih (fun c hc => hd c (by simp [hc]))
    exact ⟨_, .next h' (digit_ten (isDigit_of_dec (hd _ (by simp)) (h95 h)) b')⟩
  | separated _ h ih =>
    obtain ⟨n', h'⟩ := ih (fun c hc => hd c (by simp [hc]))
    exact ⟨_, .separated h' (digit_ten (isDigit_of_dec (hd _ (by simp)) (h95 h)) b')⟩

theorem to_ten {hex : Bool} {t : List Nat} {n k : Nat} (h : Digits (base hex) t n k) (hd : ∀ c ∈ t, isDec c = true) :
    ∃ n', Digits 10 t n' k := digits_rebase 10 h hd (fun h => (digit_isD h).2)

theorem from_ten (hex : Bool) {t : List Nat} {n k : Nat} (h : Digits 10 t n k) : ∃ n', Digits (base hex) t n' k :=
  digits_rebase _ h (digits_isD (hex := false) h) (fun h => (digit_isD (hex := false) h).2)

/-! ### the exponent -/

theorem digit_val {c d : Nat} (h : Digit 10 c d) : isDigit c = true ∧ d = c - 48 := by
  generalize hb : 10 = b at h
  cases h with
  | decimal h => exact ⟨by simp [isDigit]; omega, by omega⟩
  | small h => omega
  | capital h => omega

theorem expLoop_digits {t : List Nat} {n k : Nat} (h : Digits 10 t n k) : k ≤ 4 → n < 10 ^ k ∧ ∀ r,
    expLoop 0 (t ++ r) = expLoop n r := by
  have step : ∀ {c d : Nat}, Digit 10 c d → d < 10 := by
    intro c d h
    have h1 := digit_val h
    have h2 := h1.1
    unfold isDigit at h2
    simp only [Bool.and_eq_true, decide_eq_true_eq] at h2
    omega
  induction h with
  | one h =>
    intro _
    refine ⟨by have := step h; omega, fun r => ?_⟩
    obtain ⟨h1, h2⟩ := digit_val h
    rw [List.singleton_append, expLoop, if_pos h1, if_pos (by omega), ← h2]
    simp
  | @next t n k c d _ h ih =>
    intro hk
    obtain ⟨i1, i2⟩ := ih (by omega)
    obtain ⟨h1, h2⟩ := digit_val h
    have h3 := step h
    have h4 : 10 ^ k ≤ 10 ^ 4 := Nat.pow_le_pow_right (by omega) (by omega)
    refine ⟨by rw [pow_succ]; omega, fun r => ?_⟩
    rw [List.append_assoc, i2, List.singleton_append, expLoop, if_pos h1, if_pos (by omega), ← h2]
  | @separated t n k c d _ h ih =>
    intro hk
    obtain ⟨i1, i2⟩ := ih (by omega)
    obtain ⟨h1, h2⟩ := digit_val h
    have h3 := step h
    have h4 : 10 ^ k ≤ 10 ^ 4 := Nat.pow_le_pow_right (by omega) (by omega)
    refine ⟨by rw [pow_succ]; omega, fun r => ?_⟩
    rw [List.append_assoc, i2, List.cons_append, expLoop, if_neg (by decide), if_pos rfl, List.singleton_append, expLoop,
      if_pos h1, if_pos (by omega), ← h2]

/-- no sign at the beginning -/
def Unsigned (l : List Nat) : Prop := ∀ c ∈ l.head?, c ≠ 43 ∧ c ≠ 45

theorem signSplit_chars (s : Sign) {l : List Nat} (h : s = .none → Unsigned l) :
    signSplit (s.chars ++ l) = (decide (s = .minus), l) := by
  cases s with
  | plus => rfl
  | minus => rfl
  | none =>
    have h := h rfl
    show signSplit l = _
    cases l with
    | nil => rfl
    | cons c l =>
      have := h c (by simp)
      unfold signSplit
      split
      · rename_i heq; simp only [List.cons.injEq] at heq; omega
      · rename_i heq; simp only [List.cons.injEq] at heq; omega
      · simp

theorem unsigned_dec {l : List Nat} (h : ∀ c ∈ l.head?, isDec c = true) : Unsigned l := by
  intro c hc
  have := h c hc
  unfold isDec isDigit at this
  simp only [Bool.or_eq_true, Bool.and_eq_true, decide_eq_true_eq, beq_iff_eq] at this
  omega

theorem head_mem {l : List Nat} {P : Nat → Prop} (h : ∀ c ∈ l, P c) : ∀ c ∈ l.head?, P c := by
  cases l with
  | nil => simp
  | cons a l => intro c hc; simp only [List.head?_cons, Option.mem_def, Option.some.injEq] at hc; subst hc; exact h _ (by simp)

/-- the exponent of a token -/
theorem readExp_some {hex : Bool} {c : Nat} {s : Sign} {D : List Nat} {e : Int} (hD : ∀ x ∈ D, isDec x = true)
    (hlen : D.length ≤ 4) (hg : Good hex .other (s.chars ++ D)) (h : readExp hex (c :: (s.chars ++ D)) = some e) :
    lower c = (if hex then 112 else 101) ∧ Spec.Exponent (s.chars ++ D) e := by
  unfold readExp at h
  simp only at h
  by_cases hc : lower c = (if hex then 112 else 101)
  · refine ⟨hc, ?_⟩
    rw [if_pos hc, signSplit_chars s (fun _ => unsigned_dec (head_mem hD))] at h
    have hg' : Good hex .other D := by
      cases s with
      | none => exact hg
      | plus => exact ((good_stop (c := 43) (by cases hex <;> rfl)).mp hg).2
      | minus => exact ((good_stop (c := 45) (by cases hex <;> rfl)).mp hg).2
    rcases good_group (hex := hex) (Or.inr rfl) (r := []) (fun x hx => by
        have := hD x hx
        cases hex
        · exact this
        · exact isHex_of_dec this) (by simp [Halts]) (by rwa [List.append_nil]) with ⟨rfl, _⟩ | ⟨⟨n, k, hd⟩, _⟩
    · simp at h
    · obtain ⟨n', hd'⟩ := to_ten hd hD
      have hk := digits_length hd'
      have hx := (expLoop_digits hd' (by omega)).2 []
      rw [List.append_nil] at hx
      cases D with
      | nil => simp at h
      | cons d t =>
        simp only at h
        by_cases hdd : isDigit d = true
        · rw [if_pos hdd, hx] at h
          simp only [expLoop, if_true, Option.some.injEq] at h
          refine ⟨s, _, n', k, rfl, hd', ?_⟩
          rw [← h]
          cases s <;> rfl
        · rw [if_neg hdd] at h; simp at h
  · rw [if_neg hc] at h; simp at h

theorem readExp_exponent {hex : Bool} {c : Nat} {x : List Nat} {e : Int} (hc : lower c = if hex then 112 else 101)
    (hlen : x.length ≤ 4) (h : Spec.Exponent x e) : readExp hex (c :: x) = some e ∧ Good hex .other x := by
  obtain ⟨s, t, n, k, rfl, hd, rfl⟩ := h
  have hD : ∀ c ∈ t, isDec c = true := digits_isD (hex := false) hd
  have hk := digits_length hd
  have hl : t.length ≤ 4 := by rw [List.length_append] at hlen; omega
  constructor
  · unfold readExp
    simp only
    rw [if_pos hc, signSplit_chars s (fun _ => unsigned_dec (head_mem hD))]
    have hx := (expLoop_digits hd (by omega)).2 []
    rw [List.append_nil] at hx
    obtain ⟨a, l, rfl, h1, h2⟩ := digits_head (hex := false) hd
    simp only
    rw [if_pos (isDigit_of_dec h1 h2), hx]
    simp only [expLoop, if_true]
    cases s <;> rfl
  · obtain ⟨n', hd'⟩ := from_ten hex hd
    have : Good hex .other t := by
      have := (good_digits (saw := .other) (r := []) hd').mpr (good_nil.mpr (by simp))
      rwa [List.append_nil] at this
    cases s with
    | none => exact this
    | plus => exact (good_stop (by cases hex <;> rfl)).mpr ⟨by simp, this⟩
    | minus => exact (good_stop (by cases hex <;> rfl)).mpr ⟨by simp, this⟩

/-! ### the mantissa of a token -/

/-- digits and an optional point with more digits -/
inductive Body (hex : Bool) : List Nat → List Nat → Prop
  | whole {D : List Nat} (h : ∀ c ∈ D, isD hex c = true) : Body hex D D
  | pointed {D D' : List Nat} (h : ∀ c ∈ D, isD hex c = true) (h' : ∀ c ∈ D', isD hex c = true) :
      Body hex (D ++ 46 :: D') D

theorem stop_point (hex : Bool) : Stop hex 46 := by cases hex <;> rfl

/-- a body that is not empty but for underscores, and whose underscores are in order, is a mantissa -/
theorem body_mantissa {hex : Bool} {saw : Saw} (hs : saw = .start ∨ saw = .other) {B D X : List Nat} (hB : Body hex B D)
    (hX : Halts hex X) (h46 : ∀ c ∈ X.head?, c ≠ 46) (hg : Good hex saw (B ++ X))
    (hm : (mantLoop hex ⟨false, false, 0, 0⟩ (B ++ X)).1.sawdigits = true) :
    (∃ q, Spec.Mantissa (base hex) B q) ∧ (∃ s, s ≠ .underscore ∧ Good hex s X) := by
  cases hB with
  | whole h =>
    rcases good_group hs h hX hg with ⟨rfl, _⟩ | ⟨⟨n, k, hd⟩, hg'⟩
    · rw [List.nil_append, mantLoop_stop hX h46] at hm; simp at hm
    · exact ⟨⟨n, Or.inr ⟨n, k, hd, rfl⟩⟩, _, by simp, hg'⟩
  | @pointed D D' h h' =>
    rw [List.append_assoc, List.cons_append] at hg hm
    have hP : Halts hex (46 :: (D' ++ X)) := by
      intro c hc; simp only [List.head?_cons, Option.mem_def, Option.some.injEq] at hc; subst hc; exact stop_point hex
    have rest : ∀ s, Good hex s (46 :: (D' ++ X)) → Good hex .other (D' ++ X) := fun s hg =>
      ((good_stop (stop_point hex)).mp hg).2
    rcases good_group hs h hP hg with ⟨rfl, hg1⟩ | ⟨⟨n, k, hd⟩, hg1⟩
    · rcases good_group (Or.inr rfl) h' hX (rest _ hg1) with ⟨rfl, hg2⟩ | ⟨⟨n', k', hd'⟩, hg2⟩
      · rw [List.nil_append, List.nil_append, mantLoop_point rfl, mantLoop_stop hX h46] at hm; simp at hm
      · exact ⟨⟨_, Or.inl (.before hd')⟩, _, by simp, hg2⟩
    · rcases good_group (Or.inr rfl) h' hX (rest _ hg1) with ⟨rfl, hg2⟩ | ⟨⟨n', k', hd'⟩, hg2⟩
      · exact ⟨⟨_, Or.inl (.after hd)⟩, _, by simp, hg2⟩
      · exact ⟨⟨_, Or.inl (.between hd hd')⟩, _, by simp, hg2⟩

theorem mantissa_body {hex : Bool} {B : List Nat} {q : ℚ} (h : Spec.Mantissa (base hex) B q) : ∃ D, Body hex B D := by
  rcases h with h | ⟨n, k, h, _⟩
  · cases h with
    | @before t n k h => exact ⟨[], .pointed (D := []) (by simp) (digits_isD h)⟩
    | between h h' => exact ⟨_, .pointed (digits_isD h) (digits_isD h')⟩
    | after h => exact ⟨_, .pointed (D' := []) (digits_isD h) (by simp)⟩
  · exact ⟨_, .whole (digits_isD h)⟩

theorem mantissa_good {hex : Bool} {saw : Saw} (hs : saw ≠ .underscore) {B X : List Nat} {q : ℚ}
    (h : Spec.Mantissa (base hex) B q) (hX : ∀ s, s ≠ .underscore → Good hex s X) : Good hex saw (B ++ X) := by
  rcases h with h | ⟨n, k, h, _⟩
  · cases h with
    | before h => exact (good_stop (stop_point hex)).mpr ⟨hs, (good_digits h).mpr (hX _ (by simp))⟩
    | between h h' =>
      rw [List.append_assoc, good_digits h, List.cons_append, good_stop (stop_point hex), good_digits h']
      exact ⟨by simp, hX _ (by simp)⟩
    | after h =>
      rw [List.append_assoc, good_digits h, List.singleton_append, good_stop (stop_point hex)]
      exact ⟨by simp, hX _ (by simp)⟩
  · rw [good_digits h]; exact hX _ (by simp)

/-- the first character of a mantissa -/
theorem mantissa_head {hex : Bool} {B : List Nat} {q : ℚ} (h : Spec.Mantissa (base hex) B q) :
    ∃ c l, B = c :: l ∧ (c = 46 ∨ (isD hex c = true ∧ c ≠ 95)) := by
  rcases h with h | ⟨n, k, h, _⟩
  · cases h with
    | before h => exact ⟨_, _, rfl, Or.inl rfl⟩
    | between h h' => obtain ⟨c, l, rfl, hc⟩ := digits_head h; exact ⟨c, _, rfl, Or.inr hc⟩
    | after h => obtain ⟨c, l, rfl, hc⟩ := digits_head h; exact ⟨c, _, rfl, Or.inr hc⟩
  · obtain ⟨c, l, rfl, hc⟩ := digits_head h; exact ⟨c, _, rfl, Or.inr hc⟩

end Radolan
