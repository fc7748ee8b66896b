/- `(*ss).floatToken` and `convertFloat` of package fmt: the tokens that are converted are the numerals. -/
import Verif.Lemmas.NumeralRead
import Verif.Lemmas.Accept
import Mathlib.Data.List.TakeWhile

namespace Radolan
open Go
open _root_.Spec (Digit Digits Pointed Sign Rounded Numeral)

/-! ### lists -/

theorem takeWhile_split {p : Nat → Bool} {D r : List Nat} (hD : ∀ c ∈ D, p c = true) (hr : ∀ c ∈ r.head?, p c = false) :
    (D ++ r).takeWhile p = D ∧ (D ++ r).dropWhile p = r := by
  induction D with
  | nil =>
    cases r with
    | nil => simp
    | cons c r => have := hr c (by simp); simp [this]
  | cons d D ih =>
    have h := hD d (by simp)
    have := ih (fun c hc => hD c (by simp [hc]))
    simp [h, this]

theorem split_takeWhile (p : Nat → Bool) (l : List Nat) :
    l = l.takeWhile p ++ l.dropWhile p ∧ (∀ c ∈ l.takeWhile p, p c = true) ∧ ∀ c ∈ (l.dropWhile p).head?, p c = false := by
  refine ⟨List.takeWhile_append_dropWhile.symm, fun c hc => (List.mem_takeWhile_imp hc), ?_⟩
  induction l with
  | nil => simp
  | cons a l ih =>
    rw [List.dropWhile_cons]
    split
    · exact ih
    · intro c hc; simp at hc; subst hc; simpa using ‹¬ p a = true›

theorem signToken_chars (s : Sign) {l : List Nat} (h : s = .none → Unsigned l) : signToken (s.chars ++ l) = (s.chars, l) := by
  cases s with
  | plus => rfl
  | minus => rfl
  | none =>
    have h := h rfl
    show signToken l = _
    cases l with
    | nil => rfl
    | cons c l =>
      have := h c (by simp)
      unfold signToken
      split
      · rename_i heq; simp only [List.cons.injEq] at heq; omega
      · rename_i heq; simp only [List.cons.injEq] at heq; omega
      · rfl

theorem signToken_cases (l : List Nat) : ∃ (s : Sign) (t : List Nat), l = s.chars ++ t ∧ signToken l = (s.chars, t) ∧
    (s = .none → Unsigned t) := by
  unfold signToken
  split
  · exact ⟨.plus, _, rfl, rfl, by simp⟩
  · exact ⟨.minus, _, rfl, rfl, by simp⟩
  · rename_i h1 h2
    refine ⟨.none, l, rfl, rfl, fun _ => ?_⟩
    intro c hc
    cases l with
    | nil => simp at hc
    | cons a l =>
      simp at hc; subst hc
      exact ⟨by rintro rfl; exact h1 l rfl, by rintro rfl; exact h2 l rfl⟩

/-! ### the exponent of a token -/

theorem expToken_shape (exp : List Nat) (l : List Nat) : ∃ X rest, l = X ++ rest ∧ expToken exp l = X ∧ Tail exp X ∧
    (X = [] → ∀ c ∈ rest.head?, c ∉ exp) ∧ (X ≠ [] → ∀ c ∈ rest.head?, isDec c = false) := by
  cases l with
  | nil => exact ⟨[], [], rfl, rfl, .none, by simp, by simp⟩
  | cons c l =>
    by_cases h : exp.contains c = true
    · obtain ⟨s, t, rfl, h2, _⟩ := signToken_cases l
      obtain ⟨t1, t2, t3⟩ := split_takeWhile isDec t
      refine ⟨c :: (s.chars ++ t.takeWhile isDec), t.dropWhile isDec, ?_, ?_, .exp s ?_ t2, by simp, fun _ => t3⟩
      · rw [List.cons_append, List.append_assoc, ← t1]
      · simp only [expToken]; rw [if_pos h, h2]
      · simpa using h
    · refine ⟨[], c :: l, rfl, ?_, .none, ?_, by simp⟩
      · simp only [expToken]; rw [if_neg h]
      · intro _ x hx; simp at hx; subst hx; simpa using h

theorem expToken_none {exp : List Nat} {l : List Nat} (h : ∀ c ∈ l.head?, c ∉ exp) : expToken exp l = [] := by
  cases l with
  | nil => rfl
  | cons c l => have := h c (by simp); simp only [expToken]; rw [if_neg (by simpa using this)]

theorem expToken_some {exp : List Nat} {c : Nat} (s : Sign) {D rest : List Nat} (hc : c ∈ exp) (hD : ∀ x ∈ D, isDec x = true)
    (hne : D ≠ []) (hr : ∀ c ∈ rest.head?, isDec c = false) :
    expToken exp (c :: (s.chars ++ D ++ rest)) = c :: (s.chars ++ D) := by
  simp only [expToken]
  have hu : Unsigned (D ++ rest) := by
    cases D with
    | nil => exact absurd rfl hne
    | cons d D => exact unsigned_dec (by intro c hc; simp at hc; subst hc; exact hD _ (by simp))
  rw [if_pos (by simpa using hc), List.append_assoc, signToken_chars s (fun _ => hu), (takeWhile_split hD hr).1]

/-! ### digits, point, exponent -/

/-- what `floatToken` leaves after digits (of body `B`, which starts with the digits `D`) and exponent `X` -/
def Rest (hex : Bool) (B D X rest : List Nat) : Prop :=
  (X = [] → ∀ c ∈ rest.head?, isD hex c = false ∧ c ∉ exps hex ∧ (B = D → c ≠ 46)) ∧
  (X ≠ [] → ∀ c ∈ rest.head?, isDec c = false)

theorem digits_shape (hex : Bool) (l : List Nat) : ∃ B D X rest, l = B ++ X ++ rest ∧ Body hex B D ∧ Tail (exps hex) X ∧
    Rest hex B D X rest ∧ l.takeWhile (isD hex) ++ fracToken (isD hex) (exps hex) (l.dropWhile (isD hex)) = B ++ X := by
  obtain ⟨h1, h2, h3⟩ := split_takeWhile (isD hex) l
  generalize l.takeWhile (isD hex) = D at h1 h2
  generalize l.dropWhile (isD hex) = t at h1 h3
  subst h1
  cases t with
  | nil => exact ⟨D, D, [], [], by simp, .whole h2, .none, by simp [Rest], rfl⟩
  | cons c t =>
    by_cases hc : c = 46
    · subst hc
      obtain ⟨g1, g2, g3⟩ := split_takeWhile (isD hex) t
      have e : fracToken (isD hex) (exps hex) (46 :: t)
          = 46 :: (t.takeWhile (isD hex) ++ expToken (exps hex) (t.dropWhile (isD hex))) := by
        simp only [fracToken, if_true]
      rw [e]
      generalize t.takeWhile (isD hex) = D' at g1 g2
      generalize t.dropWhile (isD hex) = u at g1 g3
      subst g1
      obtain ⟨X, rest, rfl, e2, e3, e4, e5⟩ := expToken_shape (exps hex) u
      refine ⟨D ++ 46 :: D', D, X, rest, by simp, .pointed h2 g2, e3, ⟨fun hX c hc => ⟨?_, e4 hX c hc, ?_⟩, e5⟩, ?_⟩
      · subst hX; exact g3 c (by simpa using hc)
      · intro h; have := congrArg List.length h; simp at this
      · rw [e2]; simp
    · have e : fracToken (isD hex) (exps hex) (c :: t) = expToken (exps hex) (c :: t) := by
        simp only [fracToken]; rw [if_neg hc]
      rw [e]
      obtain ⟨X, rest, e1, e2, e3, e4, e5⟩ := expToken_shape (exps hex) (c :: t)
      refine ⟨D, D, X, rest, by rw [e1]; simp, .whole h2, e3, ⟨fun hX x hx => ?_, e5⟩, by rw [e2]⟩
      subst hX
      rw [List.nil_append] at e1
      subst e1
      simp at hx; subst hx
      exact ⟨h3 _ (by simp), e4 rfl _ (by simp), fun _ => hc⟩

/-- the same for a mantissa and an exponent with digits -/
theorem digits_token {hex : Bool} {B D X rest : List Nat} (hB : Body hex B D) (hX : Tail (exps hex) X)
    (hne : ∀ c s, X ≠ c :: Sign.chars s) (hr : Rest hex B D X rest) :
    (B ++ X ++ rest).takeWhile (isD hex) ++ fracToken (isD hex) (exps hex) ((B ++ X ++ rest).dropWhile (isD hex)) = B ++ X := by
  have hh := tail_halts hX
  have hexp : expToken (exps hex) (X ++ rest) = X := by
    cases hX with
    | none => exact expToken_none fun c hc => (hr.1 rfl c (by simpa using hc)).2.1
    | @exp c s E hc hE =>
      rw [List.cons_append]
      refine expToken_some s hc hE ?_ (hr.2 (by simp))
      rintro rfl
      exact hne c s (by simp)
  have hst : ∀ c ∈ (X ++ rest).head?, isD hex c = false := by
    cases hX with
    | none => exact fun c hc => (hr.1 rfl c (by simpa using hc)).1
    | @exp c s E hc hE => intro x hx; simp at hx; subst hx; exact hh.1 _ (by simp)
  cases hB with
  | @whole D h =>
    rw [List.append_assoc]
    obtain ⟨t1, t2⟩ := takeWhile_split h hst
    rw [t1, t2]
    have : fracToken (isD hex) (exps hex) (X ++ rest) = expToken (exps hex) (X ++ rest) := by
      cases hXr : X ++ rest with
      | nil => rfl
      | cons c t =>
        simp only [fracToken]
        rw [if_neg]
        cases hX with
        | none => exact (hr.1 rfl c (by rw [List.nil_append] at hXr; rw [hXr]; simp)).2.2 rfl
        | @exp c' s E hc hE =>
          have : c' = c := by simp at hXr; exact hXr.1
          subst this
          exact hh.2.1 _ (by simp)
    rw [this, hexp]
  | @pointed D D' h h' =>
    rw [List.append_assoc, List.append_assoc]
    obtain ⟨t1, t2⟩ := takeWhile_split (p := isD hex) (r := 46 :: D' ++ (X ++ rest)) h (by
      intro c hc; simp at hc; subst hc; exact stop_point hex)
    obtain ⟨u1, u2⟩ := takeWhile_split h' hst
    rw [t1, t2, List.cons_append]
    have : fracToken (isD hex) (exps hex) (46 :: (D' ++ (X ++ rest)))
          = 46 :: (D' ++ expToken (exps hex) (X ++ rest)) := by
      simp only [fracToken, if_true]; rw [u1, u2]
    rw [this, hexp]
    simp

theorem isD_false : isD false = isDec := by funext c; rfl
theorem isD_true : isD true = isHex := by funext c; rfl

/-- not the prefix of a hexadecimal number -/
def NoHex (l : List Nat) : Prop := ∀ x t, l = 48 :: x :: t → x ≠ 120 ∧ x ≠ 88

theorem numToken_dec {l : List Nat} (h : NoHex l) :
    numToken l = l.takeWhile (isD false) ++ fracToken (isD false) (exps false) (l.dropWhile (isD false)) := by
  rw [isD_false]
  unfold numToken
  split
  · rename_i x t
    have := h x t rfl
    rw [if_neg (by omega)]; rfl
  · rfl

theorem numToken_hex {p : Nat} (hp : p = 120 ∨ p = 88) (l : List Nat) :
    numToken (48 :: p :: l) = 48 :: p :: (l.takeWhile (isD true) ++ fracToken (isD true) (exps true) (l.dropWhile (isD true))) := by
  rw [isD_true]
  simp only [numToken]
  rw [if_pos hp]; rfl

end Radolan
