/- The texts `fmt.Sscanf` reads with "%f" and their values. -/
import Verif.Lemmas.NumeralConvert

namespace Radolan
open Go
open _root_.Spec (Digit Digits Pointed Sign Rounded Numeral)

/-! ### words -/

theorem wordToken_split (w : List (Nat × Nat)) (l : List Nat) : l = (wordToken w l).1 ++ (wordToken w l).2 := by
  induction w generalizing l with
  | nil => cases l <;> rfl
  | cons p w ih =>
    obtain ⟨lo, up⟩ := p
    cases l with
    | nil => rfl
    | cons c l =>
      simp only [wordToken]
      split
      · simp only [List.cons_append, List.cons.injEq, true_and]; exact ih l
      · rfl

theorem wordToken_none {lo up : Nat} {w : List (Nat × Nat)} {l : List Nat} (h : ∀ c ∈ l.head?, c ≠ lo ∧ c ≠ up) :
    wordToken ((lo, up) :: w) l = ([], l) := by
  cases l with
  | nil => rfl
  | cons c l => have := h c (by simp); simp only [wordToken]; rw [if_neg (by omega)]

/-- the letters accepted: none and another letter, all three, or a beginning and then another letter -/
theorem word_cases (a a' b b' c c' : Nat) (l : List Nat) {r : List Nat × List Nat}
    (hr : wordToken [(a, a'), (b, b'), (c, c')] l = r) :
    (r.1 = [] ∧ r.2 = l ∧ ∀ x ∈ l.head?, x ≠ a ∧ x ≠ a') ∨
    (∃ x y z t, l = x :: y :: z :: t ∧ (x = a ∨ x = a') ∧ (y = b ∨ y = b') ∧ (z = c ∨ z = c') ∧ r.1 = [x, y, z] ∧ r.2 = t) ∨
    (∃ x t, l = x :: t ∧ (x = a ∨ x = a') ∧ r.1.length ≠ 3 ∧
      ¬ ∃ y z u, t = y :: z :: u ∧ (y = b ∨ y = b') ∧ (z = c ∨ z = c')) := by
  subst hr
  match l with
  | [] => exact Or.inl ⟨rfl, rfl, by simp⟩
  | x :: t =>
    by_cases hx : x = a ∨ x = a'
    · right
      have e : wordToken [(a, a'), (b, b'), (c, c')] (x :: t)
          = (x :: (wordToken [(b, b'), (c, c')] t).1, (wordToken [(b, b'), (c, c')] t).2) := by
        rw [wordToken, if_pos hx]
      match t with
      | [] => exact Or.inr ⟨x, [], rfl, hx, by rw [e]; simp [wordToken], by simp⟩
      | y :: t =>
        by_cases hy : y = b ∨ y = b'
        · have e2 : wordToken [(b, b'), (c, c')] (y :: t) = (y :: (wordToken [(c, c')] t).1, (wordToken [(c, c')] t).2) := by
            rw [wordToken, if_pos hy]
          match t with
          | [] => exact Or.inr ⟨x, [y], rfl, hx, by rw [e, e2]; simp [wordToken], by simp⟩
          | z :: t =>
            by_cases hz : z = c ∨ z = c'
            · have e3 : wordToken [(c, c')] (z :: t) = ([z], t) := by
                rw [wordToken, if_pos hz]; cases t <;> rfl
              exact Or.inl ⟨x, y, z, t, rfl, hx, hy, hz, by rw [e, e2, e3], by rw [e, e2, e3]⟩
            · have e3 : wordToken [(c, c')] (z :: t) = ([], z :: t) := by rw [wordToken, if_neg hz]
              refine Or.inr ⟨x, _, rfl, hx, by rw [e, e2, e3]; simp, ?_⟩
              rintro ⟨y', z', u, h, _, h2⟩
              simp only [List.cons.injEq] at h
              obtain ⟨_, rfl, _⟩ := h
              exact hz h2
        · have e2 : wordToken [(b, b'), (c, c')] (y :: t) = ([], y :: t) := by rw [wordToken, if_neg hy]
          refine Or.inr ⟨x, _, rfl, hx, by rw [e, e2]; simp, ?_⟩
          rintro ⟨y', z', u, h, h2, _⟩
          simp only [List.cons.injEq] at h
          obtain ⟨rfl, _⟩ := h
          exact hy h2
    · exact Or.inl ⟨by rw [wordToken, if_neg hx], by rw [wordToken, if_neg hx], by intro c hc; simp at hc; subst hc; omega⟩

/-! ### words that fail -/

theorem convert_none {tok : List Nat} (h : ∀ s, s <+: tok → parseFloat32 s = none) : convertFloat32 tok = none := by
  unfold convertFloat32
  split
  · rw [h _ (List.takeWhile_prefix _)]; rfl
  · exact h _ (List.prefix_refl _)

theorem readFloat_letter (s : Sign) {c : Nat} {l : List Nat} (hc : c = 105 ∨ c = 73 ∨ c = 110 ∨ c = 78) :
    readFloat (s.chars ++ c :: l) = none := by
  unfold readFloat
  rw [signSplit_chars s (fun _ => by intro x hx; simp at hx; omega)]
  have h1 : hexPrefix (c :: l) = false := by
    unfold hexPrefix
    split
    · rename_i heq; simp only [List.cons.injEq] at heq; omega
    · rfl
  simp only [h1, Bool.false_eq_true, if_false]
  rw [mantLoop_stop (hex := false) (by
    intro x hx; simp at hx; subst hx
    rcases hc with rfl | rfl | rfl | rfl <;> rfl) (by intro x hx; simp at hx; omega)]
  rfl

theorem common_cons {p k : Nat} {w l : List Nat} (h : k + 1 ≤ commonPrefixLen l (p :: w)) :
    ∃ x u, l = x :: u ∧ (x = p ∨ x + 32 = p) ∧ k ≤ commonPrefixLen u w := by
  cases l with
  | nil => simp [commonPrefixLen] at h
  | cons x u =>
    rw [commonPrefixLen] at h
    by_cases h1 : (if 65 ≤ x ∧ x ≤ 90 then x + 32 else x) = p
    · rw [if_pos h1] at h
      refine ⟨x, u, rfl, ?_, by omega⟩
      split at h1 <;> omega
    · rw [if_neg h1] at h; omega

theorem common_three {a a' b b' c c' : Nat} {w l : List Nat}
    (h : 3 ≤ commonPrefixLen l (a :: b :: c :: w)) (ha : a' + 32 = a) (hb : b' + 32 = b) (hc : c' + 32 = c) :
    ∃ x y z u, l = x :: y :: z :: u ∧ (x = a ∨ x = a') ∧ (y = b ∨ y = b') ∧ (z = c ∨ z = c') := by
  obtain ⟨x, u, rfl, hx, h⟩ := common_cons (k := 2) h
  obtain ⟨y, u, rfl, hy, h⟩ := common_cons (k := 1) h
  obtain ⟨z, u, rfl, hz, h⟩ := common_cons (k := 0) h
  exact ⟨x, y, z, u, rfl, by omega, by omega, by omega⟩

/-- a word that begins like NaN but is not NaN -/
theorem parse_n {c : Nat} {t s : List Nat} (hc : c = 110 ∨ c = 78)
    (hn : ¬ ∃ y z u, t = y :: z :: u ∧ (y = 97 ∨ y = 65) ∧ (z = 110 ∨ z = 78)) (hs : s <+: c :: t) : parseFloat32 s = none := by
  cases s with
  | nil => decide +kernel
  | cons a s =>
    obtain ⟨r, hr⟩ := hs
    simp only [List.cons_append, List.cons.injEq] at hr
    obtain ⟨rfl, rfl⟩ := hr
    unfold parseFloat32
    have h1 : special (a :: s) = none := by
      unfold special
      simp only
      rw [if_neg (by omega), if_neg (by omega), if_neg (by omega), if_pos hc, if_neg]
      intro h
      obtain ⟨x, y, z, u, h, _, h2, h3⟩ := common_three (a' := 78) (b' := 65) (c' := 78) h.ge rfl rfl rfl
      simp only [List.cons.injEq] at h
      obtain ⟨rfl, rfl⟩ := h
      exact hn ⟨y, z, u ++ r, rfl, h2, h3⟩
    rw [h1]
    simp only
    rw [show a :: s = Sign.chars .none ++ a :: s from rfl, readFloat_letter .none (by tauto)]
    rfl

theorem prefix_sign {s : Sign} {t l : List Nat} (h : t <+: s.chars ++ l) : t = [] ∨ ∃ u, t = s.chars ++ u ∧ u <+: l := by
  cases s with
  | none => exact Or.inr ⟨t, rfl, h⟩
  | plus =>
    cases t with
    | nil => exact Or.inl rfl
    | cons a t =>
      obtain ⟨r, hr⟩ := h
      have : a = 43 ∧ t ++ r = l := by simpa [Sign.chars, Sign.text] using hr
      obtain ⟨rfl, rfl⟩ := this
      exact Or.inr ⟨t, rfl, r, rfl⟩
  | minus =>
    cases t with
    | nil => exact Or.inl rfl
    | cons a t =>
      obtain ⟨r, hr⟩ := h
      have : a = 45 ∧ t ++ r = l := by simpa [Sign.chars, Sign.text] using hr
      obtain ⟨rfl, rfl⟩ := this
      exact Or.inr ⟨t, rfl, r, rfl⟩

/-- a word that begins like Inf but is not Inf -/
theorem parse_i (s : Sign) {c : Nat} {t p : List Nat} (hc : c = 105 ∨ c = 73)
    (hn : ¬ ∃ y z u, t = y :: z :: u ∧ (y = 110 ∨ y = 78) ∧ (z = 102 ∨ z = 70)) (hp : p <+: s.chars ++ c :: t) :
    parseFloat32 p = none := by
  rcases prefix_sign hp with rfl | ⟨u, rfl, hu⟩
  · decide +kernel
  cases u with
  | nil => cases s <;> decide +kernel
  | cons a u =>
    obtain ⟨r, hr⟩ := hu
    simp only [List.cons_append, List.cons.injEq] at hr
    obtain ⟨rfl, rfl⟩ := hr
    have hlt : commonPrefixLen (a :: u) infinityWord < 3 := by
      by_contra h
      obtain ⟨x, y, z, v, h, _, h2, h3⟩ := common_three (a' := 73) (b' := 78) (c' := 70) (not_lt.mp h) rfl rfl rfl
      simp only [List.cons.injEq] at h
      obtain ⟨rfl, rfl⟩ := h
      exact hn ⟨y, z, v ++ r, rfl, h2, h3⟩
    have hinf : ∀ neg, specialInf neg (a :: u) = none := by
      intro neg
      unfold specialInf
      simp only
      rw [if_neg (c := 3 < _ ∧ _) (by omega), if_neg (by omega)]
    have h1 : special (s.chars ++ a :: u) = none := by
      cases s with
      | plus => exact hinf false
      | minus => exact hinf true
      | none =>
        show special (a :: u) = none
        unfold special
        simp only
        rw [if_neg (by omega), if_neg (by omega), if_pos hc]
        exact hinf false
    unfold parseFloat32
    rw [h1]
    simp only
    rw [readFloat_letter s (by tauto)]
    rfl

/-! ### the main theorem on tokens -/

theorem convert_nan {a b c : Nat} (ha : a = 110 ∨ a = 78) (hb : b = 97 ∨ b = 65) (hc : c = 110 ∨ c = 78) :
    convertFloat32 [a, b, c] = some .nan := by
  rcases ha with rfl | rfl <;> rcases hb with rfl | rfl <;> rcases hc with rfl | rfl <;> rfl

theorem convert_inf (s : Sign) {a b c : Nat} (ha : a = 105 ∨ a = 73) (hb : b = 110 ∨ b = 78) (hc : c = 102 ∨ c = 70) :
    convertFloat32 (s.chars ++ [a, b, c]) = some (.inf (decide (s = .minus))) := by
  rcases ha with rfl | rfl <;> rcases hb with rfl | rfl <;> rcases hc with rfl | rfl <;> cases s <;> rfl

theorem digitChars_iff (c : Nat) : c ∈ Spec.digitChars ↔ isDec c = true := by
  unfold Spec.digitChars isDec isDigit
  simp only [List.mem_cons, List.not_mem_nil, or_false, Bool.or_eq_true, Bool.and_eq_true, decide_eq_true_eq, beq_iff_eq]
  omega

/-- `floatToken` takes NaN -/
theorem floatToken_nan {a b c : Nat} (ha : a = 110 ∨ a = 78) (hb : b = 97 ∨ b = 65) (hc : c = 110 ∨ c = 78) (rest : List Nat) :
    floatToken (a :: b :: c :: rest) = [a, b, c] := by
  unfold floatToken
  simp only [nanLetters, wordToken]
  rw [if_pos ha, if_pos hb, if_pos hc]
  cases rest <;> rfl

theorem wordless_sign (s : Sign) {l : List Nat} (h : Wordless l) : ∀ c ∈ (s.chars ++ l).head?, c ≠ 110 ∧ c ≠ 78 := by
  cases s with
  | none => intro c hc; have := h c hc; omega
  | plus => intro c hc; simp [Sign.chars, Sign.text] at hc; omega
  | minus => intro c hc; simp [Sign.chars, Sign.text] at hc; omega

/-- after the sign -/
theorem floatToken_signed (s : Sign) {l : List Nat} (hu : s = .none → Unsigned l)
    (hn : ∀ c ∈ (s.chars ++ l).head?, c ≠ 110 ∧ c ≠ 78) : floatToken (s.chars ++ l) = s.chars ++ bodyToken l := by
  unfold floatToken
  rw [nanLetters, wordToken_none hn]
  simp only [List.length_nil, List.nil_append]
  rw [if_neg (by decide), signToken_chars s hu]

theorem floatToken_inf (s : Sign) {a b c : Nat} (ha : a = 105 ∨ a = 73) (hb : b = 110 ∨ b = 78) (hc : c = 102 ∨ c = 70)
    (rest : List Nat) : floatToken (s.chars ++ a :: b :: c :: rest) = s.chars ++ [a, b, c] := by
  rw [floatToken_signed s (fun _ => by intro x hx; simp at hx; omega) (by
    cases s with
    | none => intro x hx; simp [Sign.chars, Sign.text] at hx; omega
    | plus => intro c hc; simp [Sign.chars, Sign.text] at hc; omega
    | minus => intro c hc; simp [Sign.chars, Sign.text] at hc; omega)]
  unfold bodyToken
  simp only [infLetters, wordToken]
  rw [if_pos ha, if_pos hb, if_pos hc]
  cases rest <;> rfl

/-- numbers -/
theorem floatToken_num (s : Sign) {l : List Nat} (h : Wordless l) : floatToken (s.chars ++ l) = s.chars ++ numToken l := by
  rw [floatToken_signed s (fun _ => h.unsigned) (wordless_sign s h)]
  unfold bodyToken
  rw [infLetters, wordToken_none (fun c hc => by have := h c hc; omega)]
  simp

theorem numToken_prefix (l : List Nat) : numToken l <+: l := by
  by_cases hx : ∃ p u, l = 48 :: p :: u ∧ (p = 120 ∨ p = 88)
  · obtain ⟨p, u, rfl, hp⟩ := hx
    rw [numToken_hex hp]
    obtain ⟨B, D, X, rest, rfl, _, _, _, e⟩ := digits_shape true u
    rw [e]
    exact ⟨rest, by simp⟩
  · have hnx : NoHex l := fun x u he => by
      constructor <;> rintro rfl
      · exact hx ⟨120, u, he, by simp⟩
      · exact hx ⟨88, u, he, by simp⟩
    rw [numToken_dec hnx]
    obtain ⟨B, D, X, rest, rfl, _, _, _, e⟩ := digits_shape false l
    rw [e]
    exact ⟨rest, rfl⟩

theorem bodyToken_eq (l : List Nat) : bodyToken l = if (wordToken infLetters l).1.length = 3 then (wordToken infLetters l).1
    else (wordToken infLetters l).1 ++ numToken (wordToken infLetters l).2 := rfl

theorem floatToken_eq (l : List Nat) : floatToken l = if (wordToken nanLetters l).1.length = 3 then (wordToken nanLetters l).1
    else (wordToken nanLetters l).1 ++ ((signToken (wordToken nanLetters l).2).1 ++
      bodyToken (signToken (wordToken nanLetters l).2).2) := rfl

theorem bodyToken_prefix (l : List Nat) : bodyToken l <+: l := by
  rw [bodyToken_eq]
  have h := wordToken_split infLetters l
  conv => rhs; rw [h]
  split
  · exact List.prefix_append _ _
  · rw [List.prefix_append_right_inj]; exact numToken_prefix _

theorem floatToken_prefix (l : List Nat) : floatToken l <+: l := by
  rw [floatToken_eq]
  have h := wordToken_split nanLetters l
  conv => rhs; rw [h]
  split
  · exact List.prefix_append _ _
  · rw [List.prefix_append_right_inj]
    obtain ⟨s, t, h1, h2, _⟩ := signToken_cases (wordToken nanLetters l).2
    rw [h2]
    conv => rhs; rw [h1]
    rw [List.prefix_append_right_inj]
    exact bodyToken_prefix t

/-- the tokens that are converted are the numerals -/
theorem float_numeral {l : List Nat} {v : F32} (hlen : l.length ≤ 5) (h : convertFloat32 (floatToken l) = some v) :
    ∃ tok rest more, l = tok ++ rest ∧ Numeral tok v more ∧ ∀ c ∈ rest.head?, c ∉ more := by
  rcases word_cases 110 78 97 65 110 78 l rfl with ⟨h1, h2, h3⟩ | ⟨x, y, z, t, rfl, hx, hy, hz, h1, _⟩ | ⟨x, t, rfl, hx, h1, hn⟩
  · -- no letter of NaN
    obtain ⟨s, t, rfl, hs, hu⟩ := signToken_cases l
    rw [floatToken_signed s hu h3] at h
    rcases word_cases 105 73 110 78 102 70 t rfl with ⟨g1, g2, g3⟩ | ⟨x, y, z, t, rfl, hx, hy, hz, g1, _⟩ |
      ⟨x, t, rfl, hx, g1, hn⟩
    · -- a number
      have hb : bodyToken t = numToken t := by
        rw [bodyToken_eq, infLetters, if_neg (by rw [g1]; simp), g1, g2]; rfl
      rw [hb] at h
      by_cases hx : ∃ p u, t = 48 :: p :: u ∧ (p = 120 ∨ p = 88)
      · -- hexadecimal
        obtain ⟨p, u, rfl, hp⟩ := hx
        rw [numToken_hex hp] at h
        obtain ⟨B, D, X, rest, rfl, hB, hX, hr, e⟩ := digits_shape true u
        rw [e] at h
        have hXl : X.length ≤ 5 := by simp at hlen; omega
        obtain ⟨q, m, c, x, e', a1, a2, rfl, hc, hx, hv⟩ := (convert_hex s hp hB hX hXl v).mp h
        refine ⟨s.chars ++ [48, p] ++ B ++ c :: x, rest, _, by simp, .hexadecimal s hp a1 a2 hc hx hv, ?_⟩
        intro b hb
        rw [digitChars_iff, hr.2 (by simp) b hb]; simp
      · -- decimal
        have hnx : NoHex t := fun x u he => by
          constructor <;> rintro rfl
          · exact hx ⟨120, u, he, by simp⟩
          · exact hx ⟨88, u, he, by simp⟩
        rw [numToken_dec hnx] at h
        obtain ⟨B, D, X, rest, rfl, hB, hX, hr, e⟩ := digits_shape false t
        rw [e] at h
        have hXl : X.length ≤ 5 := by simp at hlen; omega
        obtain ⟨q, hq, ⟨rfl, hv⟩ | ⟨c, x, e', rfl, hc, hx, hv⟩ | ⟨w, s', ds, e', rfl, hw, a1, a2, a3, a4, rfl⟩⟩ :=
          (convert_dec s hB hX hXl v).mp h
        · rcases hq with hq | ⟨n, k, hq, rfl⟩
          · refine ⟨s.chars ++ B, rest, _, by simp, .pointed s hq hv, ?_⟩
            intro c hc
            obtain ⟨r1, r2, _⟩ := hr.1 rfl c hc
            rw [List.mem_append, digitChars_iff]
            rintro (h | h)
            · rw [show isDec c = false from r1] at h; simp at h
            · exact r2 h
          · refine ⟨s.chars ++ B, rest, _, by simp, .whole s hq hv, ?_⟩
            intro c hc
            obtain ⟨r1, r2, r3⟩ := hr.1 rfl c hc
            have hBD : B = D := by
              cases hB with
              | whole => rfl
              | @pointed D D' h h' =>
                have := digits_isD (hex := false) hq 46 (by simp)
                simp [isDec, isDigit] at this
            rw [List.mem_append, List.mem_append, digitChars_iff]
            rintro ((h | h) | h')
            · rw [show isDec c = false from r1] at h; simp at h
            · rw [List.mem_cons] at h
              rcases h with h | h
              · exact r3 hBD h
              · exact r2 h
            · by_cases hB48 : B = [48]
              · rw [if_pos hB48] at h'
                subst hB48
                simp only [List.mem_cons, List.not_mem_nil, or_false] at h'
                cases rest with
                | nil => simp at hc
                | cons a rest =>
                  simp at hc; subst hc
                  have := hnx a rest rfl
                  omega
              · rw [if_neg hB48] at h'; simp at h'
        · refine ⟨s.chars ++ B ++ c :: x, rest, _, by simp, .scientific s hq hc hx hv, ?_⟩
          intro b hb
          rw [digitChars_iff, hr.2 (by simp) b hb]; simp
        · refine ⟨s.chars ++ B ++ 112 :: (s'.chars ++ ds.map (48 + ·)), rest, _, by simp,
            .binary s s' hq hw a1 a2 a3 a4, ?_⟩
          intro b hb
          rw [digitChars_iff, hr.2 (by simp) b hb]; simp
    · -- Inf
      have hb : bodyToken (x :: y :: z :: t) = [x, y, z] := by
        rw [bodyToken_eq, infLetters, if_pos (by rw [g1]; rfl), g1]
      rw [hb, convert_inf s hx hy hz] at h
      simp only [Option.some.injEq] at h
      subst h
      exact ⟨s.chars ++ [x, y, z], t, _, by simp, .inf s hx hy hz, by simp⟩
    · -- a beginning of Inf
      exfalso
      have hb : s.chars ++ bodyToken (x :: t) <+: s.chars ++ x :: t := by
        rw [List.prefix_append_right_inj]; exact bodyToken_prefix _
      rw [convert_none (fun p hp => parse_i s hx hn (hp.trans hb))] at h
      simp at h
  · rw [floatToken_nan hx hy hz, convert_nan hx hy hz] at h
    simp only [Option.some.injEq] at h
    subst h
    exact ⟨[x, y, z], t, _, rfl, .nan hx hy hz, by simp⟩
  · exfalso
    rw [convert_none (fun p hp => parse_n hx hn (hp.trans (floatToken_prefix _)))] at h
    simp at h

/-- a numeral is taken as a whole and converted to its value -/
theorem numeral_float {tok rest more : List Nat} {v : F32} (hlen : tok.length ≤ 5) (h : Numeral tok v more)
    (hr : ∀ c ∈ rest.head?, c ∉ more) : floatToken (tok ++ rest) = tok ∧ convertFloat32 tok = some v := by
  have dec : ∀ (s : Sign) {B D X rest : List Nat}, Body false B D → Tail decExp X → (∀ c s, X ≠ c :: Sign.chars s) →
      Rest false B D X rest → NoHex (B ++ X ++ rest) → B ++ X ≠ [] →
      floatToken (s.chars ++ (B ++ X) ++ rest) = s.chars ++ (B ++ X) := by
    intro s B D X rest hB hX hne hR hnx hemp
    have hw : Wordless (B ++ X ++ rest) := by
      have := wordless_dec hB hX
      cases hBX : B ++ X with
      | nil => exact absurd hBX hemp
      | cons a l => rw [hBX] at this; intro c hc; exact this c (by simpa using hc)
    rw [List.append_assoc, floatToken_num s hw, numToken_dec hnx, digits_token (hex := false) hB hX hne hR]
  have noh : ∀ {B D X rest : List Nat}, Body false B D → Tail decExp X → (B ++ X = [48] → ∀ c ∈ rest.head?, c ≠ 120 ∧ c ≠ 88) →
      B ++ X ≠ [] → NoHex (B ++ X ++ rest) := by
    intro B D X rest hB hX h48 hemp x t he
    have hch : ∀ c ∈ B ++ X, DecChar c := by
      intro c hc
      rcases List.mem_append.mp hc with hc | hc
      · exact body_chars hB c hc
      · exact tail_chars hX c hc
    match hBX : B ++ X with
    | [] => exact absurd hBX hemp
    | [a] =>
      rw [hBX] at he
      simp only [List.cons_append, List.nil_append, List.cons.injEq] at he
      obtain ⟨rfl, rfl⟩ := he
      exact h48 hBX x (by simp)
    | a :: b :: l =>
      rw [hBX] at he hch
      simp only [List.cons_append, List.cons.injEq] at he
      obtain ⟨rfl, rfl, _⟩ := he
      have := decChar_range (hch b (by simp))
      omega
  have nonempty : ∀ {hex : Bool} {B : List Nat} {q : ℚ} (X : List Nat), Spec.Mantissa (base hex) B q → B ++ X ≠ [] := by
    intro hex B q X h
    obtain ⟨c, l, rfl, _⟩ := mantissa_head h
    simp
  have expne : ∀ {x : List Nat} {e : Int}, Spec.Exponent x e → ∀ c c' s, (c :: x) ≠ c' :: Sign.chars s := by
    rintro x e ⟨s', t, n, k, rfl, hd, _⟩ c c' s h
    simp only [List.cons.injEq] at h
    obtain ⟨a, l, rfl, ha, _⟩ := digits_head (hex := false) hd
    have := sign_chars s a (by rw [← h.2]; simp)
    rcases this with rfl | rfl <;> simp [isDec, isDigit] at ha
  cases h with
  | nan ha hb hc => exact ⟨floatToken_nan ha hb hc rest, convert_nan ha hb hc⟩
  | inf s ha hb hc =>
    refine ⟨?_, convert_inf s ha hb hc⟩
    rw [List.append_assoc]; exact floatToken_inf s ha hb hc rest
  | @whole s t n k _ h hv =>
    have hB : Body false t t := .whole (digits_isD (hex := false) h)
    have hm : Spec.Mantissa 10 t n := Or.inr ⟨n, k, h, rfl⟩
    simp only [List.mem_append, digitChars_iff, not_or] at hr
    constructor
    · have := dec s (X := []) (rest := rest) hB .none (by simp) ?_ ?_ (nonempty (hex := false) [] hm)
      · simpa using this
      · refine ⟨fun _ c hc => ?_, by simp⟩
        obtain ⟨⟨r1, r2⟩, r3⟩ := hr c hc
        refine ⟨by simpa using r1, ?_, ?_⟩
        · intro h; exact r2 (List.mem_cons_of_mem _ h)
        · rintro _ rfl; simp at r2
      · refine noh hB .none ?_ (nonempty (hex := false) [] hm)
        intro h48 c hc
        rw [List.append_nil] at h48
        have := (hr c hc).2
        rw [if_pos h48] at this
        simpa using this
    · have := (convert_dec s (X := []) hB .none (by simp) v).mpr ⟨n, hm, Or.inl ⟨rfl, hv⟩⟩
      simpa using this
  | @pointed s t q _ h hv =>
    have hm : Spec.Mantissa 10 t q := Or.inl h
    have hB : ∃ D, Body false t D ∧ t ≠ D := by
      cases h with
      | @before t n k h => exact ⟨[], .pointed (D := []) (by simp) (digits_isD (hex := false) h), by simp⟩
      | between h h' => exact ⟨_, .pointed (digits_isD (hex := false) h) (digits_isD (hex := false) h'), fun h => by
          have := congrArg List.length h; simp at this⟩
      | after h => exact ⟨_, .pointed (D' := []) (digits_isD (hex := false) h) (by simp), by simp⟩
    obtain ⟨D, hB, hne⟩ := hB
    simp only [List.mem_append, digitChars_iff, not_or] at hr
    constructor
    · have := dec s (X := []) (rest := rest) hB .none (by simp) ?_ ?_ (nonempty (hex := false) [] hm)
      · simpa using this
      · refine ⟨fun _ c hc => ?_, by simp⟩
        obtain ⟨r1, r2⟩ := hr c hc
        exact ⟨by simpa using r1, r2, fun h => absurd h hne⟩
      · refine noh hB .none ?_ (nonempty (hex := false) [] hm)
        intro h48 c hc
        exfalso
        rw [List.append_nil] at h48
        subst h48
        generalize hE : ([48] : List Nat) = E at h
        cases h with
        | before h => simp at hE
        | @between t t' _ _ _ _ h h' =>
          obtain ⟨a, l, rfl, _⟩ := digits_head (hex := false) h
          simp at hE
        | @after t _ _ h =>
          obtain ⟨a, l, rfl, _⟩ := digits_head (hex := false) h
          simp at hE
    · have := (convert_dec s (X := []) hB .none (by simp) v).mpr ⟨q, hm, Or.inl ⟨rfl, hv⟩⟩
      simpa using this
  | @scientific s t x q c e _ h hc hx hv =>
    obtain ⟨D, hB⟩ := mantissa_body (hex := false) h
    have hl : (c :: x).length ≤ 5 := by simp only [List.length_append] at hlen; omega
    have hX := (read_of_power (power_dec.mpr (Or.inr ⟨c, x, rfl, hc, hx⟩)) hl).2.2
    rw [List.append_assoc s.chars]
    refine ⟨dec s hB hX (expne hx c) ⟨by simp, fun _ b hb => ?_⟩ (noh hB hX ?_ (nonempty (hex := false) _ h))
      (nonempty (hex := false) _ h), (convert_dec s hB hX hl v).mpr ⟨q, h, Or.inr (Or.inl ⟨c, x, e, rfl, hc, hx, hv⟩)⟩⟩
    · have := hr b hb; rw [digitChars_iff] at this; simpa using this
    · intro h48
      obtain ⟨a, l, rfl, _⟩ := mantissa_head (hex := false) h
      simp at h48
  | @binary s t ds q e w s' h hw hn hd he h63 =>
    obtain ⟨D, hB⟩ := mantissa_body (hex := false) h
    have hE : ∀ c ∈ ds.map (48 + ·), isDec c = true := by
      intro d hd'
      rw [List.mem_map] at hd'
      obtain ⟨d', hd', rfl⟩ := hd'
      unfold isDec; rw [isDigit_code (hd d' hd')]; rfl
    have hX : Tail decExp (112 :: (s'.chars ++ ds.map (48 + ·))) := .exp s' (by simp [decExp]) hE
    have hl : (112 :: (s'.chars ++ ds.map (48 + ·))).length ≤ 5 := by
      simp only [List.length_append, List.length_cons] at hlen ⊢; omega
    rw [List.append_assoc s.chars]
    refine ⟨dec s hB hX ?_ ⟨by simp, fun _ b hb => ?_⟩ (noh hB hX ?_ (nonempty (hex := false) _ h))
      (nonempty (hex := false) _ h), (convert_dec s hB hX hl _).mpr ⟨q, h, Or.inr (Or.inr ⟨w, s', ds, e, rfl, hw, hn, hd, he, h63, rfl⟩)⟩⟩
    · intro c s'' h'
      simp only [List.cons.injEq] at h'
      cases ds with
      | nil => exact hn rfl
      | cons d ds =>
        have h1 := sign_chars s'' (48 + d) (by rw [← h'.2]; simp)
        omega
    · have := hr b hb; rw [digitChars_iff] at this; simpa using this
    · intro h48
      obtain ⟨a, l, rfl, _⟩ := mantissa_head (hex := false) h
      simp at h48
  | @hexadecimal s t u x q p c e _ hp h hu hc hx hv =>
    have hB : ∃ D, Body true u D := by
      rcases hu with rfl | ⟨rfl, h46⟩
      · exact mantissa_body (hex := true) h
      · obtain ⟨D, hB⟩ := mantissa_body (hex := true) h
        cases hB with
        | whole hD =>
          refine ⟨_, .whole (D := 95 :: t) ?_⟩
          intro c hc
          rcases List.mem_cons.mp hc with rfl | hc
          · rfl
          · exact hD c hc
        | @pointed D D' h1 h2 =>
          refine ⟨95 :: D, .pointed (D := 95 :: D) ?_ h2⟩
          intro c hc
          rcases List.mem_cons.mp hc with rfl | hc
          · rfl
          · exact h1 c hc
    obtain ⟨D, hB⟩ := hB
    have hl : (c :: x).length ≤ 5 := by simp only [List.length_append] at hlen; omega
    have hX := (read_of_power (power_hex.mpr ⟨c, x, rfl, hc, hx⟩) hl).2.2
    have e1 : s.chars ++ [48, p] ++ u ++ c :: x = s.chars ++ 48 :: p :: (u ++ c :: x) := by simp
    rw [e1]
    constructor
    · rw [List.append_assoc, List.cons_append, List.cons_append, floatToken_num s (by intro b hb; simp at hb; omega), numToken_hex hp,
        digits_token (hex := true) hB hX (expne hx c) ⟨by simp, fun _ b hb => ?_⟩]
      have := hr b hb; rw [digitChars_iff] at this; simpa using this
    · exact (convert_hex s hp hB hX hl v).mpr ⟨q, t, c, x, e, h, hu, rfl, hc, hx, hv⟩

end Radolan
