/- `strconv.ParseFloat` accepts a token if and only if it is a numeral. -/
import Verif.Lemmas.Numeral

namespace Radolan
open Go
open _root_.Spec (Digit Digits Pointed Sign)

/-- no sign, no letter of Inf or NaN at the beginning -/
def Wordless (l : List Nat) : Prop := ∀ c ∈ l.head?, c ≠ 43 ∧ c ≠ 45 ∧ c ≠ 105 ∧ c ≠ 73 ∧ c ≠ 110 ∧ c ≠ 78

theorem Wordless.unsigned {l : List Nat} (h : Wordless l) : Unsigned l := fun c hc => ⟨(h c hc).1, (h c hc).2.1⟩

theorem prefix_zero {l : List Nat} {p : Nat} {w : List Nat} (h : ∀ c ∈ l.head?, c ≠ p ∧ c + 32 ≠ p) :
    commonPrefixLen l (p :: w) = 0 := by
  cases l with
  | nil => rfl
  | cons c l =>
    have := h c (by simp)
    rw [commonPrefixLen, if_neg]
    split <;> omega

theorem specialInf_none {l : List Nat} (neg : Bool) (h : ∀ c ∈ l.head?, c ≠ 105 ∧ c ≠ 73) : specialInf neg l = none := by
  unfold specialInf
  have : commonPrefixLen l infinityWord = 0 := prefix_zero (fun c hc => by have := h c hc; omega)
  rw [this]; rfl

theorem special_none (s : Sign) {l : List Nat} (h : Wordless l) : special (s.chars ++ l) = none := by
  have h' : ∀ c ∈ l.head?, c ≠ 105 ∧ c ≠ 73 := fun c hc => ⟨(h c hc).2.2.1, (h c hc).2.2.2.1⟩
  cases s with
  | plus => exact specialInf_none false h'
  | minus => exact specialInf_none true h'
  | none =>
    show special l = none
    cases l with
    | nil => rfl
    | cons c l =>
      have := h c (by simp)
      unfold special
      simp only
      rw [if_neg this.1, if_neg this.2.1, if_neg (by omega), if_neg (by omega)]

/-- the sign and the rounding in `ParseFloat` -/
theorem parse_wordless (s : Sign) {l : List Nat} (h : Wordless l) (v : F32) :
    parseFloat32 (s.chars ++ l) = some v ↔ ∃ neg q, readFloat (s.chars ++ l) = some (neg, q) ∧
      v = Fl.mk f32 neg (if neg then -q else q) ∧ v.isFin = true := by
  unfold parseFloat32
  rw [special_none s h]
  cases hr : readFloat (s.chars ++ l) with
  | none => simp
  | some p =>
    obtain ⟨neg, q⟩ := p
    simp only [Option.bind_eq_bind, Option.bind_some, Option.some.injEq, Prod.mk.injEq]
    constructor
    · intro h
      by_cases hf : (Fl.mk f32 neg (if neg then -q else q)).isFin = true
      · rw [if_pos hf] at h
        simp only [Option.some.injEq] at h; subst h; exact ⟨neg, q, ⟨rfl, rfl⟩, rfl, hf⟩
      · rw [if_neg hf] at h; simp at h
    · rintro ⟨_, _, ⟨rfl, rfl⟩, rfl, h⟩
      simp [h]

/-- what may follow the mantissa in a token, given the letters that introduce an exponent -/
inductive Tail (exp : List Nat) : List Nat → Prop
  | none : Tail exp []
  | exp {c : Nat} (s : Sign) {D : List Nat} (hc : c ∈ exp) (hD : ∀ x ∈ D, isDec x = true) : Tail exp (c :: (s.chars ++ D))

def decExp : List Nat := [101, 69, 112, 80]
def hexExp : List Nat := [112, 80]
abbrev exps (hex : Bool) : List Nat := if hex then hexExp else decExp

theorem tail_halts {hex : Bool} {X : List Nat} (h : Tail (exps hex) X) :
    Halts hex X ∧ (∀ c ∈ X.head?, c ≠ 46) ∧ ∀ c ∈ X.head?, c ∈ exps hex := by
  cases h with
  | none => simp [Halts]
  | @exp c s D hc hD =>
    simp only [List.head?_cons, Option.mem_def, Option.some.injEq, forall_eq', Halts]
    refine ⟨?_, ?_, hc⟩
    · cases hex
      · simp only [exps, decExp, Bool.false_eq_true, if_false, List.mem_cons, List.not_mem_nil, or_false] at hc
        rcases hc with rfl | rfl | rfl | rfl <;> rfl
      · simp only [exps, hexExp, if_true, List.mem_cons, List.not_mem_nil, or_false] at hc
        rcases hc with rfl | rfl <;> rfl
    · rintro rfl
      cases hex <;> simp [exps, decExp, hexExp] at hc

/-- an exponent, or nothing in a decimal number -/
inductive Power (hex : Bool) : List Nat → Int → Prop
  | none (h : hex = false) : Power hex [] 0
  | some {c : Nat} {x : List Nat} {e : Int} (hc : lower c = if hex then 112 else 101) (hx : Spec.Exponent x e) :
      Power hex (c :: x) e

theorem good_sub {hex : Bool} {s : Saw} {c : Nat} {x : List Nat} (hc : Stop hex c) (h : Good hex s (c :: x)) :
    Good hex .other x := ((good_stop hc).mp h).2

theorem power_of_read {hex : Bool} {X : List Nat} (hX : Tail (exps hex) X) (hlen : X.length ≤ 5) {saw : Saw}
    (hg : Good hex saw X) {e : Int} (h : readExp hex X = some e) : Power hex X e := by
  have hh := tail_halts hX
  cases hX with
  | none =>
    unfold readExp at h
    cases hex with
    | true => simp at h
    | false => simp at h; subst h; exact .none rfl
  | @exp c s D hc hD =>
    have hg' := good_sub (hh.1 c (by simp)) hg
    simp only [List.length_cons, List.length_append] at hlen
    obtain ⟨h1, h2⟩ := readExp_some hD (by omega) hg' h
    exact .some h1 h2

theorem read_of_power {hex : Bool} {X : List Nat} {e : Int} (h : Power hex X e) (hlen : X.length ≤ 5) :
    readExp hex X = some e ∧ (∀ s, s ≠ .underscore → Good hex s X) ∧ Tail (exps hex) X := by
  cases h with
  | none h => subst h; exact ⟨rfl, fun s hs => good_nil.mpr hs, .none⟩
  | @some c x _ hc hx =>
    obtain ⟨h1, h2⟩ := readExp_exponent hc (by simp at hlen; omega) hx
    have hm : c ∈ exps hex := by
      cases hex
      · rcases (lower_eq (by simp)).mp hc with h | h
        · simp only [Bool.false_eq_true, if_false] at h; subst h; simp [exps, decExp]
        · simp only [Bool.false_eq_true, if_false] at h
          have : c = 69 := by omega
          subst this; simp [exps, decExp]
      · rcases (lower_eq (by simp)).mp hc with h | h
        · simp only [if_true] at h; subst h; simp [exps, hexExp]
        · simp only [if_true] at h
          have : c = 80 := by omega
          subst this; simp [exps, hexExp]
    have ht : Tail (exps hex) (c :: x) := by
      obtain ⟨s, t, n, k, rfl, hd, _⟩ := hx
      exact .exp s hm (digits_isD (hex := false) hd)
    exact ⟨h1, fun s hs => (good_stop ((tail_halts ht).1 c (by simp))).mpr ⟨hs, h2⟩, ht⟩

/-! ### decimal numbers -/

/-- the characters of decimal tokens -/
def DecChar (c : Nat) : Prop := isDec c = true ∨ c = 46 ∨ c = 101 ∨ c = 69 ∨ c = 112 ∨ c = 80 ∨ c = 43 ∨ c = 45

theorem decChar_range {c : Nat} (h : DecChar c) : (48 ≤ c ∧ c ≤ 57) ∨ c = 95 ∨ c = 46 ∨ c = 101 ∨ c = 69 ∨ c = 112 ∨ c = 80 ∨
    c = 43 ∨ c = 45 := by
  unfold DecChar isDec isDigit at h
  simp only [Bool.or_eq_true, Bool.and_eq_true, decide_eq_true_eq, beq_iff_eq] at h
  omega

theorem body_chars {B D : List Nat} (h : Body false B D) : ∀ c ∈ B, DecChar c := by
  cases h with
  | whole h => exact fun c hc => Or.inl (h c hc)
  | pointed h h' =>
    intro c hc
    simp only [List.mem_append, List.mem_cons] at hc
    rcases hc with hc | rfl | hc
    · exact Or.inl (h c hc)
    · exact Or.inr (Or.inl rfl)
    · exact Or.inl (h' c hc)

theorem sign_chars (s : Sign) : ∀ c ∈ s.chars, c = 43 ∨ c = 45 := by
  cases s <;> simp [Sign.chars, Sign.text]

theorem tail_chars {X : List Nat} (h : Tail decExp X) : ∀ c ∈ X, DecChar c := by
  cases h with
  | none => simp
  | @exp c s D hc hD =>
    intro x hx
    simp only [List.mem_append, List.mem_cons] at hx
    rcases hx with rfl | hx | hx
    · simp only [decExp, List.mem_cons, List.not_mem_nil, or_false] at hc
      unfold DecChar; tauto
    · have := sign_chars s x hx; unfold DecChar; tauto
    · exact Or.inl (hD x hx)

theorem no_prefix {l : List Nat} (h : ∀ c ∈ l, DecChar c) : hexPrefix l = false ∧ basePrefix l = false ∧
    hexBase l = false := by
  have key : ∀ c, DecChar c → lower c ≠ 98 ∧ lower c ≠ 111 ∧ lower c ≠ 120 := by
    intro c hc
    have := decChar_range hc
    refine ⟨fun h => ?_, fun h => ?_, fun h => ?_⟩
    · have := (lower_eq (by simp)).mp h; omega
    · have := (lower_eq (by simp)).mp h; omega
    · have := (lower_eq (by simp)).mp h; omega
  refine ⟨?_, ?_, ?_⟩
  · unfold hexPrefix
    split
    · rename_i c _ _; simpa using (key c (h c (by simp))).2.2
    · rfl
  · unfold basePrefix
    split
    · rename_i c _; have := key c (h c (by simp)); simp [this]
    · rfl
  · unfold hexBase
    split
    · rename_i c _; simpa using (key c (h c (by simp))).2.2
    · rfl

theorem underscoreOK_dec (s : Sign) {l : List Nat} (hu : Unsigned l) (h : ∀ c ∈ l, DecChar c) :
    underscoreOK (s.chars ++ l) = true ↔ Good false .start l := by
  obtain ⟨_, h2, h3⟩ := no_prefix h
  unfold underscoreOK
  rw [signSplit_chars s (fun _ => hu)]
  simp only
  rw [h2, h3]
  simp only [Bool.false_eq_true, if_false]
  unfold Good
  cases sawLoop false .start l with
  | none => simp
  | some s => simp

theorem readFloat_dec (s : Sign) {B D X : List Nat} (hu : Unsigned (B ++ X)) (hB : Body false B D) (hX : Tail decExp X)
    (hlen : X.length ≤ 5) (neg : Bool) (q : ℚ) :
    readFloat (s.chars ++ (B ++ X)) = some (neg, q) ↔ neg = decide (s = .minus) ∧
      ∃ q0 e, Spec.Mantissa 10 B q0 ∧ Power false X e ∧ q = q0 * (10 : ℚ) ^ e := by
  have hc : ∀ c ∈ B ++ X, DecChar c := by
    intro c hc
    rcases List.mem_append.mp hc with hc | hc
    · exact body_chars hB c hc
    · exact tail_chars hX c hc
  have hh := tail_halts (hex := false) hX
  obtain ⟨h1, _, _⟩ := no_prefix hc
  unfold readFloat
  rw [signSplit_chars s (fun _ => hu)]
  simp only [h1, Bool.false_eq_true, if_false]
  constructor
  · intro h
    by_cases hs : (mantLoop false ⟨false, false, 0, 0⟩ (B ++ X)).1.sawdigits = true
    · rw [if_pos hs] at h
      simp only [Option.bind_eq_bind, Option.bind_eq_some_iff] at h
      obtain ⟨e, he, h⟩ := h
      split at h
      · rename_i hun
        have hg := (underscoreOK_dec s hu hc).mp hun
        obtain ⟨⟨q0, hq⟩, ⟨sw, hsw, hg'⟩⟩ := body_mantissa (hex := false) (Or.inl rfl) hB hh.1 hh.2.1 hg hs
        obtain ⟨m, hm, _, hv⟩ := mantLoop_mantissa (hex := false) hq hh.1 hh.2.1
        rw [hm] at he h
        simp only [Option.some.injEq, Prod.mk.injEq] at h
        refine ⟨h.1.symm, q0, e, hq, power_of_read (hex := false) hX hlen hg' he, ?_⟩
        rw [← h.2, ← hv]
        norm_num
      · simp at h
    · rw [if_neg hs] at h; simp at h
  · rintro ⟨rfl, q0, e, hq, hp, rfl⟩
    obtain ⟨m, hm, hs, hv⟩ := mantLoop_mantissa (hex := false) hq hh.1 hh.2.1
    obtain ⟨r1, r2, _⟩ := read_of_power hp hlen
    rw [hm]
    simp only [hs, if_true, r1]
    have hg : Good false .start (B ++ X) := mantissa_good (by simp) hq r2
    simp only [Option.bind_eq_bind, Option.bind_some]
    rw [if_pos ((underscoreOK_dec s hu hc).mpr hg), ← hv]
    norm_num

/-! ### hexadecimal numbers -/

theorem underscoreOK_hex (s : Sign) {p : Nat} (hp : p = 120 ∨ p = 88) (l : List Nat) :
    underscoreOK (s.chars ++ 48 :: p :: l) = true ↔ Good true .digit l := by
  have hl : lower p = 120 := (lower_eq (by simp)).mpr (by omega)
  unfold underscoreOK
  rw [signSplit_chars s (fun _ => by intro c hc; simp at hc; omega)]
  simp only [basePrefix, hexBase, hl, decide_true, Bool.or_true, if_true, List.drop_succ_cons, List.drop_zero]
  unfold Good
  cases sawLoop true .digit l with
  | none => simp
  | some s => simp

theorem readFloat_bare (s : Sign) {p : Nat} (hp : p = 120 ∨ p = 88) : readFloat (s.chars ++ [48, p]) = none := by
  rcases hp with rfl | rfl <;> cases s <;> decide +kernel

theorem readFloat_hex (s : Sign) {B D X : List Nat} {p : Nat} (hp : p = 120 ∨ p = 88) (hB : Body true B D)
    (hX : Tail hexExp X) (hlen : X.length ≤ 5) (neg : Bool) (q : ℚ) :
    readFloat (s.chars ++ 48 :: p :: (B ++ X)) = some (neg, q) ↔ neg = decide (s = .minus) ∧
      ∃ q0 t e, Spec.Mantissa 16 t q0 ∧ (B = t ∨ (B = 95 :: t ∧ t.head? ≠ some 46)) ∧ Power true X e ∧
        q = q0 * (2 : ℚ) ^ e := by
  have hl : lower p = 120 := (lower_eq (by simp)).mpr (by omega)
  have hh := tail_halts (hex := true) hX
  have hu : Unsigned (48 :: p :: (B ++ X)) := by intro c hc; simp at hc; omega
  have h95 : Stop true 95 → False := by intro h; simp [Stop, isHex, isDec] at h
  -- a body after the prefix
  have hbody : Good true .digit (B ++ X) →
      (mantLoop true ⟨false, false, 0, 0⟩ (B ++ X)).1.sawdigits = true →
      (∃ q0 t, Spec.Mantissa 16 t q0 ∧ (B = t ∨ (B = 95 :: t ∧ t.head? ≠ some 46))) ∧ ∃ s, Good true s X := by
    intro hg hs
    by_cases hB95 : ∃ B', B = 95 :: B'
    · obtain ⟨B', rfl⟩ := hB95
      have hg1 : Good true .underscore (B' ++ X) := by
        obtain ⟨f, hf, hne⟩ := hg
        simp only [List.cons_append, sawLoop, sawStep_underscore, if_true, Option.bind_some] at hf
        exact ⟨f, hf, hne⟩
      have hd : ∃ c B'', B' = c :: B'' ∧ isD true c = true ∧ c ≠ 95 := by
        cases B' with
        | nil => exact absurd hg1 (good_underscore hh.1)
        | cons c B'' =>
          by_cases hst : Stop true c
          · exact absurd hg1 (good_underscore (by intro x hx; simp at hx; subst hx; exact hst))
          · refine ⟨c, B'', rfl, by unfold Stop at hst; simpa using hst, ?_⟩
            rintro rfl
            obtain ⟨f, hf, hne⟩ := hg1
            simp [sawLoop, sawStep_underscore] at hf
      obtain ⟨c, B'', rfl, hc, hc95⟩ := hd
      have hg2 : Good true .start (c :: B'' ++ X) := by
        obtain ⟨f, hf, hne⟩ := hg1
        refine ⟨f, ?_, hne⟩
        simp only [List.cons_append, sawLoop, sawStep_digit _ hc hc95] at hf ⊢
        exact hf
      have hB' : ∃ D', Body true (c :: B'') D' := by
        generalize hE : (95 :: c :: B'' : List Nat) = E at hB
        cases hB with
        | whole h => exact ⟨_, .whole (fun x hx => h x (by rw [← hE]; exact List.mem_cons_of_mem _ hx))⟩
        | @pointed D D' h h' =>
          cases D with
          | nil => simp at hE
          | cons d D =>
            simp only [List.cons_append, List.cons.injEq] at hE
            rw [hE.2]
            exact ⟨_, .pointed (fun x hx => h x (List.mem_cons_of_mem _ hx)) h'⟩
      obtain ⟨D', hB'⟩ := hB'
      rw [List.cons_append, mantLoop_underscore] at hs
      obtain ⟨⟨q0, hq⟩, ⟨sw, _, hg'⟩⟩ := body_mantissa (hex := true) (Or.inl rfl) hB' hh.1 hh.2.1 hg2 hs
      refine ⟨⟨q0, _, hq, Or.inr ⟨rfl, ?_⟩⟩, sw, hg'⟩
      simp only [List.head?_cons, ne_eq, Option.some.injEq]
      rintro rfl
      simp [isHex, isDec, isDigit] at hc
    · have hg2 : Good true .start (B ++ X) := by
        obtain ⟨f, hf, hne⟩ := hg
        refine ⟨f, ?_, hne⟩
        cases B with
        | nil =>
          rw [List.nil_append] at hf ⊢
          cases X with
          | nil =>
            rw [List.nil_append, mantLoop_stop hh.1 hh.2.1] at hs; simp at hs
          | cons c X =>
            have := hh.1 c (by simp)
            simp only [sawLoop, sawStep_stop _ this] at hf ⊢
            simpa using hf
        | cons c B =>
          have hc : c ≠ 95 := by rintro rfl; exact hB95 ⟨_, rfl⟩
          by_cases hst : Stop true c
          · simp only [List.cons_append, sawLoop, sawStep_stop _ hst] at hf ⊢
            simpa using hf
          · have : isD true c = true := by unfold Stop at hst; simpa using hst
            simp only [List.cons_append, sawLoop, sawStep_digit _ this hc] at hf ⊢
            exact hf
      obtain ⟨⟨q0, hq⟩, ⟨sw, _, hg'⟩⟩ := body_mantissa (hex := true) (Or.inl rfl) hB hh.1 hh.2.1 hg2 hs
      exact ⟨⟨q0, _, hq, Or.inl rfl⟩, sw, hg'⟩
  by_cases hempty : B ++ X = []
  · rw [hempty, readFloat_bare s hp]
    constructor
    · simp
    · rintro ⟨_, q0, t, e, hq, ht, _⟩
      obtain ⟨c, l, rfl, _⟩ := mantissa_head (hex := true) hq
      obtain ⟨rfl, _⟩ := List.append_eq_nil_iff.mp hempty
      rcases ht with ht | ⟨ht, _⟩ <;> simp at ht
  have h1 : hexPrefix (48 :: p :: (B ++ X)) = true := by
    cases hBX : B ++ X with
    | nil => exact absurd hBX hempty
    | cons a l => simp [hexPrefix, hl]
  unfold readFloat
  rw [signSplit_chars s (fun _ => hu)]
  simp only [h1, if_true, List.drop_succ_cons, List.drop_zero]
  constructor
  · intro h
    by_cases hs : (mantLoop true ⟨false, false, 0, 0⟩ (B ++ X)).1.sawdigits = true
    · rw [if_pos hs] at h
      simp only [Option.bind_eq_bind, Option.bind_eq_some_iff] at h
      obtain ⟨e, he, h⟩ := h
      split at h
      · rename_i hun
        have hg := (underscoreOK_hex s hp _).mp hun
        obtain ⟨⟨q0, t, hq, ht⟩, ⟨sw, hg'⟩⟩ := hbody hg hs
        obtain ⟨m, hm, _, hv⟩ := mantLoop_mantissa (hex := true) hq hh.1 hh.2.1
        have hm' : mantLoop true ⟨false, false, 0, 0⟩ (B ++ X) = (m, X) := by
          rcases ht with rfl | ⟨rfl, _⟩
          · exact hm
          · rw [List.cons_append, mantLoop_underscore]; exact hm
        rw [hm'] at he h
        simp only [Option.some.injEq, Prod.mk.injEq] at h
        refine ⟨h.1.symm, q0, t, e, hq, ht, power_of_read (hex := true) hX hlen hg' he, ?_⟩
        rw [← h.2, ← hv]
        norm_num
      · simp at h
    · rw [if_neg hs] at h; simp at h
  · rintro ⟨rfl, q0, t, e, hq, ht, hp', rfl⟩
    obtain ⟨m, hm, hs, hv⟩ := mantLoop_mantissa (hex := true) hq hh.1 hh.2.1
    obtain ⟨r1, r2, _⟩ := read_of_power hp' hlen
    have hm' : mantLoop true ⟨false, false, 0, 0⟩ (B ++ X) = (m, X) := by
      rcases ht with rfl | ⟨rfl, _⟩
      · exact hm
      · rw [List.cons_append, mantLoop_underscore]; exact hm
    rw [hm']
    simp only [hs, if_true, r1]
    have hg : Good true .digit (B ++ X) := by
      rcases ht with rfl | ⟨rfl, h46⟩
      · exact mantissa_good (by simp) hq r2
      · have hgt : Good true .start (t ++ X) := mantissa_good (by simp) hq r2
        obtain ⟨c, l, rfl, hc⟩ := mantissa_head (hex := true) hq
        rcases hc with rfl | ⟨hc, hc95⟩
        · simp at h46
        · obtain ⟨f, hf, hne⟩ := hgt
          refine ⟨f, ?_, hne⟩
          simp only [List.cons_append, sawLoop, sawStep_underscore, if_true, Option.bind_some,
            sawStep_digit _ hc hc95] at hf ⊢
          exact hf
    simp only [Option.bind_eq_bind, Option.bind_some]
    rw [if_pos ((underscoreOK_hex s hp _).mpr hg), ← hv]
    norm_num

end Radolan
