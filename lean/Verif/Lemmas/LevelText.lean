/- `fmt.Sscanf` with "%f" reads exactly the texts of Spec/Numeral. -/
import Verif.Lemmas.FloatText

namespace Radolan
open Go
open _root_.Spec (Digit Digits Pointed Sign Rounded Numeral LevelText)

theorem isD_range {hex : Bool} {c : Nat} (h : isD hex c = true) : 43 ≤ c ∧ c < 128 := by
  unfold isD isHex isDec isDigit at h
  cases hex
  · simp only [Bool.false_eq_true, if_false, Bool.or_eq_true, Bool.and_eq_true, decide_eq_true_eq, beq_iff_eq] at h
    omega
  · simp only [if_true, Bool.or_eq_true, Bool.and_eq_true, decide_eq_true_eq, beq_iff_eq] at h
    omega

theorem mantissa_range {hex : Bool} {t : List Nat} {q : ℚ} (h : Spec.Mantissa (base hex) t q) :
    (∀ c ∈ t, 43 ≤ c ∧ c < 128) ∧ t ≠ [] := by
  refine ⟨?_, ?_⟩
  · obtain ⟨D, hB⟩ := mantissa_body h
    cases hB with
    | whole h => exact fun c hc => isD_range (h c hc)
    | @pointed D D' hD h' =>
      intro c hc
      simp only [List.mem_append, List.mem_cons] at hc
      rcases hc with hc | rfl | hc
      · exact isD_range (hD c hc)
      · omega
      · exact isD_range (h' c hc)
  · obtain ⟨c, l, rfl, _⟩ := mantissa_head h; simp

theorem sign_range (s : Sign) : ∀ c ∈ s.chars, 43 ≤ c ∧ c < 128 := fun c hc => by have := sign_chars s c hc; omega

theorem exponent_range {x : List Nat} {e : Int} (h : Spec.Exponent x e) : ∀ c ∈ x, 43 ≤ c ∧ c < 128 := by
  obtain ⟨s, t, n, k, rfl, hd, _⟩ := h
  intro c hc
  rcases List.mem_append.mp hc with hc | hc
  · exact sign_range s c hc
  · exact isD_range (hex := false) (digits_isD (hex := false) hd c hc)

/-- numerals are not empty and consist of visible characters -/
theorem numeral_range {tok more : List Nat} {v : F32} (h : Numeral tok v more) :
    (∀ c ∈ tok, 43 ≤ c ∧ c < 128) ∧ tok ≠ [] ∧ ∀ c ∈ more, c < 128 := by
  have hdig : ∀ c ∈ Spec.digitChars, c < 128 := by decide
  cases h with
  | nan ha hb hc =>
    refine ⟨?_, by simp, by simp⟩
    intro x hx
    simp only [List.mem_cons, List.not_mem_nil, or_false] at hx
    omega
  | inf s ha hb hc =>
    refine ⟨?_, by simp, by simp⟩
    intro x hx
    simp only [List.mem_append, List.mem_cons, List.not_mem_nil, or_false] at hx
    rcases hx with hx | hx
    · exact sign_range s x hx
    · omega
  | @whole s t n k _ h hv =>
    obtain ⟨h1, h2⟩ := mantissa_range (hex := false) (t := t) (q := n) (Or.inr ⟨n, k, h, rfl⟩)
    refine ⟨?_, by simp [h2], ?_⟩
    · intro x hx
      rcases List.mem_append.mp hx with hx | hx
      · exact sign_range s x hx
      · exact h1 x hx
    · intro c hc
      rw [List.mem_append, List.mem_append] at hc
      rcases hc with (hc | hc) | hc
      · exact hdig c hc
      · simp only [List.mem_cons, List.not_mem_nil, or_false] at hc; omega
      · by_cases h0 : t = [48]
        · rw [if_pos h0] at hc; simp only [List.mem_cons, List.not_mem_nil, or_false] at hc; omega
        · rw [if_neg h0] at hc; simp at hc
  | @pointed s t q _ h hv =>
    obtain ⟨h1, h2⟩ := mantissa_range (hex := false) (t := t) (q := q) (Or.inl h)
    refine ⟨?_, by simp [h2], ?_⟩
    · intro x hx
      rcases List.mem_append.mp hx with hx | hx
      · exact sign_range s x hx
      · exact h1 x hx
    · intro c hc
      rw [List.mem_append] at hc
      rcases hc with hc | hc
      · exact hdig c hc
      · simp only [List.mem_cons, List.not_mem_nil, or_false] at hc; omega
  | @scientific s t x q c e _ h hc hx hv =>
    obtain ⟨h1, h2⟩ := mantissa_range (hex := false) h
    refine ⟨?_, by simp, hdig⟩
    intro y hy
    simp only [List.mem_append, List.mem_cons] at hy
    rcases hy with (hy | hy) | rfl | hy
    · exact sign_range s y hy
    · exact h1 y hy
    · omega
    · exact exponent_range hx y hy
  | @hexadecimal s t u x q p c e _ hp h hu hc hx hv =>
    obtain ⟨h1, h2⟩ := mantissa_range (hex := true) h
    refine ⟨?_, by simp, hdig⟩
    have hu' : ∀ y ∈ u, 43 ≤ y ∧ y < 128 := by
      rcases hu with rfl | ⟨rfl, _⟩
      · exact h1
      · intro y hy
        rcases List.mem_cons.mp hy with rfl | hy
        · omega
        · exact h1 y hy
    intro y hy
    simp only [List.mem_append, List.mem_cons, List.not_mem_nil, or_false] at hy
    rcases hy with ((hy | hy) | hy) | rfl | hy
    · exact sign_range s y hy
    · omega
    · exact hu' y hy
    · omega
    · exact exponent_range hx y hy
  | @binary s t ds q e w s' h hw hn hd he h63 =>
    obtain ⟨h1, h2⟩ := mantissa_range (hex := false) h
    refine ⟨?_, by simp, hdig⟩
    intro y hy
    simp only [List.mem_append, List.mem_cons, List.mem_map] at hy
    rcases hy with (hy | hy) | rfl | hy | ⟨d, hd', rfl⟩
    · exact sign_range s y hy
    · exact h1 y hy
    · omega
    · exact sign_range s' y hy
    · have := hd d hd'; omega

/-- the first character is one of these ASCII characters if the first byte is -/
theorem runes_head_ascii (text : Bytes) {m : List Nat} (hm : ∀ c ∈ m, c < 128) :
    (∀ r ∈ (runes text).head?, r ∉ m) ↔ ∀ b ∈ text.head?, b.toNat ∉ m := by
  cases text with
  | nil => simp [runes, runesFrom]
  | cons b rest =>
    have e : (runes (b :: rest)).head? = some (decodeRune b rest).1 := by
      unfold runes
      rw [runesFrom, if_pos rfl]
      rfl
    rw [e]
    simp only [Option.mem_def, Option.some.injEq, forall_eq', List.head?_cons]
    by_cases hb : b < 128
    · rw [decodeRune_ascii hb]
    · have h1 : 128 ≤ b.toNat := by
        have : 128 ≤ b := by simpa using hb
        rw [le8] at this
        exact this
      have h2 : 128 ≤ (decodeRune b rest).1 := by
        rcases decode_cases (b := b) (by simpa using hb) rest with ⟨cp, t, h1, _, _, _, _, h6⟩ | h
        · rw [h6]; exact h1
        · rw [h]; decide
      constructor
      · intro _ h; have := hm _ h; omega
      · intro _ h; have := hm _ h; omega

theorem ascii_flatMap {tok : List Nat} (h : ∀ c ∈ tok, c < 128) : tok.flatMap Spec.utf8 = tok.map UInt8.ofNat := by
  induction tok with
  | nil => rfl
  | cons c tok ih =>
    have hc := h c (by simp)
    rw [List.flatMap_cons, ih fun x hx => h x (by simp [hx])]
    unfold Spec.utf8
    rw [if_pos (by omega)]; rfl

theorem sscanfF_iff {text : Bytes} (hlen : text.length ≤ 5) (v : F32) : sscanfF text = some v ↔ LevelText text v := by
  unfold sscanfF
  constructor
  · intro h
    simp only [Option.bind_eq_bind, Option.bind_eq_some_iff] at h
    obtain ⟨l, hl, h⟩ := h
    obtain ⟨cs, hcs, hw, _⟩ := skipSpace_some hl
    have hll : l.length ≤ 5 := by
      have := runes_length text
      rw [hcs, List.length_append] at this
      omega
    by_cases h0 : l = []
    · rw [if_pos h0] at h; simp at h
    rw [if_neg h0] at h
    obtain ⟨tok, r, more, rfl, hn, hm⟩ := float_numeral hll h
    obtain ⟨n1, n2, n3⟩ := numeral_range hn
    obtain ⟨t, _, rfl, h2⟩ := runes_append hcs fun c h => white_ne ((white_iff c).mpr (hw c h))
    obtain ⟨rest, _, rfl, h4⟩ := runes_append h2 fun c h => by have := (n1 c h).2; unfold runeError; omega
    rw [ascii_flatMap fun c h => (n1 c h).2] at hlen ⊢
    refine ⟨cs.flatMap Spec.utf8, tok, rest, more, by simp, ⟨cs, rfl, fun c h => (white_iff c).mpr (hw c h)⟩, hn, ?_, hlen⟩
    rw [← runes_head_ascii rest n3, h4]
    exact hm
  · rintro ⟨ws, tok, rest, more, rfl, ⟨cs, rfl, hw⟩, hn, hm, _⟩
    obtain ⟨n1, n2, n3⟩ := numeral_range hn
    rw [← ascii_flatMap fun c h => (n1 c h).2, List.append_assoc, runes_flatMap fun c h => white_scalar (hw c h),
      runes_flatMap (fun c h => Or.inl (by have := (n1 c h).2; omega)), skipSpace_white fun c h => (white_iff c).mp (hw c h),
      skipSpace_stop (by
        intro c hc
        cases tok with
        | nil => exact absurd rfl n2
        | cons a tok =>
          simp at hc; subst hc
          have := n1 a (by simp)
          refine ⟨by omega, ?_⟩
          unfold isSpace
          simp; omega)]
    have htl : tok.length ≤ 5 := by
      simp only [List.length_append, List.length_map] at hlen; omega
    obtain ⟨f1, f2⟩ := numeral_float (rest := runes rest) htl hn ((runes_head_ascii rest n3).mpr hm)
    simp only [Option.bind_eq_bind, Option.bind_some]
    rw [if_neg (by simp [n2]), f1, f2]

/-- the value of a text is unique -/
theorem levelText_unique {text : Bytes} {v w : F32} (h : LevelText text v) (h' : LevelText text w) : v = w := by
  have hlen : text.length ≤ 5 := by obtain ⟨_, _, _, _, _, _, _, _, h⟩ := h; exact h
  rw [← sscanfF_iff hlen] at h h'
  rw [h] at h'
  exact Option.some.inj h'

end Radolan
