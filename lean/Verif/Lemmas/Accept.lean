/-
Exactly which texts the scanner reads as numbers.
-/
import Verif.Lemmas.Numbers
import Verif.Lemmas.Time
import Verif.Lemmas.Chars
import Verif.Spec.Accept

namespace Radolan
open Go

/-- ASCII white space except line feed, as runes -/
def whiteRune (r : Nat) : Prop := r ≠ 10 ∧ isSpace r = true

theorem skipSpace_some {l l' : List Nat} (h : skipSpace l = some l') :
    ∃ ws, l = ws ++ l' ∧ (∀ r ∈ ws, whiteRune r) ∧ ∀ r ∈ l'.head?, r ≠ 10 ∧ isSpace r = false := by
  induction l with
  | nil => simp [skipSpace] at h; subst h; exact ⟨[], rfl, by simp, by simp⟩
  | cons r rs ih =>
    unfold skipSpace at h
    split at h
    · simp at h
    · rename_i h10
      split at h
      · rename_i hs
        obtain ⟨ws, h1, h2, h3⟩ := ih h
        refine ⟨r :: ws, by rw [h1]; rfl, ?_, h3⟩
        intro x hx
        rcases List.mem_cons.mp hx with rfl | hx
        · exact ⟨h10, hs⟩
        · exact h2 x hx
      · rename_i hs
        simp only [Option.some.injEq] at h
        subst h
        refine ⟨[], rfl, by simp, ?_⟩
        intro x hx
        simp only [List.head?_cons, Option.mem_def, Option.some.injEq] at hx
        subst hx
        exact ⟨h10, by simpa using hs⟩

theorem skipSpace_white {ws l : List Nat} (h : ∀ r ∈ ws, whiteRune r) : skipSpace (ws ++ l) = skipSpace l := by
  induction ws with
  | nil => rfl
  | cons r ws ih =>
    obtain ⟨h1, h2⟩ := h r (by simp)
    rw [List.cons_append, skipSpace, if_neg h1, if_pos h2]
    exact ih fun x hx => h x (by simp [hx])

theorem skipSpace_stop {l : List Nat} (h : ∀ r ∈ l.head?, r ≠ 10 ∧ isSpace r = false) : skipSpace l = some l := by
  cases l with
  | nil => rfl
  | cons r l =>
    obtain ⟨h1, h2⟩ := h r (by simp)
    unfold skipSpace
    rw [if_neg h1, h2]
    simp

theorem white_iff (c : Nat) : Spec.White c ↔ whiteRune c := by
  unfold Spec.White whiteRune isSpace
  simp only [Bool.or_eq_true, Bool.and_eq_true, decide_eq_true_eq, beq_iff_eq]
  omega

theorem white_scalar {c : Nat} (h : Spec.White c) : Spec.scalar c := by
  unfold Spec.White at h
  left
  omega

theorem white_ne {c : Nat} (h : Spec.White c) : c ≠ runeError := by
  unfold Spec.White at h
  unfold runeError
  omega

theorem blank_replicate (n : Nat) : Spec.Blank (List.replicate n 32) := by
  refine ⟨List.replicate n 32, ?_, fun c hc => by rw [List.eq_of_mem_replicate hc]; unfold Spec.White; simp⟩
  induction n with
  | zero => rfl
  | succ n ih => rw [List.replicate_succ, List.replicate_succ, List.flatMap_cons, ← ih]; rfl

theorem digit_iff (b : UInt8) : Spec.IsDigit b ↔ isDigit b.toNat = true := by
  unfold Spec.IsDigit isDigit
  rw [UInt8.le_iff_toNat_le, UInt8.le_iff_toNat_le]
  simp

/-- text that does not begin with a digit -/
theorem nondigit_runes {rest : Bytes} :
    (∀ r ∈ (runes rest).head?, isDigit r = false) ↔ ∀ b ∈ rest.head?, ¬ Spec.IsDigit b := by
  rw [runes_head_digit]
  simp only [digit_iff, Bool.not_eq_true]

theorem digits_of {l : List Nat} (h : ∀ b ∈ l, isDigit b = true) :
    ∃ ds : List Nat, l = ds.map (48 + ·) ∧ ∀ d ∈ ds, d < 10 := by
  refine ⟨l.map fun b => b - 48, ?_, ?_⟩
  · rw [List.map_map]
    conv_lhs => rw [← List.map_id l]
    apply List.map_congr_left
    intro b hb
    have := h b hb
    unfold isDigit at this
    simp only [Bool.and_eq_true, decide_eq_true_eq] at this
    simp only [Function.comp_apply, id_eq]
    omega
  · intro d hd
    obtain ⟨b, hb, rfl⟩ := List.mem_map.mp hd
    have := h b hb
    unfold isDigit at this
    simp only [Bool.and_eq_true, decide_eq_true_eq] at this
    omega

theorem signSplit_cases (l : List Nat) : ∃ (s : Spec.Sign) (t : List Nat), l = signRunes s ++ t ∧
    signSplit l = (decide (s = .minus), t) := by
  cases l with
  | nil => exact ⟨.none, [], rfl, rfl⟩
  | cons b l =>
    by_cases h1 : b = 43
    · subst h1; exact ⟨.plus, l, rfl, rfl⟩
    · by_cases h2 : b = 45
      · subst h2; exact ⟨.minus, l, rfl, rfl⟩
      · refine ⟨.none, b :: l, rfl, ?_⟩
        unfold signSplit
        split
        · rename_i heq; simp only [List.cons.injEq] at heq; omega
        · rename_i heq; simp only [List.cons.injEq] at heq; omega
        · simp

/-- sign and digits at the beginning of a text without leading white space -/
theorem scanInt_text_some {l : List Nat} {n : Int} {r : List Nat} (hl : ∀ b ∈ l.head?, b ≠ 10 ∧ isSpace b = false)
    (h : scanInt l = some (n, r)) :
    ∃ (s : Spec.Sign) (ds : List Nat), l = signRunes s ++ (ds.map (48 + ·) ++ r) ∧
      ds ≠ [] ∧ (∀ d ∈ ds, d < 10) ∧ (∀ b ∈ r.head?, isDigit b = false) ∧ n = s.apply (Spec.decimal ds) ∧
      -(2 ^ 63) ≤ n ∧ n < 2 ^ 63 := by
  obtain ⟨s, t, h1, h2⟩ := signSplit_cases l
  unfold scanInt at h
  rw [skipSpace_stop hl] at h
  simp only [Option.bind_eq_bind, Option.bind_some, h2] at h
  obtain ⟨ds, e1, e2⟩ := digits_of (l := t.takeWhile isDigit) (fun b hb => by
    have := List.all_takeWhile (l := t) (p := isDigit)
    simpa using List.all_eq_true.mp this b hb)
  have htk : t = ds.map (48 + ·) ++ t.dropWhile isDigit := by
    rw [← e1, List.takeWhile_append_dropWhile]
  rw [e1, digitsVal_decimal] at h
  split at h
  · simp at h
  · rename_i hne
    have hv : (if decide (s = Spec.Sign.minus) = true then -(Spec.decimal ds : Int) else (Spec.decimal ds : Int))
        = s.apply (Spec.decimal ds) := by cases s <;> simp [Spec.Sign.apply]
    rw [hv] at h
    split at h
    · rename_i hr
      simp only [Option.some.injEq, Prod.mk.injEq] at h
      obtain ⟨rfl, rfl⟩ := h
      refine ⟨s, ds, by rw [h1]; conv_lhs => rw [htk], by simpa using hne, e2, ?_, rfl, hr.1, hr.2⟩
      intro b hb
      have := List.head?_dropWhile_not (p := isDigit) t
      rw [Option.mem_def] at hb
      rw [hb] at this
      simpa using this
    · simp at h

theorem number_head (s : Spec.Sign) {ds : List Nat} (hne : ds ≠ []) (hd : ∀ d ∈ ds, d < 10) (rest : List Nat) :
    ∀ r ∈ (signRunes s ++ (ds.map (48 + ·) ++ rest)).head?, r ≠ 10 ∧ isSpace r = false := by
  obtain ⟨r, l, he, h1, h2⟩ := head_number s hne hd rest
  rw [he]
  intro x hx
  simp only [List.head?_cons, Option.mem_def, Option.some.injEq] at hx
  subst hx
  refine ⟨by omega, ?_⟩
  unfold isSpace
  simp; omega

theorem flatMap_byte {l : Bytes} (h : ∀ b ∈ l, b < 128) : (l.map UInt8.toNat).flatMap Spec.utf8 = l := by
  induction l with
  | nil => rfl
  | cons b l ih =>
    rw [List.map_cons, List.flatMap_cons, utf8_byte (h b (by simp)), ih fun x hx => h x (by simp [hx])]
    rfl

/-- the characters of white space, sign, digits and what follows -/
theorem runes_text {cs : List Nat} (hc : ∀ c ∈ cs, Spec.White c) (s : Spec.Sign) {ds : List Nat} (hd : ∀ d ∈ ds, d < 10)
    (rest : Bytes) : runes (cs.flatMap Spec.utf8 ++ s.text ++ Spec.asciiDigits ds ++ rest)
      = cs ++ (signRunes s ++ (ds.map (48 + ·) ++ runes rest)) := by
  have key : ∀ {l : Bytes}, (∀ b ∈ l, b < 128) → ∀ t, runes (l ++ t) = l.map UInt8.toNat ++ runes t := by
    intro l hl t
    conv_lhs => rw [← flatMap_byte hl]
    exact runes_flatMap (by
      intro c hc
      obtain ⟨b, hb, rfl⟩ := List.mem_map.mp hc
      exact scalar_byte (hl b hb)) t
  rw [List.append_assoc, List.append_assoc, runes_flatMap fun c h => white_scalar (hc c h), key (sign_ascii s),
    key (asciiDigits_ascii hd), asciiDigits_toNat hd]
  rfl

/-- and back -/
theorem text_runes {text : Bytes} {cs : List Nat} (hc : ∀ c ∈ cs, whiteRune c) {s : Spec.Sign} {ds : List Nat}
    (hd : ∀ d ∈ ds, d < 10) {r : List Nat} (h : runes text = cs ++ (signRunes s ++ (ds.map (48 + ·) ++ r))) :
    ∃ ws rest, text = ws ++ s.text ++ Spec.asciiDigits ds ++ rest ∧ r = runes rest ∧ Spec.Blank ws := by
  obtain ⟨t, _, rfl, h2⟩ := runes_append h fun c h => white_ne ((white_iff c).mpr (hc c h))
  have hsm : ∀ {l : Bytes} {t' : Bytes} {q : List Nat}, (∀ b ∈ l, b < 128) → runes t' = l.map UInt8.toNat ++ q →
      ∃ t, t' = l ++ t ∧ runes t = q := by
    intro l t' q hl hq
    obtain ⟨t, _, e, h3⟩ := runes_append hq (by
      intro c hc
      obtain ⟨b, hb, rfl⟩ := List.mem_map.mp hc
      have := hl b hb
      rw [UInt8.lt_iff_toNat_lt] at this
      have h128 : (128 : UInt8).toNat = 128 := rfl
      unfold runeError
      omega)
    exact ⟨t, by rw [e, flatMap_byte hl], h3⟩
  obtain ⟨t2, rfl, h3⟩ := hsm (sign_ascii s) h2
  rw [← asciiDigits_toNat hd] at h3
  obtain ⟨t3, rfl, h4⟩ := hsm (asciiDigits_ascii hd) h3
  exact ⟨_, t3, by simp, h4.symm, cs, rfl, fun c h => (white_iff c).mpr (hc c h)⟩

theorem scanD_iff {text : Bytes} {n : Int} {r : List Nat} :
    scanD (runes text) = some (n, r) ↔ ∃ rest, r = runes rest ∧ Spec.Number text n rest := by
  constructor
  · intro h
    unfold scanD at h
    simp only [Option.bind_eq_bind, Option.bind_eq_some_iff] at h
    obtain ⟨l, h1, h2⟩ := h
    obtain ⟨cs, h3, h4, h5⟩ := skipSpace_some h1
    obtain ⟨s, ds, rfl, h6, h7, h8, h9, h10, h11⟩ := scanInt_text_some h5 h2
    obtain ⟨ws, rest, rfl, rfl, h12⟩ := text_runes h4 h7 h3
    exact ⟨rest, rfl, ws, s, ds, rfl, h12, h6, h7, nondigit_runes.mp h8, h9, h10, h11⟩
  · rintro ⟨rest, rfl, ws, s, ds, rfl, ⟨cs, rfl, h4⟩, h6, h7, h8, rfl, h10, h11⟩
    unfold scanD
    rw [runes_text h4 s h7, skipSpace_white fun c h => (white_iff c).mp (h4 c h), skipSpace_stop (number_head s h6 h7 _)]
    exact scanInt_number s h6 h7 _ (nondigit_runes.mpr h8) h10 h11

theorem sscanfD_iff {text : Bytes} {n : Int} : sscanfD text = some n ↔ Spec.ReadsInt text n := by
  unfold sscanfD Spec.ReadsInt
  simp only [Option.map_eq_some_iff, Prod.exists, exists_and_right, exists_eq_right]
  constructor
  · rintro ⟨r, h⟩
    obtain ⟨rest, _, h⟩ := scanD_iff.mp h
    exact ⟨rest, h⟩
  · rintro ⟨rest, h⟩
    exact ⟨_, scanD_iff.mpr ⟨rest, rfl, h⟩⟩

theorem runes_x (mid : Bytes) : runes (120 :: mid) = 120 :: runes mid :=
  runes_utf8 (cp := 120) (Or.inl (by decide)) mid

theorem sscanfDxD_iff {text : Bytes} {a b : Int} :
    sscanfDxD text = (some a, some b) ↔ Spec.ReadsGrid text a b := by
  unfold sscanfDxD
  constructor
  · intro h
    split at h
    · simp at h
    · rename_i x rest hx
      obtain ⟨rest', rfl, h1⟩ := scanD_iff.mp hx
      split at h
      · rename_i tl heq
        simp only [Prod.mk.injEq, Option.some.injEq, Option.map_eq_some_iff] at h
        obtain ⟨rfl, ⟨y, r⟩, h2, rfl⟩ := h
        obtain ⟨mid, _, rfl, rfl⟩ := runes_cons heq (by decide)
        obtain ⟨rest2, rfl, h3⟩ := scanD_iff.mp h2
        exact ⟨mid, rest2, h1, h3⟩
      · simp at h
  · rintro ⟨mid, rest, h1, h2⟩
    rw [scanD_iff.mpr ⟨_, rfl, h1⟩]
    simp only [runes_x]
    rw [scanD_iff.mpr ⟨_, rfl, h2⟩]
    rfl

theorem signRunes_length (s : Spec.Sign) : (signRunes s).length = s.text.length := by
  unfold signRunes; simp

theorem scanDw_iff {text : Bytes} {n : Int} {r : List Nat} :
    scanDw 3 (runes text) = some (n, r) ↔ ∃ rest, r = runes rest ∧ Spec.Number3 text n rest := by
  constructor
  · intro h
    unfold scanDw at h
    simp only [Option.bind_eq_bind, Option.bind_eq_some_iff, Prod.exists, Option.some.injEq, Prod.mk.injEq] at h
    obtain ⟨t, h1, v, r', h2, rfl, rfl⟩ := h
    obtain ⟨cs, h3, h4, h5⟩ := skipSpace_some h1
    have h5' : ∀ r ∈ (t.take 3).head?, r ≠ 10 ∧ isSpace r = false := by
      intro r hr
      apply h5 r
      cases t with
      | nil => simp at hr
      | cons x t => simpa using hr
    obtain ⟨s, ds, e1, h6, h7, h8, h9, h10, h11⟩ := scanInt_text_some h5' h2
    have hlen := congrArg List.length e1
    simp only [List.length_take, List.length_append, List.length_map, signRunes_length] at hlen
    have ht : t = signRunes s ++ (ds.map (48 + ·) ++ (r' ++ t.drop 3)) := by
      conv_lhs => rw [← List.take_append_drop 3 t, e1]
      simp
    rw [ht] at h3
    obtain ⟨ws, rest, rfl, e2, h12⟩ := text_runes h4 h7 h3
    refine ⟨rest, e2, ws, s, ds, rfl, h12, h6, h7, ?_, ?_, h9⟩
    · simp only [List.length_append, Spec.asciiDigits, List.length_map]; omega
    · simp only [List.length_append, Spec.asciiDigits, List.length_map]
      by_cases h3 : 3 ≤ t.length
      · cases r' with
        | nil => left; simp at hlen; omega
        | cons x rest => right; rw [← nondigit_runes, ← e2]; intro b hb; exact h8 b (by simpa using hb)
      · right
        rw [List.drop_eq_nil_of_le (by omega), List.append_nil] at e2
        rw [← nondigit_runes, ← e2]
        exact h8
  · rintro ⟨rest, rfl, ws, s, ds, rfl, ⟨cs, rfl, h4⟩, h6, h7, h8, h9, rfl⟩
    unfold scanDw
    have h8' : (signRunes s ++ ds.map (48 + ·)).length ≤ 3 := by
      simp only [List.length_append, Spec.asciiDigits, List.length_map, signRunes_length] at h8 ⊢; omega
    have hdig : ds.length ≤ 3 := by
      simp only [List.length_append, Spec.asciiDigits, List.length_map] at h8; omega
    have hbig : Spec.decimal ds < 1000 := by
      have hlt : ∀ ds : List Nat, (∀ d ∈ ds, d < 10) → Spec.decimal ds < 10 ^ ds.length := by
        intro ds
        induction ds with
        | nil => intro _; simp [Spec.decimal]
        | cons d ds ih =>
          intro h
          have := ih fun x hx => h x (by simp [hx])
          have hd := h d (by simp)
          simp only [Spec.decimal, List.length_cons, pow_succ]
          nlinarith [Nat.pos_of_ne_zero (show (10 : Nat) ^ ds.length ≠ 0 by positivity)]
      exact lt_of_lt_of_le (hlt ds h7) (le_trans (Nat.pow_le_pow_right (by decide) hdig) (by norm_num))
    have hrange : -(2 ^ 63) ≤ s.apply (Spec.decimal ds) ∧ s.apply (Spec.decimal ds) < 2 ^ 63 := by
      cases s <;> simp only [Spec.Sign.apply] <;> omega
    rw [runes_text h4 s h7, skipSpace_white fun c h => (white_iff c).mp (h4 c h), skipSpace_stop (number_head s h6 h7 _)]
    simp only [Option.bind_eq_bind, Option.bind_some]
    have htake : (signRunes s ++ (ds.map (48 + ·) ++ runes rest)).take 3 =
        signRunes s ++ (ds.map (48 + ·) ++ (runes rest).take (3 - (signRunes s ++ ds.map (48 + ·)).length)) := by
      rw [← List.append_assoc, List.take_append, List.take_of_length_le h8', List.append_assoc]
    rw [htake, scanInt_number s h6 h7 _ ?_ hrange.1 hrange.2]
    · simp only [Option.bind_some]
      have hdrop : (signRunes s ++ (ds.map (48 + ·) ++ runes rest)).drop 3 =
          (runes rest).drop (3 - (signRunes s ++ ds.map (48 + ·)).length) := by
        rw [← List.append_assoc, List.drop_append, List.drop_eq_nil_of_le h8', List.nil_append]
      rw [hdrop, List.take_append_drop]
    · have hl : (signRunes s ++ ds.map (48 + ·)).length = (s.text ++ Spec.asciiDigits ds).length := by
        simp only [List.length_append, Spec.asciiDigits, List.length_map, signRunes_length]
      rw [hl]
      rcases h9 with h9 | h9
      · rw [h9]; simp
      · intro b hb
        apply nondigit_runes.mpr h9 b
        generalize runes rest = q at hb ⊢
        cases q with
        | nil => simp at hb
        | cons x q =>
          rcases hk : 3 - (s.text ++ Spec.asciiDigits ds).length with _ | k
          · rw [hk] at hb; simp at hb
          · rw [hk] at hb; simpa using hb

theorem sscanf3D3D_iff {text : Bytes} {a b : Int} :
    sscanf3D3D text = (some a, some b) ↔ Spec.ReadsGrid3 text a b := by
  unfold sscanf3D3D
  constructor
  · intro h
    split at h
    · simp at h
    · rename_i x rest hx
      obtain ⟨rest', rfl, h1⟩ := scanDw_iff.mp hx
      simp only [Prod.mk.injEq, Option.some.injEq, Option.map_eq_some_iff] at h
      obtain ⟨rfl, ⟨y, r⟩, h2, rfl⟩ := h
      obtain ⟨rest2, rfl, h3⟩ := scanDw_iff.mp h2
      exact ⟨rest', rest2, h1, h3⟩
  · rintro ⟨mid, rest, h1, h2⟩
    rw [scanDw_iff.mpr ⟨_, rfl, h1⟩]
    simp only
    rw [scanDw_iff.mpr ⟨_, rfl, h2⟩]
    rfl

end Radolan
