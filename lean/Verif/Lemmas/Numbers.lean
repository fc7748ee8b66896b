/- fmt.Sscanf on texts that are numbers. -/
import Verif.Lemmas.Scan
import Verif.Lemmas.Monad
import Verif.Spec.Header

namespace Radolan
open Go

theorem foldl_decimal (ds : List Nat) (a : Nat) :
    (ds.map (48 + ·)).foldl (fun a d => 10 * a + (d - 48)) a = a * 10 ^ ds.length + Spec.decimal ds := by
  induction ds generalizing a with
  | nil => simp [Spec.decimal]
  | cons d ds ih =>
    simp only [List.map_cons, List.foldl_cons, List.length_cons, Spec.decimal]
    rw [ih, show 48 + d - 48 = d by omega, Nat.pow_succ]
    ring

theorem digitsVal_decimal (ds : List Nat) : digitsVal (ds.map (48 + ·)) = Spec.decimal ds := by
  unfold digitsVal; rw [foldl_decimal]; simp

theorem skipSpace_blanks (n : Nat) (l : List Nat) : skipSpace (List.replicate n 32 ++ l) = skipSpace l := by
  induction n with
  | zero => simp
  | succ n ih =>
    rw [List.replicate_succ, List.cons_append]
    rw [skipSpace, if_neg (by decide), if_pos (by decide), ih]

/-- sign, as runes -/
def signRunes (s : Spec.Sign) : List Nat := s.text.map UInt8.toNat

theorem isDigit_code {d : Nat} (h : d < 10) : isDigit (48 + d) = true := by
  unfold isDigit; simp; omega

theorem skipSpace_id {r : Nat} {l : List Nat} (h : 33 ≤ r ∧ r < 128) : skipSpace (r :: l) = some (r :: l) := by
  unfold skipSpace
  rw [if_neg (by omega), if_neg]
  unfold isSpace
  simp; omega

theorem head_number (s : Spec.Sign) {ds : List Nat} (hne : ds ≠ []) (hd : ∀ d ∈ ds, d < 10) (rest : List Nat) :
    ∃ r l, signRunes s ++ (ds.map (48 + ·) ++ rest) = r :: l ∧ 33 ≤ r ∧ r < 128 := by
  cases ds with
  | nil => exact absurd rfl hne
  | cons d ds =>
    have := hd d (by simp)
    cases s
    · exact ⟨48 + d, _, rfl, by omega, by omega⟩
    · exact ⟨_, _, rfl, by decide, by decide⟩
    · exact ⟨_, _, rfl, by decide, by decide⟩

theorem takeWhile_digits {ds : List Nat} (hd : ∀ d ∈ ds, d < 10) {rest : List Nat}
    (hr : ∀ r ∈ rest.head?, isDigit r = false) :
    (ds.map (48 + ·) ++ rest).takeWhile isDigit = ds.map (48 + ·) ∧
    (ds.map (48 + ·) ++ rest).dropWhile isDigit = rest := by
  induction ds with
  | nil =>
    cases rest with
    | nil => simp
    | cons r rest =>
      have := hr r (by simp)
      simp [this]
  | cons d ds ih =>
    have h1 := isDigit_code (hd d (by simp))
    have := ih (fun x hx => hd x (by simp [hx]))
    simp only [List.map_cons, List.cons_append, List.takeWhile_cons, List.dropWhile_cons, h1, if_true, this.1, this.2]
    exact ⟨trivial, trivial⟩

theorem signSplit_number (s : Spec.Sign) {ds : List Nat} (hne : ds ≠ []) (hd : ∀ d ∈ ds, d < 10) (rest : List Nat) :
    signSplit (signRunes s ++ (ds.map (48 + ·) ++ rest)) = (decide (s = .minus), ds.map (48 + ·) ++ rest) := by
  cases ds with
  | nil => exact absurd rfl hne
  | cons d ds =>
    have h := hd d (by simp)
    cases s
    · simp only [signRunes, Spec.Sign.text, List.map_nil, List.nil_append, List.map_cons, List.cons_append]
      unfold signSplit
      split
      · rename_i heq; simp only [List.cons.injEq] at heq; omega
      · rename_i heq; simp only [List.cons.injEq] at heq; omega
      · simp
    · rfl
    · rfl

/-- scanInt on sign and digits -/
theorem scanInt_number (s : Spec.Sign) {ds : List Nat} (hne : ds ≠ []) (hd : ∀ d ∈ ds, d < 10) (rest : List Nat)
    (hr : ∀ r ∈ rest.head?, isDigit r = false)
    (h1 : -(2 ^ 63) ≤ s.apply (Spec.decimal ds)) (h2 : s.apply (Spec.decimal ds) < 2 ^ 63) :
    scanInt (signRunes s ++ (ds.map (48 + ·) ++ rest)) = some (s.apply (Spec.decimal ds), rest) := by
  obtain ⟨r, l, he, hr1, hr2⟩ := head_number s hne hd rest
  unfold scanInt
  have hsk : skipSpace (signRunes s ++ (ds.map (48 + ·) ++ rest)) = some (signRunes s ++ (ds.map (48 + ·) ++ rest)) := by
    rw [he]; exact skipSpace_id ⟨hr1, hr2⟩
  rw [hsk]
  simp only [Option.bind_eq_bind, Option.bind_some]
  rw [signSplit_number s hne hd rest]
  simp only
  rw [(takeWhile_digits hd hr).1, (takeWhile_digits hd hr).2, digitsVal_decimal]
  rw [if_neg (by simpa using hne)]
  have hv : (if decide (s = Spec.Sign.minus) = true then -(Spec.decimal ds : Int) else (Spec.decimal ds : Int))
      = s.apply (Spec.decimal ds) := by cases s <;> simp [Spec.Sign.apply]
  rw [hv, if_pos ⟨h1, h2⟩]

/-- one `%d` on blanks, sign and digits -/
theorem scanD_number (b : Nat) (s : Spec.Sign) {ds : List Nat} (hne : ds ≠ []) (hd : ∀ d ∈ ds, d < 10)
    (rest : List Nat) (hr : ∀ r ∈ rest.head?, isDigit r = false)
    (h1 : -(2 ^ 63) ≤ s.apply (Spec.decimal ds)) (h2 : s.apply (Spec.decimal ds) < 2 ^ 63) :
    scanD (List.replicate b 32 ++ (signRunes s ++ (ds.map (48 + ·) ++ rest)))
      = some (s.apply (Spec.decimal ds), rest) := by
  obtain ⟨r, l, he, hr1, hr2⟩ := head_number s hne hd rest
  unfold scanD
  rw [skipSpace_blanks]
  have hsk : skipSpace (signRunes s ++ (ds.map (48 + ·) ++ rest)) = some (signRunes s ++ (ds.map (48 + ·) ++ rest)) := by
    rw [he]; exact skipSpace_id ⟨hr1, hr2⟩
  rw [hsk]
  simp only [Option.bind_eq_bind, Option.bind_some]
  exact scanInt_number s hne hd rest hr h1 h2

theorem digit_toNat {d : Nat} (h : d < 10) : (UInt8.ofNat (48 + d)).toNat = 48 + d := by
  simp; omega

theorem asciiDigits_toNat {ds : List Nat} (hd : ∀ d ∈ ds, d < 10) :
    (Spec.asciiDigits ds).map UInt8.toNat = ds.map (48 + ·) := by
  unfold Spec.asciiDigits
  rw [List.map_map]
  apply List.map_congr_left
  intro d h
  exact digit_toNat (hd d h)

theorem asciiDigits_ascii {ds : List Nat} (hd : ∀ d ∈ ds, d < 10) : ∀ b ∈ Spec.asciiDigits ds, b < 128 := by
  intro b hb
  unfold Spec.asciiDigits at hb
  rw [List.mem_map] at hb
  obtain ⟨d, h, rfl⟩ := hb
  rw [UInt8.lt_iff_toNat_lt, digit_toNat (hd d h)]
  have := hd d h
  show 48 + d < 128
  omega

theorem blanks_toNat (n : Nat) : (List.replicate n (32 : UInt8)).map UInt8.toNat = List.replicate n 32 := by
  simp

theorem sign_ascii (s : Spec.Sign) : ∀ b ∈ s.text, b < 128 := by cases s <;> decide

theorem nondigit_head {rest : Bytes} (h : ∀ b ∈ rest.head?, ¬ (48 ≤ b ∧ b ≤ 57)) :
    ∀ r ∈ (rest.map UInt8.toNat).head?, isDigit r = false := by
  cases rest with
  | nil => simp
  | cons b rest =>
    intro r hr
    simp only [List.map_cons, List.head?_cons, Option.mem_def, Option.some.injEq] at hr
    subst hr
    have := h b (by simp)
    rw [UInt8.le_iff_toNat_le, UInt8.le_iff_toNat_le] at this
    unfold isDigit
    have e1 : (48 : UInt8).toNat = 48 := rfl
    have e2 : (57 : UInt8).toNat = 57 := rfl
    rw [e1, e2] at this
    simp; omega

/-- the runes of a number text -/
theorem runes_number (b : Nat) (s : Spec.Sign) {ds : List Nat} (hd : ∀ d ∈ ds, d < 10) {rest : Bytes}
    (hr : ∀ b ∈ rest, b < 128) :
    runes (List.replicate b 32 ++ s.text ++ Spec.asciiDigits ds ++ rest)
      = List.replicate b 32 ++ (signRunes s ++ (ds.map (48 + ·) ++ rest.map UInt8.toNat)) := by
  rw [runes_ascii]
  · simp [asciiDigits_toNat hd, signRunes, List.append_assoc]
  · intro x hx
    simp only [List.mem_append] at hx
    rcases hx with ((hx | hx) | hx) | hx
    · rw [List.mem_replicate] at hx; rw [hx.2]; decide
    · exact sign_ascii s x hx
    · exact asciiDigits_ascii hd x hx
    · exact hr x hx

theorem sscanfD_isInt {text : Bytes} {n : Int} (h : Spec.IsInt text n) : sscanfD text = some n := by
  obtain ⟨b, s, ds, rest, rfl, hne, hd, hr, hr2, hn, h1, h2⟩ := h
  unfold sscanfD
  rw [runes_number b s hd hr, scanD_number b s hne hd _ (nondigit_head hr2) (hn ▸ h1) (hn ▸ h2), ← hn]
  rfl

end Radolan
