/- Lemmas about runes and Sscanf. -/
import Verif.Lemmas.Monad

namespace Radolan
open Go

theorem runesFrom_bounds {i k : Nat} {l : Bytes} {p : Nat × Nat} (h : p ∈ runesFrom i k l) :
    i ≤ p.1 ∧ p.1 < i + l.length := by
  induction l generalizing i k with
  | nil => simp [runesFrom] at h
  | cons b rest ih =>
    unfold runesFrom at h
    split at h
    · rcases List.mem_cons.mp h with h | h
      · subst h; simp
      · have := ih h; simp; omega
    · have := ih h; simp; omega

theorem runesFrom_sorted (i k : Nat) (l : Bytes) :
    (runesFrom i k l).Pairwise (fun p q => p.1 < q.1) := by
  induction l generalizing i k with
  | nil => simp [runesFrom]
  | cons b rest ih =>
    unfold runesFrom
    split
    · rw [List.pairwise_cons]
      refine ⟨fun q hq => ?_, ih _ _⟩
      have := (runesFrom_bounds hq).1
      simp; omega
    · exact ih _ _

theorem runesFrom_length (i k : Nat) (l : Bytes) : (runesFrom i k l).length ≤ l.length := by
  induction l generalizing i k with
  | nil => simp [runesFrom]
  | cons b rest ih =>
    unfold runesFrom
    split
    · simp; exact ih _ _
    · have := ih (i + 1) (k - 1); simp; omega

theorem runes_length (l : Bytes) : (runes l).length ≤ l.length := by
  unfold runes; rw [List.length_map]; exact runesFrom_length _ _ _

theorem decodeRune_ascii {b : UInt8} (h : b < 128) (rest : Bytes) :
    decodeRune b rest = (b.toNat, 1) := by
  unfold decodeRune; rw [if_pos h]

theorem runesFrom_ascii_cons {b : UInt8} (h : b < 128) (i : Nat) (rest : Bytes) :
    runesFrom i 0 (b :: rest) = (i, b.toNat) :: runesFrom (i + 1) 0 rest := by
  conv_lhs => unfold runesFrom
  simp [decodeRune_ascii h]

theorem runesFrom_ascii {l : Bytes} (h : ∀ b ∈ l, b < 128) (i : Nat) :
    (runesFrom i 0 l).map Prod.snd = l.map UInt8.toNat := by
  induction l generalizing i with
  | nil => simp [runesFrom]
  | cons b rest ih =>
    rw [runesFrom_ascii_cons (h b (by simp))]
    simp [ih (fun x hx => h x (by simp [hx]))]

theorem runes_ascii {l : Bytes} (h : ∀ b ∈ l, b < 128) : runes l = l.map UInt8.toNat :=
  runesFrom_ascii h 0

/-! ### digit strings -/

theorem digitsVal_append (l : List Nat) (d : Nat) :
    digitsVal (l ++ [d]) = 10 * digitsVal l + (d - 48) := by
  simp [digitsVal, List.foldl_append]

theorem foldl_digits_lt {l : List Nat} (h : ∀ d ∈ l, isDigit d = true) (a : Nat) :
    l.foldl (fun a d => 10 * a + (d - 48)) a < (a + 1) * 10 ^ l.length := by
  induction l generalizing a with
  | nil => simp
  | cons d ds ih =>
    have hd : isDigit d = true := h d (by simp)
    have := ih (fun x hx => h x (by simp [hx])) (10 * a + (d - 48))
    simp only [List.foldl_cons, List.length_cons, pow_succ]
    refine lt_of_lt_of_le this ?_
    have hle : 10 * a + (d - 48) + 1 ≤ (a + 1) * 10 := by
      simp [isDigit] at hd; omega
    calc _ ≤ ((a + 1) * 10) * 10 ^ ds.length := Nat.mul_le_mul_right _ hle
      _ = _ := by ring

theorem digitsVal_lt {l : List Nat} (h : ∀ d ∈ l, isDigit d = true) :
    digitsVal l < 10 ^ l.length := by
  simpa [digitsVal] using foldl_digits_lt h 0

theorem mem_takeWhile_digit {l : List Nat} : ∀ d ∈ l.takeWhile isDigit, isDigit d = true := by
  induction l with
  | nil => simp
  | cons a t ih =>
    intro d hd
    rw [List.takeWhile_cons] at hd
    split at hd
    · rcases List.mem_cons.mp hd with h | h
      · subst h; assumption
      · exact ih d h
    · simp at hd

theorem signSplit_length (l : List Nat) : (signSplit l).2.length ≤ l.length := by
  unfold signSplit; split <;> simp

theorem skipSpace_length {l r : List Nat} (h : skipSpace l = some r) : r.length ≤ l.length := by
  induction l with
  | nil => simp [skipSpace] at h; simp [← h]
  | cons a t ih =>
    unfold skipSpace at h
    split at h
    · simp at h
    · split at h
      · have := ih h; simp; omega
      · simp at h; simp [← h]

/-- what a successful `scanInt` means -/
theorem scanInt_some {l r : List Nat} {v : Int} (h : scanInt l = some (v, r)) :
    ∃ l', skipSpace l = some l' ∧ (signSplit l').2.takeWhile isDigit ≠ [] ∧
      v = (if (signSplit l').1 then -(digitsVal ((signSplit l').2.takeWhile isDigit) : Int)
            else (digitsVal ((signSplit l').2.takeWhile isDigit) : Int)) ∧
      (-(2 ^ 63) ≤ v ∧ v < 2 ^ 63) ∧ r = (signSplit l').2.dropWhile isDigit := by
  unfold scanInt at h
  simp only [Option.bind_eq_bind, Option.bind_eq_some_iff] at h
  obtain ⟨l', hl, h⟩ := h
  refine ⟨l', hl, ?_⟩
  generalize hv : (if (signSplit l').1 then -(digitsVal ((signSplit l').2.takeWhile isDigit) : Int)
            else (digitsVal ((signSplit l').2.takeWhile isDigit) : Int)) = w at h ⊢
  by_cases hds : (signSplit l').2.takeWhile isDigit = []
  · rw [if_pos hds] at h; simp at h
  · rw [if_neg hds] at h
    by_cases hr : -(2 ^ 63) ≤ w ∧ w < 2 ^ 63
    · rw [if_pos hr] at h
      simp only [Option.some.injEq, Prod.mk.injEq] at h
      obtain ⟨rfl, rfl⟩ := h
      exact ⟨hds, rfl, hr, rfl⟩
    · rw [if_neg hr] at h; simp at h

theorem scanInt_range {l r : List Nat} {v : Int} (h : scanInt l = some (v, r)) :
    -(2 ^ 63) ≤ v ∧ v < 2 ^ 63 := by
  obtain ⟨_, _, _, _, h, _⟩ := scanInt_some h
  exact h

/-- an integer scanned from at most `n` runes is below `10^n` in magnitude -/
theorem scanInt_abs {l r : List Nat} {v : Int} (h : scanInt l = some (v, r)) :
    -(10 ^ l.length : Int) < v ∧ v < 10 ^ l.length := by
  obtain ⟨l', hs, _, hv, _, _⟩ := scanInt_some h
  have htl : (signSplit l').2.length ≤ l.length := by
    have h1 := skipSpace_length hs
    have h2 := signSplit_length l'
    omega
  generalize (signSplit l').2 = t at hv htl
  have hd := digitsVal_lt (l := t.takeWhile isDigit) mem_takeWhile_digit
  have hlen : (t.takeWhile isDigit).length ≤ l.length := by
    have : (t.takeWhile isDigit).length ≤ t.length := (List.takeWhile_sublist _).length_le
    omega
  have hp : (10 : Nat) ^ (t.takeWhile isDigit).length ≤ 10 ^ l.length :=
    Nat.pow_le_pow_right (by norm_num) hlen
  have hd' : (digitsVal (t.takeWhile isDigit) : Int) < 10 ^ l.length := by
    exact_mod_cast lt_of_lt_of_le hd hp
  rw [hv]
  split <;> constructor <;> omega

theorem sscanfD_range {s : Bytes} {v : Int} (h : sscanfD s = some v) :
    -(2 ^ 63) ≤ v ∧ v < 2 ^ 63 := by
  unfold sscanfD scanD at h
  simp only [Option.map_eq_some_iff, Option.bind_eq_bind, Option.bind_eq_some_iff, Prod.exists,
    exists_and_right, exists_eq_right] at h
  obtain ⟨r, l, _, h⟩ := h
  exact scanInt_range h

theorem sscanfD_abs {s : Bytes} {v : Int} (h : sscanfD s = some v) :
    -(10 ^ s.length : Int) < v ∧ v < 10 ^ s.length := by
  unfold sscanfD scanD at h
  simp only [Option.map_eq_some_iff, Option.bind_eq_bind, Option.bind_eq_some_iff, Prod.exists,
    exists_and_right, exists_eq_right] at h
  obtain ⟨r, l, hs, h⟩ := h
  have h1 := scanInt_abs h
  have h2 := skipSpace_length hs
  have h3 := runes_length s
  have : (10 : Int) ^ l.length ≤ 10 ^ s.length := pow_le_pow_right₀ (by norm_num) (by omega)
  omega

theorem scanDw_range {w : Nat} {l r : List Nat} {v : Int} (h : scanDw w l = some (v, r)) :
    -(2 ^ 63) ≤ v ∧ v < 2 ^ 63 := by
  unfold scanDw at h
  simp only [Option.bind_eq_bind, Option.bind_eq_some_iff] at h
  obtain ⟨l', _, ⟨v', r'⟩, h1, h2⟩ := h
  simp at h2
  rw [← h2.1]; exact scanInt_range h1

theorem scanD_range {l r : List Nat} {v : Int} (h : scanD l = some (v, r)) :
    -(2 ^ 63) ≤ v ∧ v < 2 ^ 63 := by
  unfold scanD at h
  simp only [Option.bind_eq_bind, Option.bind_eq_some_iff] at h
  obtain ⟨l', _, h⟩ := h
  exact scanInt_range h

theorem sscanfDxD_range {s : Bytes} {a b : Int} (h : sscanfDxD s = (some a, some b)) :
    (-(2 ^ 63) ≤ a ∧ a < 2 ^ 63) ∧ (-(2 ^ 63) ≤ b ∧ b < 2 ^ 63) := by
  unfold sscanfDxD at h
  cases h1 : scanD (runes s) with
  | none => rw [h1] at h; simp at h
  | some p =>
    obtain ⟨a', r⟩ := p
    rw [h1] at h
    simp only at h
    split at h
    · rename_i rest
      simp only [Prod.mk.injEq, Option.some.injEq, Option.map_eq_some_iff] at h
      obtain ⟨h2, ⟨b', r'⟩, h3, h4⟩ := h
      subst h2; simp at h4; subst h4
      exact ⟨scanD_range h1, scanD_range h3⟩
    · simp at h

theorem sscanf3D3D_range {s : Bytes} {a b : Int} (h : sscanf3D3D s = (some a, some b)) :
    (-(2 ^ 63) ≤ a ∧ a < 2 ^ 63) ∧ (-(2 ^ 63) ≤ b ∧ b < 2 ^ 63) := by
  unfold sscanf3D3D at h
  cases h1 : scanDw 3 (runes s) with
  | none => rw [h1] at h; simp at h
  | some p =>
    obtain ⟨a', r⟩ := p
    rw [h1] at h
    simp only [Prod.mk.injEq, Option.some.injEq, Option.map_eq_some_iff] at h
    obtain ⟨h2, ⟨b', r'⟩, h3, h4⟩ := h
    subst h2; simp at h4; subst h4
    exact ⟨scanDw_range h1, scanDw_range h3⟩

/-- second value present implies the first one is -/
theorem sscanfDxD_fst {s : Bytes} {b : Int} (h : (sscanfDxD s).2 = some b) :
    ∃ a, (sscanfDxD s).1 = some a := by
  unfold sscanfDxD at h ⊢
  split at h
  · simp at h
  · split at h
    · exact ⟨_, rfl⟩
    · simp at h

theorem sscanf3D3D_fst {s : Bytes} {b : Int} (h : (sscanf3D3D s).2 = some b) :
    ∃ a, (sscanf3D3D s).1 = some a := by
  unfold sscanf3D3D at h ⊢
  split at h
  · simp at h
  · exact ⟨_, rfl⟩

end Radolan
