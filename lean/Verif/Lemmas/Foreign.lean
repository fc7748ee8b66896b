/- splitHeader on headers with text that is not ASCII. -/
import Verif.Lemmas.Utf8

namespace Radolan
open Go
open _root_.Spec (utf8 scalar Calm knownKeys)

/-- bytes beyond ASCII at the beginning of text that ends with ASCII lie within it -/
theorem prefix_within {t w rest : Bytes} (h : t <+: w ++ rest) (ht : ∀ x ∈ t, 128 ≤ x)
    (hl : ∀ b ∈ w.getLast?, b < 128) (hw : w ≠ []) : t <+: w := by
  rcases Nat.le_total t.length w.length with hlen | hlen
  · exact List.prefix_of_prefix_length_le h (List.prefix_append w rest) hlen
  · have : w <+: t := List.prefix_of_prefix_length_le (List.prefix_append w rest) h hlen
    have h1 := hl (w.getLast hw) (by rw [List.getLast?_eq_some_getLast hw]; rfl)
    have h2 := ht (w.getLast hw) (this.subset (List.getLast_mem hw))
    rw [lt8] at h1; rw [le8] at h2
    omega

theorem getLast_tail {b : UInt8} {w : Bytes} (h : ∀ x ∈ (b :: w).getLast?, x < 128) : ∀ x ∈ w.getLast?, x < 128 := by
  intro x hx
  apply h x
  cases w with
  | nil => simp at hx
  | cons c w => rw [List.getLast?_cons_cons]; exact hx

theorem ne_nil_of_high {b : UInt8} {w : Bytes} (h : ∀ x ∈ (b :: w).getLast?, x < 128) (hb : 128 ≤ b) : w ≠ [] := by
  rintro rfl
  have := h b (by simp)
  rw [lt8] at this; rw [le8] at hb; omega

/-- the runes of text that ends with ASCII: each rune begins with an ASCII byte and has this byte, or it begins with a
byte beyond ASCII and all its bytes are beyond ASCII -/
theorem decode_within {b : UInt8} (hb : 128 ≤ b) {w rest : Bytes} (hl : ∀ x ∈ (b :: w).getLast?, x < 128) :
    (decodeRune b (w ++ rest)).2 - 1 ≤ w.length ∧ ∀ x ∈ w.take ((decodeRune b (w ++ rest)).2 - 1), 128 ≤ x := by
  rcases decode_cases hb (w ++ rest) with ⟨cp, t, _, _, _, h4, h5, h6⟩ | h
  · rw [h6]
    have := prefix_within h4 h5 (getLast_tail hl) (ne_nil_of_high hl hb)
    refine ⟨this.length_le, ?_⟩
    simp only [Nat.add_sub_cancel]
    rw [List.prefix_iff_eq_take.mp this] at h5
    exact h5
  · rw [h]; simp

theorem decode_rune_high {b : UInt8} (hb : 128 ≤ b) (rest : Bytes) : 128 ≤ (decodeRune b rest).1 := by
  rcases decode_cases hb rest with ⟨cp, t, h, _, _, _, _, h6⟩ | h
  · rw [h6]; exact h
  · rw [h]; decide

/-! ### calm values -/

theorem calm_tail (E : Env) (hE : E.isUpperNA runeError = false) (hd : Bytes) (w : Bytes) (rest : Bytes)
    (h1 : ∀ b ∈ w, ¬ _root_.Spec.upper b) (h2 : ∀ cp, 128 ≤ cp → scalar cp → E.isUpperNA cp = true → ¬ utf8 cp <:+: w)
    (h3 : ∀ b ∈ w.getLast?, b < 128) (i k : Nat) (hi : 0 < i) (s : SplitState) (hs : s.dispatch = true)
    (hk : k ≤ w.length) (hk' : ∀ x ∈ w.take k, 128 ≤ x) (he : w = [] → s.endValue = i) :
    splitLoop E hd (runesFrom i k (w ++ rest)) s
      = splitLoop E hd (runesFrom (i + w.length) 0 rest) { s with endValue := i + w.length } := by
  induction w generalizing i k s with
  | nil =>
    have hk0 : k = 0 := by simpa using hk
    subst hk0
    simp only [List.nil_append, List.length_nil, Nat.add_zero, ← he rfl]
  | cons b w ih =>
    have h2' : ∀ cp, 128 ≤ cp → scalar cp → E.isUpperNA cp = true → ¬ utf8 cp <:+: w :=
      fun cp a1 a2 a3 a4 => h2 cp a1 a2 a3 (a4.trans (List.suffix_cons b w).isInfix)
    have elen : i + 1 + w.length = i + (b :: w).length := by simp; omega
    rw [List.cons_append]
    by_cases k0 : k = 0
    · subst k0
      have hr : runesFrom i 0 (b :: (w ++ rest)) = (i, (decodeRune b (w ++ rest)).1) ::
          runesFrom (i + 1) ((decodeRune b (w ++ rest)).2 - 1) (w ++ rest) := rfl
      have hnu : isUpper E (decodeRune b (w ++ rest)).1 = false := by
        by_cases hb : b < 128
        · have : decodeRune b (w ++ rest) = (b.toNat, 1) := by unfold decodeRune; rw [if_pos hb]
          rw [this, isUpper_ascii hb]
          simp [h1 b (by simp)]
        · have hb' : 128 ≤ b := by rw [lt8] at hb; rw [le8]; omega
          rcases decode_cases hb' (w ++ rest) with ⟨cp, t, g1, g2, g3, g4, g5, g6⟩ | g
          · rw [g6]
            simp only [isUpper]
            rw [if_neg (by omega)]
            have : t <+: w := prefix_within g4 g5 (getLast_tail h3) (ne_nil_of_high h3 hb')
            have hin : utf8 cp <:+: b :: w := by
              rw [g3]; exact (List.cons_prefix_cons.mpr ⟨rfl, this⟩).isInfix
            cases hc : E.isUpperNA cp with
            | false => rfl
            | true => exact absurd hin (h2 cp g1 g2 hc)
          · rw [g]; simp only [isUpper]; rw [if_neg (by decide)]; exact hE
      rw [hr]
      conv_lhs => unfold splitLoop
      rw [hnu]
      simp only [Bool.false_eq_true, if_false, hs, Bool.not_true, Nat.ne_of_gt hi]
      have hnext : (decodeRune b (w ++ rest)).2 - 1 ≤ w.length ∧
          ∀ x ∈ w.take ((decodeRune b (w ++ rest)).2 - 1), 128 ≤ x := by
        by_cases hb : b < 128
        · have : decodeRune b (w ++ rest) = (b.toNat, 1) := by unfold decodeRune; rw [if_pos hb]
          rw [this]; simp
        · exact decode_within (by rw [lt8] at hb; rw [le8]; omega) h3
      rw [ih (fun x hx => h1 x (by simp [hx])) h2' (getLast_tail h3) (i + 1) _ (by omega) _ (by simp) hnext.1 hnext.2 (fun _ => rfl),
        elen]
    · have hb : 128 ≤ b := hk' b (by obtain ⟨j, rfl⟩ := Nat.exists_eq_succ_of_ne_zero k0; simp)
      have hr : runesFrom i k (b :: (w ++ rest)) = runesFrom (i + 1) (k - 1) (w ++ rest) := by
        rw [runesFrom, if_neg k0]
      rw [hr]
      rw [ih (fun x hx => h1 x (by simp [hx])) h2' (getLast_tail h3) (i + 1) (k - 1) (by omega) s hs
        (by simp at hk; omega) ?_ (fun e => absurd e (ne_nil_of_high h3 hb)), elen]
      intro x hx
      apply hk' x
      obtain ⟨j, rfl⟩ := Nat.exists_eq_succ_of_ne_zero k0
      simp only [Nat.succ_eq_add_one, Nat.add_sub_cancel] at hx
      simp [hx]

/-- a calm value is taken in one -/
theorem calm_steps (E : Env) (hE : E.isUpperNA runeError = false) {v : Bytes} (hv : v ≠ []) (hc : Calm E.isUpperNA v) :
    SplitSteps E v := by
  intro hd rest i s hi hs
  obtain ⟨h1, h2, h3⟩ := hc
  -- as if the loop had seen a first character before
  have key := calm_tail E hE hd v rest (fun b hb => (h1 b hb).1) h2 h3 i 0 hi
    { s with beginValue := i, dispatch := true, endValue := i } rfl (by simp) (by simp) (fun e => absurd e hv)
  rw [← key]
  cases v with
  | nil => exact absurd rfl hv
  | cons b w =>
    rw [List.cons_append]
    have hr : runesFrom i 0 (b :: (w ++ rest)) = (i, (decodeRune b (w ++ rest)).1) ::
          runesFrom (i + 1) ((decodeRune b (w ++ rest)).2 - 1) (w ++ rest) := rfl
    rw [hr]
    have hnu : isUpper E (decodeRune b (w ++ rest)).1 = false := by
      by_cases hb : b < 128
      · have : decodeRune b (w ++ rest) = (b.toNat, 1) := by unfold decodeRune; rw [if_pos hb]
        rw [this, isUpper_ascii hb]
        simp [(h1 b (by simp)).1]
      · have hb' : 128 ≤ b := by rw [lt8] at hb; rw [le8]; omega
        rcases decode_cases hb' (w ++ rest) with ⟨cp, t, g1, g2, g3, g4, g5, g6⟩ | g
        · rw [g6]
          simp only [isUpper]
          rw [if_neg (by omega)]
          have : t <+: w := prefix_within g4 g5 (getLast_tail h3) (ne_nil_of_high h3 hb')
          have hin : utf8 cp <:+: b :: w := by
            rw [g3]; exact (List.cons_prefix_cons.mpr ⟨rfl, this⟩).isInfix
          cases hc : E.isUpperNA cp with
          | false => rfl
          | true => exact absurd hin (h2 cp g1 g2 hc)
        · rw [g]; simp only [isUpper]; rw [if_neg (by decide)]; exact hE
    conv_lhs => unfold splitLoop
    conv_rhs => unfold splitLoop
    rw [hnu]
    simp only [Bool.false_eq_true, if_false, hs, Bool.not_true, Bool.not_false, if_true, Nat.ne_of_gt hi]

/-! ### any text -/

/-- the pending field and the stored ones -/
def SplitState.all (hd : Bytes) (s : SplitState) : Section :=
  ((hd.take s.endKey).drop s.beginKey, (hd.take s.endValue).drop s.beginValue) :: s.m

/-- key `k0` or a key with a byte beyond ASCII -/
def Odd8 (k0 x : Bytes) : Prop := x = k0 ∨ ∃ b ∈ x, 128 ≤ b

structure TextInv (hd k0 : Bytes) (m0 : Section) (i : Nat) (s : SplitState) : Prop where
  key : s.beginKey < s.endKey
  bound : s.endKey ≤ i
  val : s.dispatch = true → s.beginValue ≤ s.endValue ∧ s.endValue ≤ i
  odd : Odd8 k0 ((hd.take s.endKey).drop s.beginKey)
  m : ∃ X, s.m = X ++ m0 ∧ ∀ p ∈ X, Odd8 k0 p.1

theorem text_loop (E : Env) (hd k0 : Bytes) (m0 : Section) (w : Bytes) (rest pre : Bytes) (hh : hd = pre ++ (w ++ rest))
    (h1 : ∀ b ∈ w, ¬ _root_.Spec.upper b) (h3 : ∀ b ∈ w.getLast?, b < 128) (k : Nat) (hi : 0 < pre.length)
    (s : SplitState) (hI : TextInv hd k0 m0 pre.length s)
    (hk : k ≤ w.length) (hk' : ∀ x ∈ w.take k, 128 ≤ x) (he : w = [] → s.dispatch = true) :
    ∃ s', splitLoop E hd (runesFrom pre.length k (w ++ rest)) s
        = splitLoop E hd (runesFrom (pre.length + w.length) 0 rest) s' ∧ s'.dispatch = true ∧
      TextInv hd k0 m0 (pre.length + w.length) s' := by
  induction w generalizing pre k s with
  | nil =>
    have hk0 : k = 0 := by simpa using hk
    subst hk0
    exact ⟨s, rfl, he rfl, hI⟩
  | cons b w ih =>
    have elen : pre.length + (b :: w).length = (pre ++ [b]).length + w.length := by simp; omega
    have elen1 : pre.length + 1 = (pre ++ [b]).length := by simp
    have hh' : hd = (pre ++ [b]) ++ (w ++ rest) := by rw [hh]; simp
    have hlen : pre.length + 1 ≤ hd.length := by rw [hh]; simp
    rw [List.cons_append]
    have mono : ∀ {s : SplitState}, TextInv hd k0 m0 pre.length s → TextInv hd k0 m0 (pre ++ [b]).length s := by
      intro s h
      exact ⟨h.key, by have := h.bound; simp; omega, fun hd => ⟨(h.val hd).1, by have := (h.val hd).2; simp; omega⟩, h.odd, h.m⟩
    by_cases k0' : k = 0
    · subst k0'
      have hr : runesFrom pre.length 0 (b :: (w ++ rest)) = (pre.length, (decodeRune b (w ++ rest)).1) ::
          runesFrom (pre.length + 1) ((decodeRune b (w ++ rest)).2 - 1) (w ++ rest) := rfl
      have hnext : (decodeRune b (w ++ rest)).2 - 1 ≤ w.length ∧
          ∀ x ∈ w.take ((decodeRune b (w ++ rest)).2 - 1), 128 ≤ x := by
        by_cases hb : b < 128
        · have : decodeRune b (w ++ rest) = (b.toNat, 1) := by unfold decodeRune; rw [if_pos hb]
          rw [this]; simp
        · exact decode_within (by rw [lt8] at hb; rw [le8]; omega) h3
      rw [hr]
      have go := fun (s : SplitState) (hI : TextInv hd k0 m0 (pre ++ [b]).length s) (he : w = [] → s.dispatch = true) =>
        ih (pre ++ [b]) hh' (fun x hx => h1 x (by simp [hx])) (getLast_tail h3) _ (by simp) s hI hnext.1 hnext.2 he
      simp only [← elen] at go
      rw [← elen1] at go
      by_cases hu : isUpper E (decodeRune b (w ++ rest)).1 = true
      · -- an upper-case letter beyond ASCII
        have hb : 128 ≤ b := by
          by_contra hb
          have hb' : b < 128 := by rw [le8] at hb; rw [lt8]; omega
          have : decodeRune b (w ++ rest) = (b.toNat, 1) := by unfold decodeRune; rw [if_pos hb']
          rw [this, isUpper_ascii hb'] at hu
          exact h1 b (by simp) (by simpa using hu)
        have hw : w ≠ [] := ne_nil_of_high h3 hb
        have hmem : ∀ j, j ≤ pre.length → b ∈ (hd.take (pre.length + 1)).drop j := by
          intro j hj
          have e : hd.take (pre.length + 1) = pre ++ [b] := by rw [elen1, hh', List.take_left]
          rw [e, List.drop_append_of_le_length hj]
          simp
        conv => enter [1, s', 1, 1]; unfold splitLoop
        rw [hu]
        by_cases hdsp : s.dispatch = true
        · have hv := hI.val hdsp
          rw [SplitState.store_some (Nat.le_of_lt hI.key) (by have := hI.bound; omega) hv.1 (by omega)]
          simp only [hdsp, if_true, Option.bind_eq_bind, Option.bind_some]
          refine go _ ?_ (fun e => absurd e hw)
          obtain ⟨X, hX, hX'⟩ := hI.m
          refine ⟨by simp, by simp, by simp, Or.inr ⟨b, hmem _ le_rfl, hb⟩, ?_⟩
          refine ⟨(_, _) :: X, by simp only [hX]; rfl, ?_⟩
          intro p hp
          rcases List.mem_cons.mp hp with rfl | hp
          · exact hI.odd
          · exact hX' p hp
        · simp only [Bool.not_eq_true] at hdsp
          simp only [hdsp, if_true, Bool.false_eq_true, if_false]
          refine go _ ?_ (fun e => absurd e hw)
          have := hI.key
          have := hI.bound
          exact ⟨by simp; omega, by simp, by simp [hdsp], Or.inr ⟨b, hmem _ (by simp; omega), hb⟩, hI.m⟩
      · simp only [Bool.not_eq_true] at hu
        conv => enter [1, s', 1, 1]; unfold splitLoop
        rw [hu]
        simp only [Bool.false_eq_true, if_false, Nat.ne_of_gt hi]
        have := hI.key
        have := hI.bound
        by_cases hdsp : s.dispatch = true
        · simp only [hdsp, Bool.not_true, Bool.false_eq_true, if_false]
          have hv := hI.val hdsp
          refine go _ ?_ (fun e => by simp [hdsp])
          exact ⟨hI.key, by simp; omega, fun _ => ⟨by simp; omega, by simp⟩, hI.odd, hI.m⟩
        · simp only [Bool.not_eq_true] at hdsp
          simp only [hdsp, Bool.not_false, if_true]
          refine go _ ?_ (fun e => rfl)
          exact ⟨hI.key, by simp; omega, fun _ => ⟨by simp, by simp⟩, hI.odd, hI.m⟩
    · have hb : 128 ≤ b := hk' b (by obtain ⟨j, rfl⟩ := Nat.exists_eq_succ_of_ne_zero k0'; simp)
      have hr : runesFrom pre.length k (b :: (w ++ rest)) = runesFrom (pre ++ [b]).length (k - 1) (w ++ rest) := by
        rw [runesFrom, if_neg k0', elen1]
      rw [hr, elen]
      refine ih (pre ++ [b]) hh' (fun x hx => h1 x (by simp [hx])) (getLast_tail h3) (k - 1) (by simp) s (mono hI)
        (by simp at hk; omega) ?_ (fun e => absurd e (ne_nil_of_high h3 hb))
      intro x hx
      apply hk' x
      obtain ⟨j, rfl⟩ := Nat.exists_eq_succ_of_ne_zero k0'
      simp only [Nat.succ_eq_add_one, Nat.add_sub_cancel] at hx
      simp [hx]

/-- no known key has a byte beyond ASCII -/
theorem known_ascii : ∀ k ∈ knownKeys, ∀ b ∈ k, b < 128 := by decide

theorem lookup_odd {k k0 : Bytes} (hk : k ∈ knownKeys) (hk0 : k0 ∉ knownKeys) {X m : Section} (h : ∀ p ∈ X, Odd8 k0 p.1) :
    (X ++ m).lookup k = m.lookup k := by
  induction X with
  | nil => rfl
  | cons p X ih =>
    have hp : (k == p.1) = false := by
      rw [beq_eq_false_iff_ne]
      rintro rfl
      rcases h p (by simp) with h | ⟨b, hb, hb'⟩
      · exact hk0 (h ▸ hk)
      · have := known_ascii _ hk b hb
        rw [lt8] at this; rw [le8] at hb'; omega
    rw [List.cons_append, List.lookup_cons, hp]
    exact ih fun q hq => h q (by simp [hq])

/-- a value after its key -/
theorem val_step (E : Env) {f : Spec.Field} (hf : f.Text) (hd pre rest : Bytes) (hh : hd = pre ++ (f.val ++ rest))
    (s : SplitState) (hs : s.dispatch = false) (hb : s.beginKey < s.endKey) (he : s.endKey = pre.length)
    (hkey : (hd.take s.endKey).drop s.beginKey = f.key) :
    ∃ s', splitLoop E hd (runesFrom pre.length 0 (f.val ++ rest)) s
        = splitLoop E hd (runesFrom (pre ++ f.val).length 0 rest) s' ∧ s'.dispatch = true ∧
      s'.beginKey ≤ s'.endKey ∧ s'.endKey ≤ (pre ++ f.val).length ∧ s'.beginValue ≤ s'.endValue ∧
      s'.endValue ≤ (pre ++ f.val).length ∧
      ∀ k ∈ knownKeys, (s'.all hd).lookup k = if f.key = k then some f.val else s.m.lookup k := by
  obtain ⟨h1, h2, h3, h4, h5, h6⟩ := hf
  by_cases hk : f.key ∈ knownKeys
  · refine ⟨_, (splitLoop_val E hd f.val h3 (fun b hb => ⟨h6 hk b hb, (h4 b hb).1⟩) rest pre.length (by omega) s hs).trans
      (by rw [List.length_append]), rfl, by simp; omega, by simp; omega, by simp, by simp, ?_⟩
    intro k hk'
    unfold SplitState.all
    simp only [hkey]
    have : (hd.take (pre.length + f.val.length)).drop pre.length = f.val := by
      rw [List.drop_take, hh]; simp
    rw [this, List.lookup_cons]
    by_cases e : f.key = k
    · simp [e]
    · have : (k == f.key) = false := by simp [Ne.symm e]
      rw [this, if_neg e]
  · obtain ⟨s', g1, g2, g3⟩ := text_loop E hd f.key s.m f.val rest pre hh (fun b hb => (h4 b hb).1) h5 0 (by omega) s
      ⟨hb, by omega, by simp [hs], Or.inl hkey, [], rfl, by simp⟩ (by simp) (by simp) (fun e => absurd e h3)
    rw [← List.length_append] at g1 g3
    refine ⟨s', g1, g2, Nat.le_of_lt g3.key, g3.bound, (g3.val g2).1, (g3.val g2).2, ?_⟩
    intro k hk'
    rw [if_neg (fun (e : f.key = k) => hk (e ▸ hk'))]
    obtain ⟨X, hX, hX'⟩ := g3.m
    unfold SplitState.all
    rw [hX, ← List.cons_append]
    exact lookup_odd hk' hk (X := _ :: X) fun p hp => by
      rcases List.mem_cons.mp hp with rfl | hp
      · exact g3.odd
      · exact hX' p hp

/-- all further fields -/
theorem text_fields (E : Env) (hd : Bytes) (fs : List Spec.Field) (hw : ∀ f ∈ fs, f.Text)
    (pre : Bytes) (s : SplitState) (hh : hd = pre ++ Spec.header fs) (hs : s.dispatch = true)
    (h1 : s.beginKey ≤ s.endKey) (h2 : s.endKey ≤ pre.length)
    (h3 : s.beginValue ≤ s.endValue) (h4 : s.endValue ≤ pre.length) :
    ∃ m, splitLoop E hd (runesFrom pre.length 0 (Spec.header fs)) s = some m ∧
      ∀ k ∈ knownKeys, m.lookup k = match Spec.value fs k with
        | some v => some v
        | none => (s.all hd).lookup k := by
  induction fs generalizing pre s with
  | nil =>
    have hl : pre.length = hd.length := by rw [hh]; simp [Spec.header]
    simp only [Spec.header, runesFrom, splitLoop]
    rw [SplitState.store_some h1 (by omega) h3 (by omega)]
    exact ⟨_, rfl, fun k _ => rfl⟩
  | cons f fs ih =>
    have hf := hw f (by simp)
    have hlen : hd.length = pre.length + f.key.length + f.val.length + (Spec.header fs).length := by
      rw [hh]; simp [Spec.header]; omega
    have hkp : 0 < f.key.length := List.length_pos_iff.mpr hf.1
    rw [show Spec.header (f :: fs) = f.key ++ (f.val ++ Spec.header fs) by simp [Spec.header]]
    rw [splitLoop_dispatch E hd f.key hf.1 hf.2.1 _ pre.length s hs h1 (by omega) h3 (by omega), ← List.length_append]
    obtain ⟨s', g1, g2, g3, g4, g5, g6, g7⟩ := val_step E hf hd (pre ++ f.key) (Spec.header fs)
      (by rw [hh]; simp [Spec.header])
      { s with m := s.all hd, beginKey := pre.length, dispatch := false, endKey := (pre ++ f.key).length }
      rfl (by simp; omega) rfl (by rw [hh, List.length_append, List.drop_take]; simp [Spec.header])
    have g1' := g1
    unfold SplitState.all at g1'
    rw [g1']
    obtain ⟨m, q1, q2⟩ := ih (fun g hg => hw g (by simp [hg])) (pre ++ f.key ++ f.val) s'
      (by rw [hh]; simp [Spec.header]) g2 g3 g4 g5 g6
    refine ⟨m, q1, ?_⟩
    intro k hk
    rw [q2 k hk]
    simp only [Spec.value]
    cases Spec.value fs k with
    | some v => rfl
    | none =>
      simp only [g7 k hk]
      by_cases e : f.key = k <;> simp [e]

/-- the known values of a header with any text -/
theorem splitHeader_text (E : Env) (fs : List Spec.Field) (hne : fs ≠ []) (hw : ∀ f ∈ fs, f.Text) :
    ∃ m, splitHeader E (Spec.header fs) = some m ∧ ∀ k ∈ knownKeys, Section.find m k = Spec.value fs k := by
  cases fs with
  | nil => exact absurd rfl hne
  | cons f fs =>
    have hf := hw f (by simp)
    generalize hhd : Spec.header (f :: fs) = hd
    have hhd2 : hd = f.key ++ (f.val ++ Spec.header fs) := by rw [← hhd]; simp [Spec.header]
    have hk0 : 0 < f.key.length := List.length_pos_iff.mpr hf.1
    unfold splitHeader
    conv => enter [1, m, 1, 1, 3]; rw [hhd2]
    rw [splitLoop_key E hd f.key hf.1 hf.2.1 _ 0 _ rfl, Nat.zero_add]
    obtain ⟨s', g1, g2, g3, g4, g5, g6, g7⟩ := val_step E hf hd f.key (Spec.header fs) hhd2
      ⟨[], 0, f.key.length, 0, 0, false⟩ rfl hk0 rfl (by rw [hhd2]; simp)
    rw [g1]
    obtain ⟨m, q1, q2⟩ := text_fields E hd fs (fun g hg => hw g (by simp [hg])) (f.key ++ f.val) s'
      (by rw [hhd2]; simp) g2 g3 g4 g5 g6
    refine ⟨m, q1, ?_⟩
    intro k hk
    show m.lookup k = _
    rw [q2 k hk]
    simp only [Spec.value]
    cases Spec.value fs k with
    | some v => rfl
    | none =>
      simp only [g7 k hk]
      by_cases e : f.key = k <;> simp [e]

theorem Text.no_delim {fs : List Spec.Field} (hw : ∀ f ∈ fs, f.Text) : (3 : UInt8) ∉ Spec.header fs := by
  induction fs with
  | nil => simp [Spec.header]
  | cons f fs ih =>
    have hf := hw f (by simp)
    simp only [Spec.header, List.mem_append, not_or]
    refine ⟨⟨?_, ?_⟩, ih (fun g hg => hw g (by simp [hg]))⟩
    · intro h
      have := (hf.2.1 3 h).1
      revert this; decide
    · intro h
      exact (hf.2.2.2.1 3 h).2 rfl

theorem WF.text {f : Spec.Field} (h : f.WF) : f.Text :=
  ⟨h.1, h.2.1, h.2.2.1, fun b hb => (h.2.2.2 b hb).2, fun b hb => (h.2.2.2 b (List.mem_of_getLast? hb)).1,
    fun _ b hb => (h.2.2.2 b hb).1⟩

end Radolan
