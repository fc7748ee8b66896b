/-
bufio.Reader over an io.Reader that delivers a finite byte sequence and then stalls.
-/
import Verif.Spec.Session
import Verif.Lemmas.Reader

namespace Go.Bufio
open Radolan _root_.Spec

variable {S : Source} {ok : S.State → Prop} {rem : S.State → Bytes} {idle : S.State → Nat}

/-- the reader stands for the byte sequence `b` -/
structure StallSim (ok : S.State → Prop) (rem : S.State → Bytes) (N : Nat) (r : Reader S) (b : Bytes) : Prop where
  ok : ok r.st
  eq : b = r.buf ++ rem r.st
  fits : r.buf.length ≤ N
  err : r.err = none

theorem fillLoop_stall (F : Stalling S ok rem idle) {N : Nat} {b : Bytes} : ∀ (i : Nat) (r : Reader S),
    StallSim ok rem N r b → r.buf.length < N →
    (rem r.st ≠ [] → idle r.st < i → StallSim ok rem N (fillLoop N i r) b ∧
      ∃ d, d ≠ [] ∧ (fillLoop N i r).buf = r.buf ++ d) ∧
    (rem r.st = [] → (fillLoop N i r).buf = r.buf ∧ (fillLoop N i r).err = some .noProgress) := by
  intro i
  induction i with
  | zero => intro r hs hb; exact ⟨fun _ h => by omega, fun _ => ⟨rfl, rfl⟩⟩
  | succ i ih =>
    intro r hs hb
    have hn : 0 < N - r.buf.length := by omega
    have h0 := F.stays r.st _ hs.ok hn
    have h1 := F.fits r.st _ hs.ok hn
    have h2 := F.delivers r.st _ hs.ok hn
    have h3 := F.silent r.st _ hs.ok hn
    have h4 := F.progress r.st _ hs.ok hn
    unfold fillLoop
    generalize S.read r.st (N - r.buf.length) = x at *
    obtain ⟨d, e, s'⟩ := x
    simp only at *
    subst h3
    have hs' : StallSim ok rem N ⟨r.buf ++ d, r.err, s'⟩ b := by
      refine ⟨h0, ?_, ?_, hs.err⟩
      · rw [hs.eq, h2]; simp
      · simp; omega
    simp only
    by_cases hd : d = []
    · subst hd
      simp only [List.length_nil, Nat.lt_irrefl, if_false, List.append_nil] at hs' ⊢
      obtain ⟨k1, k2⟩ := ih ⟨r.buf, r.err, s'⟩ hs' hb
      rw [List.nil_append] at h2
      rw [h2]
      refine ⟨fun hne hi => k1 hne ?_, k2⟩
      have := h4 (by rw [h2]; exact hne) rfl
      simp only
      omega
    · rw [if_pos (List.length_pos_iff.mpr hd)]
      refine ⟨fun _ _ => ⟨hs', d, hd, rfl⟩, fun h => ?_⟩
      rw [h] at h2
      exact absurd (List.append_eq_nil_iff.mp h2.symm).1 hd

/-- results of `ReadSlice` -/
def StallPost (ok : S.State → Prop) (rem : S.State → Bytes) (N : Nat) (d : UInt8) (b l : Bytes) (e : Option IOErr) (r' : Reader S) : Prop :=
  match e with
  | none => ∃ p b', l = p ++ [d] ∧ d ∉ p ∧ b = l ++ b' ∧ StallSim ok rem N r' b'
  | some e => d ∉ l ∧ (if e = .bufferFull then N ≤ l.length ∧ ∃ b', b = l ++ b' ∧ StallSim ok rem N r' b' else l = b)

theorem readSlice_stall (F : Stalling S ok rem idle) {N : Nat} (d : UInt8) {b : Bytes} : ∀ (m s : Nat) (r : Reader S),
    N - r.buf.length = m → StallSim ok rem N r b → d ∉ r.buf.take s → s ≤ r.buf.length →
    ∃ l e r', readSlice N d s r = some (l, e, r') ∧ StallPost ok rem N d b l e r' := by
  intro m
  induction m using Nat.strong_induction_on with
  | _ m ih =>
    intro s r hm hs hd hsl
    rw [readSlice]
    cases hx : indexByte d (r.buf.drop s) with
    | some i =>
      obtain ⟨p, q, h1, h2, h3⟩ := indexByte_some hx
      have hbuf : r.buf = (r.buf.take s ++ p ++ [d]) ++ q := by
        conv_lhs => rw [← List.take_append_drop s r.buf, h1]
        simp
      have hlen : (r.buf.take s ++ p ++ [d]).length = i + s + 1 := by
        simp only [List.length_append, List.length_take, List.length_cons, List.length_nil]; omega
      have ht : r.buf.take (i + s + 1) = r.buf.take s ++ p ++ [d] := by
        conv_lhs => rw [hbuf]
        rw [← hlen, List.take_left]
      have hdr : r.buf.drop (i + s + 1) = q := by
        conv_lhs => rw [hbuf]
        rw [← hlen, List.drop_left]
      refine ⟨_, _, _, rfl, ?_⟩
      simp only [ht, hdr, StallPost]
      refine ⟨r.buf.take s ++ p, q ++ rem r.st, rfl, by simp [hd, h3], ?_, ⟨hs.ok, rfl, ?_, hs.err⟩⟩
      · rw [hs.eq]
        conv_lhs => rw [hbuf]
        simp
      · have := hs.fits
        have := congrArg List.length hbuf
        simp only [List.length_append] at this
        simp only
        omega
    | none =>
      have hnd : d ∉ r.buf := by
        have := indexByte_none hx
        rw [← List.take_append_drop s r.buf, List.mem_append]
        rintro (h | h)
        · exact hd h
        · exact this h
      rw [hs.err]
      simp only
      split
      · rename_i hN
        refine ⟨_, _, _, rfl, ?_⟩
        simp only [StallPost, if_true]
        exact ⟨hnd, hN, rem r.st, hs.eq, ⟨hs.ok, by simp, by simp, rfl⟩⟩
      · rename_i hN
        obtain ⟨k1, k2⟩ := fillLoop_stall F 100 r hs (by omega)
        by_cases hr : rem r.st = []
        · obtain ⟨q1, q2⟩ := k2 hr
          have hix : indexByte d ((fill N r).buf.drop r.buf.length) = none := by
            unfold fill
            rw [q1, List.drop_length]; rfl
          rw [readSlice, hix]
          unfold fill
          rw [q2]
          refine ⟨_, _, _, rfl, ?_⟩
          simp only [StallPost, q1]
          refine ⟨hnd, ?_⟩
          rw [if_neg (by simp), hs.eq, hr, List.append_nil]
        · obtain ⟨f1, x, f2, f3⟩ := k1 hr (F.patience _ hs.ok)
          refine ih _ ?_ _ _ rfl f1 ?_ ?_
          · rw [← hm]
            unfold fill
            rw [f3, List.length_append]
            have hf := f1.fits
            rw [f3, List.length_append] at hf
            have := List.length_pos_of_ne_nil f2
            omega
          · unfold fill; rw [f3, List.take_left]; exact hnd
          · unfold fill; rw [f3, List.length_append]; omega

theorem readBytes_stall (F : Stalling S ok rem idle) {N : Nat} (hN : 0 < N) (d : UInt8) : ∀ (m : Nat) (acc b : Bytes) (r : Reader S),
    b.length = m → StallSim ok rem N r b →
    match readDelim d b with
    | some (l, b') => ∃ r', readBytes N d acc r = some (acc ++ l, none, r') ∧ StallSim ok rem N r' b'
    | none => ∃ e r', readBytes N d acc r = some (acc ++ b, some e, r') := by
  intro m
  induction m using Nat.strong_induction_on with
  | _ m ih =>
    intro acc b r hm hs
    obtain ⟨l, e, r', h1, h2⟩ := readSlice_stall F d _ 0 r rfl hs (by simp) (by omega)
    rw [readBytes, h1]
    simp only
    cases e with
    | none =>
      obtain ⟨p, b', rfl, h3, rfl, h5⟩ := h2
      rw [(readDelim_some (r := b')).mpr ⟨p, rfl, by simp, h3⟩]
      exact ⟨r', rfl, h5⟩
    | some e =>
      obtain ⟨h3, h4⟩ := h2
      by_cases he : e = .bufferFull
      · rw [if_pos he] at h4
        obtain ⟨h5, b', rfl, h6⟩ := h4
        have := ih b'.length (by rw [← hm, List.length_append]; omega) (acc ++ l) b' r' rfl h6
        simp only [if_pos he]
        cases hr : readDelim d b' with
        | some x =>
          obtain ⟨l', b''⟩ := x
          rw [hr] at this
          obtain ⟨p, rfl, rfl, h7⟩ := readDelim_some.mp hr
          rw [(readDelim_some (r := b'')).mpr ⟨l ++ p, rfl, by simp, by simp [h3, h7]⟩]
          obtain ⟨r'', h8, h9⟩ := this
          exact ⟨r'', by rw [h8]; simp, h9⟩
        | none =>
          rw [hr] at this
          rw [readDelim_none] at hr
          rw [readDelim_none.mpr (by simp [h3, hr])]
          obtain ⟨e', r'', h8⟩ := this
          exact ⟨e', r'', by rw [h8]; simp⟩
      · rw [if_neg he] at h4
        subst h4
        rw [readDelim_none.mpr h3]
        simp only [if_neg he]
        exact ⟨e, r', rfl⟩

/-- one `Read` of the bufio.Reader: never an error, and some progress unless nothing is left -/
theorem read_stall (F : Stalling S ok rem idle) {N n : Nat} (hN : 0 < N) (hn : 0 < n) {b : Bytes} {r : Reader S}
    (hs : StallSim ok rem N r b) :
    ∃ d r', read N n r = (d, none, r') ∧ d.length ≤ n ∧ ∃ b', b = d ++ b' ∧ StallSim ok rem N r' b' ∧
      (b ≠ [] → d = [] → idle r'.st < idle r.st) := by
  unfold read
  rw [if_neg (by omega)]
  by_cases h0 : r.buf.length = 0
  · rw [if_pos h0]
    have hnil : r.buf = [] := List.length_eq_zero_iff.mp h0
    have hb : b = rem r.st := by rw [hs.eq, hnil]; rfl
    have he := hs.err
    simp only [he]
    split
    · have hk := F.stays r.st _ hs.ok hn
      have h1 := F.fits r.st _ hs.ok hn
      have h2 := F.delivers r.st _ hs.ok hn
      have h3 := F.silent r.st _ hs.ok hn
      have h4 := F.progress r.st _ hs.ok hn
      generalize S.read r.st n = x at *
      obtain ⟨d, e, s'⟩ := x
      simp only at *
      subst h3
      exact ⟨_, _, rfl, h1, rem s', by rw [hb, h2], ⟨hk, by simp [hnil], by simp [hnil], rfl⟩, fun h => h4 (hb ▸ h)⟩
    · have hk := F.stays r.st _ hs.ok hN
      have h1 := F.fits r.st _ hs.ok hN
      have h2 := F.delivers r.st _ hs.ok hN
      have h3 := F.silent r.st _ hs.ok hN
      have h4 := F.progress r.st _ hs.ok hN
      generalize S.read r.st N = x at *
      obtain ⟨d, e, s'⟩ := x
      simp only at *
      subst h3
      split
      · rename_i hd
        have hd' : d = [] := List.length_eq_zero_iff.mp hd
        subst hd'
        exact ⟨_, _, rfl, by simp, rem s', by rw [hb, h2], ⟨hk, by simp [hnil], by simp [hnil], rfl⟩, fun h => h4 (hb ▸ h)⟩
      · rename_i hd
        refine ⟨_, _, rfl, by simp, d.drop n ++ rem s', ?_, ⟨hk, rfl, ?_, rfl⟩, ?_⟩
        · rw [hb, h2, ← List.append_assoc, List.take_append_drop]
        · simp; omega
        · intro _ h
          have := congrArg List.length h
          simp only [List.length_take, List.length_nil] at this
          omega
  · rw [if_neg h0]
    refine ⟨_, _, rfl, by simp, r.buf.drop n ++ rem r.st, ?_, ⟨hs.ok, rfl, ?_, hs.err⟩, ?_⟩
    · rw [hs.eq, ← List.append_assoc, List.take_append_drop]
    · have := hs.fits; simp; omega
    · intro _ h
      have := congrArg List.length h
      simp only [List.length_take, List.length_nil] at this
      omega

/-- `io.ReadFull` if there is enough to read -/
theorem readFull_stall (F : Stalling S ok rem idle) {N : Nat} (hN : 0 < N) (n : Nat) : ∀ (m : Nat) (got : Bytes)
    (b : Bytes) (r : Reader S), b.length * 100 + idle r.st = m → got.length ≤ n → StallSim ok rem N r b →
    ∀ l b', Radolan.readFull (n - got.length) b = some (l, b') →
    ∃ r', readFull N n got none r = some (got ++ l, none, r') ∧ StallSim ok rem N r' b' := by
  intro m
  induction m using Nat.strong_induction_on with
  | _ m ih =>
    intro got b r hm hg hs l b' hr
    obtain ⟨rfl, hl⟩ := readFull_some.mp hr
    rw [readFull]
    by_cases hlt : got.length < n
    · simp only [hlt, true_and, if_true]
      obtain ⟨d, r', h1, h2, b1, h3, h4, h5⟩ := read_stall F hN (n := n - got.length) (by omega) hs
      rw [h1]
      simp only
      have hdl : d = l.take d.length := by
        have := congrArg (List.take d.length) h3
        rw [List.take_append_of_le_length (by omega), List.take_left] at this
        exact this.symm
      have hb1 : b1 = l.drop d.length ++ b' := by
        have := congrArg (List.drop d.length) h3
        rw [List.drop_append_of_le_length (by omega), List.drop_left] at this
        exact this.symm
      have hlt' : b1.length * 100 + idle r'.st < m := by
        rw [← hm, h3, List.length_append]
        have := F.patience r'.st h4.ok
        by_cases hd : d = []
        · have := h5 (by
            intro h0
            have := congrArg List.length h0
            simp only [List.length_append, List.length_nil] at this
            omega) hd
          rw [hd]
          simp only [List.length_nil, Nat.zero_add]
          omega
        · have := List.length_pos_of_ne_nil hd
          omega
      obtain ⟨r2, q1, q2⟩ := ih _ hlt' (got ++ d) b1 r' rfl (by rw [List.length_append]; omega) h4
        (l.drop d.length) b' (readFull_some.mpr ⟨hb1, by rw [List.length_drop, List.length_append]; omega⟩)
      refine ⟨r2, ?_, q2⟩
      have hcat : d ++ l.drop d.length = l := by
        conv_lhs => arg 1; rw [hdl]
        exact List.take_append_drop _ _
      rw [q1, List.append_assoc, hcat]
    · rw [if_neg (fun h => hlt h.1), if_pos (by omega)]
      have : l = [] := List.length_eq_zero_iff.mp (by omega)
      subst this
      exact ⟨r, by simp, hs⟩

/-- `io.ReadFull` does not return if there is not enough to read -/
theorem readFull_forever (F : Stalling S ok rem idle) {N : Nat} (hN : 0 < N) (n : Nat) {got b : Bytes} {r : Reader S}
    (hs : StallSim ok rem N r b) (hl : got.length + b.length < n) : readFull N n got none r = none := by
  cases h : readFull N n got none r with
  | none => rfl
  | some x =>
    exfalso
    have := readFull.partial_correctness (S := S) N n
      (motive := fun got err r _ => err = none → ∀ b, StallSim ok rem N r b → got.length + b.length < n → False)
      ?_ got none r x h rfl b hs hl
    · exact this
    · intro f hf got err r y hy he b hs hl
      subst he
      rw [if_pos ⟨by omega, rfl⟩] at hy
      obtain ⟨d, r', h1, h2, b1, h3, h4, -⟩ := read_stall F hN (n := n - got.length) (by omega) hs
      simp only [h1] at hy
      refine hf _ _ _ _ hy rfl b1 h4 ?_
      rw [h3, List.length_append] at hl
      rw [List.length_append]
      omega

/-- a bufio.Reader over an io.Reader that stalls -/
theorem stalling_steps (F : Stalling S ok rem idle) {N : Nat} (hN : 0 < N) : Steps (StallSim ok rem N) N true where
  delim d r b hs := by
    have := readBytes_stall F hN d _ [] b r rfl hs
    cases h : readDelim d b with
    | some x => rw [h] at this; exact this
    | none =>
      rw [h] at this
      obtain ⟨e, r', h1⟩ := this
      exact ⟨_, e, r', h1⟩
  full n r b hs := by
    cases h : Radolan.readFull n b with
    | some x =>
      obtain ⟨r', h1, h2⟩ := readFull_stall F hN n _ [] b r rfl (by simp) hs x.1 x.2 (by simpa using h)
      exact ⟨r', by simpa using h1, h2⟩
    | none =>
      simp only [if_true]
      exact readFull_forever F hN n hs (by rw [readFull_none] at h; simpa using h)

end Go.Bufio
