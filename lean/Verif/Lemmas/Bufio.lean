/-
bufio.Reader over a faithful io.Reader behaves like the byte sequence it delivers.
-/
import Verif.Spec.Stream
import Verif.Model.Reader
import Verif.Lemmas.Monad

namespace Go.Bufio
open Radolan _root_.Spec

theorem indexByte_some {d : UInt8} {b : Bytes} {i : Nat} (h : indexByte d b = some i) :
    ∃ p q, b = p ++ d :: q ∧ p.length = i ∧ d ∉ p := by
  induction b generalizing i with
  | nil => simp [indexByte] at h
  | cons x xs ih =>
    unfold indexByte at h
    split at h
    · rename_i hx
      simp only [Option.some.injEq] at h
      exact ⟨[], xs, by simp [hx], by simpa using h, by simp⟩
    · rename_i hx
      simp only [Option.map_eq_some_iff] at h
      obtain ⟨j, hj, rfl⟩ := h
      obtain ⟨p, q, h1, h2, h3⟩ := ih hj
      refine ⟨x :: p, q, by simp [h1], by simp [h2], ?_⟩
      simp only [List.mem_cons, not_or]
      exact ⟨fun h => hx h.symm, h3⟩

theorem indexByte_none {d : UInt8} {b : Bytes} (h : indexByte d b = none) : d ∉ b := by
  induction b with
  | nil => simp
  | cons x xs ih =>
    unfold indexByte at h
    split at h
    · simp at h
    · rename_i hx
      simp only [Option.map_eq_none_iff] at h
      simp only [List.mem_cons, not_or]
      exact ⟨fun h => hx h.symm, ih h⟩

variable {S : Source} {ok : S.State → Prop} {rem : S.State → Bytes} {idle : S.State → Nat}

/-- the reader stands for the byte sequence `b` -/
structure Sim (ok : S.State → Prop) (rem : S.State → Bytes) (N : Nat) (r : Reader S) (b : Bytes) : Prop where
  ok : ok r.st
  eq : b = r.buf ++ rem r.st
  fits : r.buf.length ≤ N
  err : ∀ e, r.err = some e → rem r.st = [] ∧ e ≠ .bufferFull

theorem fillLoop_sim (F : Faithful S ok rem idle) {N : Nat} {b : Bytes} : ∀ (i : Nat) (r : Reader S), idle r.st < i →
    Sim ok rem N r b → r.err = none → r.buf.length < N →
    Sim ok rem N (fillLoop N i r) b ∧ ∃ d, (fillLoop N i r).buf = r.buf ++ d ∧ ((fillLoop N i r).err = none → d ≠ []) := by
  intro i
  induction i with
  | zero => intro r h; omega
  | succ i ih =>
    intro r hi hs he hb
    have hn : 0 < N - r.buf.length := by omega
    have h0 := F.stays r.st _ hs.ok hn
    have h1 := F.fits r.st _ hs.ok hn
    have h2 := F.delivers r.st _ hs.ok hn
    have h3 := fun e => F.ends r.st _ e hs.ok hn
    have h4 := F.progress r.st _ hs.ok hn
    unfold fillLoop
    generalize S.read r.st (N - r.buf.length) = x at *
    obtain ⟨d, e, s'⟩ := x
    simp only at *
    have hs' : Sim ok rem N ⟨r.buf ++ d, r.err, s'⟩ b := by
      refine ⟨h0, ?_, ?_, ?_⟩
      · rw [hs.eq, h2]; simp
      · simp; omega
      · simp [he]
    cases e with
    | some e =>
      simp only
      refine ⟨⟨hs'.ok, hs'.eq, hs'.fits, ?_⟩, d, rfl, by simp⟩
      intro e' he'
      simp only [Option.some.injEq] at he'
      subst he'
      exact h3 _ rfl
    | none =>
      simp only
      split
      · rename_i hd
        refine ⟨hs', d, rfl, ?_⟩
        rintro - rfl
        simp at hd
      · rename_i hd
        have hd' : d = [] := List.length_eq_zero_iff.mp (by omega)
        subst hd'
        have := h4 rfl rfl
        rw [List.append_nil] at hs' ⊢
        exact ih ⟨r.buf, r.err, s'⟩ (by simp only; omega) hs' he hb

theorem fill_sim (F : Faithful S ok rem idle) {N : Nat} {b : Bytes} {r : Reader S} (hs : Sim ok rem N r b) (he : r.err = none)
    (hb : r.buf.length < N) :
    Sim ok rem N (fill N r) b ∧ ∃ d, (fill N r).buf = r.buf ++ d ∧ ((fill N r).err = none → d ≠ []) :=
  fillLoop_sim F 100 r (F.patience _ hs.ok) hs he hb

/-- results of `ReadSlice`: the bytes up to the delimiter, or a full buffer without delimiter, or the rest of the input
without delimiter -/
def SlicePost (ok : S.State → Prop) (rem : S.State → Bytes) (N : Nat) (d : UInt8) (b l : Bytes) (e : Option IOErr) (r' : Reader S) : Prop :=
  match e with
  | none => ∃ p b', l = p ++ [d] ∧ d ∉ p ∧ b = l ++ b' ∧ Sim ok rem N r' b'
  | some e => d ∉ l ∧ (if e = .bufferFull then N ≤ l.length ∧ ∃ b', b = l ++ b' ∧ Sim ok rem N r' b' else l = b)

theorem readSlice_sim (F : Faithful S ok rem idle) {N : Nat} (d : UInt8) {b : Bytes} : ∀ (m s : Nat) (r : Reader S),
    N - r.buf.length + (if r.err = none then 1 else 0) = m → Sim ok rem N r b → d ∉ r.buf.take s → s ≤ r.buf.length →
    ∃ l e r', readSlice N d s r = some (l, e, r') ∧ SlicePost ok rem N d b l e r' := by
  intro m
  induction m using Nat.strong_induction_on with
  | _ m ih =>
    intro s r hm hs hd hsl
    rw [readSlice]
    cases hx : indexByte d (r.buf.drop s) with
    | some i =>
      obtain ⟨p, q, h1, h2, h3⟩ := indexByte_some hx
      have hbuf : r.buf = (r.buf.take s ++ p ++ [d]) ++ q := by
        conv_lhs => rw [← List.take_append_drop s r.buf, h1]
        simp
      have hlen : (r.buf.take s ++ p ++ [d]).length = i + s + 1 := by
        simp only [List.length_append, List.length_take, List.length_cons, List.length_nil]; omega
      have ht : r.buf.take (i + s + 1) = r.buf.take s ++ p ++ [d] := by
        conv_lhs => rw [hbuf]
        rw [← hlen, List.take_left]
      have hdr : r.buf.drop (i + s + 1) = q := by
        conv_lhs => rw [hbuf]
        rw [← hlen, List.drop_left]
      refine ⟨_, _, _, rfl, ?_⟩
      simp only [ht, hdr, SlicePost]
      refine ⟨r.buf.take s ++ p, q ++ rem r.st, rfl, by simp [hd, h3], ?_, ⟨hs.ok, rfl, ?_, hs.err⟩⟩
      · rw [hs.eq]
        conv_lhs => rw [hbuf]
        simp
      · have := hs.fits
        have := congrArg List.length hbuf
        simp only [List.length_append] at this
        simp only
        omega
    | none =>
      have hnd : d ∉ r.buf := by
        have := indexByte_none hx
        rw [← List.take_append_drop s r.buf, List.mem_append]
        rintro (h | h)
        · exact hd h
        · exact this h
      cases he : r.err with
      | some e =>
        refine ⟨_, _, _, rfl, ?_⟩
        obtain ⟨h1, h2⟩ := hs.err e he
        simp only [SlicePost, if_neg h2]
        exact ⟨hnd, by rw [hs.eq, h1, List.append_nil]⟩
      | none =>
        simp only
        split
        · rename_i hN
          refine ⟨_, _, _, rfl, ?_⟩
          simp only [SlicePost, if_true]
          exact ⟨hnd, hN, rem r.st, hs.eq, ⟨hs.ok, by simp, by simp, by simp⟩⟩
        · rename_i hN
          obtain ⟨f1, x, f2, f3⟩ := fill_sim F hs he (by omega)
          refine ih _ ?_ _ _ rfl f1 ?_ ?_
          · rw [← hm, f2, if_pos he, List.length_append]
            have hf := f1.fits
            rw [f2, List.length_append] at hf
            by_cases hq : (fill N r).err = none
            · have := List.length_pos_of_ne_nil (f3 hq)
              rw [if_pos hq]; omega
            · rw [if_neg hq]; omega
          · rw [f2, List.take_left]; exact hnd
          · rw [f2, List.length_append]; omega

/-- `ReadBytes` on the reader is `readDelim` on the bytes it stands for -/
theorem readBytes_sim (F : Faithful S ok rem idle) {N : Nat} (hN : 0 < N) (d : UInt8) : ∀ (m : Nat) (acc b : Bytes) (r : Reader S),
    b.length = m → Sim ok rem N r b →
    match readDelim d b with
    | some (l, b') => ∃ r', readBytes N d acc r = some (acc ++ l, none, r') ∧ Sim ok rem N r' b'
    | none => ∃ e r', readBytes N d acc r = some (acc ++ b, some e, r') := by
  intro m
  induction m using Nat.strong_induction_on with
  | _ m ih =>
    intro acc b r hm hs
    obtain ⟨l, e, r', h1, h2⟩ := readSlice_sim F d _ 0 r rfl hs (by simp) (by omega)
    rw [readBytes, h1]
    simp only
    cases e with
    | none =>
      obtain ⟨p, b', rfl, h3, rfl, h5⟩ := h2
      rw [(readDelim_some (r := b')).mpr ⟨p, rfl, by simp, h3⟩]
      exact ⟨r', rfl, h5⟩
    | some e =>
      obtain ⟨h3, h4⟩ := h2
      by_cases he : e = .bufferFull
      · rw [if_pos he] at h4
        obtain ⟨h5, b', rfl, h6⟩ := h4
        have := ih b'.length (by rw [← hm, List.length_append]; omega) (acc ++ l) b' r' rfl h6
        simp only [if_pos he]
        cases hr : readDelim d b' with
        | some x =>
          obtain ⟨l', b''⟩ := x
          rw [hr] at this
          obtain ⟨p, rfl, rfl, h7⟩ := readDelim_some.mp hr
          rw [(readDelim_some (r := b'')).mpr ⟨l ++ p, rfl, by simp, by simp [h3, h7]⟩]
          obtain ⟨r'', h8, h9⟩ := this
          exact ⟨r'', by rw [h8]; simp, h9⟩
        | none =>
          rw [hr] at this
          rw [readDelim_none] at hr
          rw [readDelim_none.mpr (by simp [h3, hr])]
          obtain ⟨e', r'', h8⟩ := this
          exact ⟨e', r'', by rw [h8]; simp⟩
      · rw [if_neg he] at h4
        subst h4
        rw [readDelim_none.mpr h3]
        simp only [if_neg he]
        exact ⟨e, r', rfl⟩

/-- one `Read` of the bufio.Reader -/
theorem read_sim (F : Faithful S ok rem idle) {N n : Nat} (hN : 0 < N) (hn : 0 < n) {b : Bytes} {r : Reader S}
    (hs : Sim ok rem N r b) :
    ∃ d e r', read N n r = (d, e, r') ∧ d.length ≤ n ∧ ∃ b', b = d ++ b' ∧ Sim ok rem N r' b' ∧ (e ≠ none → b' = []) ∧
      (e = none → d = [] → idle r'.st < idle r.st) := by
  unfold read
  rw [if_neg (by omega)]
  by_cases h0 : r.buf.length = 0
  · rw [if_pos h0]
    have hnil : r.buf = [] := List.length_eq_zero_iff.mp h0
    have hb : b = rem r.st := by rw [hs.eq, hnil]; rfl
    cases he : r.err with
    | some e =>
      refine ⟨_, _, _, rfl, by simp, [], ?_, ⟨hs.ok, ?_, by simp [hnil], by simp⟩, by simp, by simp⟩
      · rw [hb, (hs.err e he).1]; rfl
      · simp [hnil, (hs.err e he).1]
    | none =>
      simp only
      split
      · have hk := F.stays r.st _ hs.ok hn
        have h1 := F.fits r.st _ hs.ok hn
        have h2 := F.delivers r.st _ hs.ok hn
        have h3 := fun e => F.ends r.st _ e hs.ok hn
        have h4 := F.progress r.st _ hs.ok hn
        generalize S.read r.st n = x at *
        obtain ⟨d, e, s'⟩ := x
        simp only at *
        refine ⟨_, _, _, rfl, h1, rem s', by rw [hb, h2], ⟨hk, by simp [hnil], by simp [hnil], by simp [he]⟩, ?_, h4⟩
        intro hne
        obtain ⟨e', rfl⟩ := Option.ne_none_iff_exists'.mp hne
        exact (h3 e' rfl).1
      · have hk := F.stays r.st _ hs.ok hN
        have h1 := F.fits r.st _ hs.ok hN
        have h2 := F.delivers r.st _ hs.ok hN
        have h3 := fun e => F.ends r.st _ e hs.ok hN
        have h4 := F.progress r.st _ hs.ok hN
        generalize S.read r.st N = x at *
        obtain ⟨d, e, s'⟩ := x
        simp only at *
        split
        · rename_i hd
          have hd' : d = [] := List.length_eq_zero_iff.mp hd
          subst hd'
          refine ⟨_, _, _, rfl, by simp, rem s', by rw [hb, h2], ⟨hk, by simp [hnil], by simp [hnil], by simp [he]⟩, ?_, h4⟩
          intro hne
          obtain ⟨e', rfl⟩ := Option.ne_none_iff_exists'.mp hne
          exact (h3 e' rfl).1
        · rename_i hd
          refine ⟨_, _, _, rfl, by simp, d.drop n ++ rem s', ?_, ⟨hk, rfl, ?_, ?_⟩, by simp, ?_⟩
          · rw [hb, h2, ← List.append_assoc, List.take_append_drop]
          · simp; omega
          · intro e' he'; exact h3 e' he'
          · intro _ h
            have := congrArg List.length h
            simp only [List.length_take, List.length_nil] at this
            omega
  · rw [if_neg h0]
    refine ⟨_, _, _, rfl, by simp, r.buf.drop n ++ rem r.st, ?_, ⟨hs.ok, rfl, ?_, hs.err⟩, by simp, ?_⟩
    · rw [hs.eq, ← List.append_assoc, List.take_append_drop]
    · have := hs.fits; simp; omega
    · intro _ h
      have := congrArg List.length h
      simp only [List.length_take, List.length_nil] at this
      omega

/-- `io.ReadFull` on the reader is `readFull` on the bytes it stands for -/
theorem readFull_sim (F : Faithful S ok rem idle) {N : Nat} (hN : 0 < N) (n : Nat) : ∀ (m : Nat) (got : Bytes)
    (b : Bytes) (r : Reader S), b.length * 100 + idle r.st = m → got.length ≤ n → Sim ok rem N r b →
    match Radolan.readFull (n - got.length) b with
    | some (l, b') => ∃ r', readFull N n got none r = some (got ++ l, none, r') ∧ Sim ok rem N r' b'
    | none => ∃ l e r', readFull N n got none r = some (l, some e, r') := by
  intro m
  induction m using Nat.strong_induction_on with
  | _ m ih =>
    intro got b r hm hg hs
    rw [readFull]
    by_cases hlt : got.length < n
    · simp only [hlt, true_and, if_true]
      obtain ⟨d, e, r', h1, h2, b', rfl, h4, h5, h6⟩ := read_sim F hN (n := n - got.length) (by omega) hs
      rw [h1]
      simp only
      cases e with
      | none =>
        have hlt' : b'.length * 100 + idle r'.st < m := by
          rw [← hm, List.length_append]
          have := F.patience r'.st h4.ok
          cases d with
          | nil => have := h6 rfl rfl; simp; omega
          | cons x xs => simp only [List.length_cons]; omega
        have := ih _ hlt' (got ++ d) b' r' rfl (by rw [List.length_append]; omega) h4
        cases hr : Radolan.readFull (n - (got ++ d).length) b' with
        | some x =>
          obtain ⟨l, b''⟩ := x
          rw [hr] at this
          obtain ⟨rfl, hl⟩ := readFull_some.mp hr
          rw [List.length_append] at hl
          rw [(readFull_some (l := d ++ l) (r := b'')).mpr ⟨by simp, by rw [List.length_append]; omega⟩]
          obtain ⟨r'', h8, h9⟩ := this
          exact ⟨r'', by rw [h8]; simp, h9⟩
        | none =>
          rw [hr] at this
          rw [readFull_none] at hr
          rw [List.length_append] at hr
          rw [readFull_none.mpr (by rw [List.length_append]; omega)]
          exact this
      | some e =>
        have := h5 (by simp)
        subst this
        rw [List.append_nil] at *
        rw [readFull, if_neg (by simp)]
        by_cases hd : d.length = n - got.length
        · rw [(readFull_some (l := d) (r := [])).mpr ⟨by simp, hd⟩, if_pos (by rw [List.length_append]; omega)]
          exact ⟨r', rfl, h4⟩
        · rw [readFull_none.mpr (by omega), if_neg (by rw [List.length_append]; omega)]
          by_cases hq : 0 < (got ++ d).length ∧ some e = some IOErr.eof
          · rw [if_pos hq]; exact ⟨_, _, _, rfl⟩
          · rw [if_neg hq]; exact ⟨_, _, _, rfl⟩
    · rw [if_neg (fun h => hlt h.1), if_pos (by omega)]
      rw [(readFull_some (l := []) (r := b)).mpr ⟨by simp, by simp; omega⟩]
      exact ⟨r, by simp, hs⟩

end Go.Bufio
