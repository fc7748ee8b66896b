/-
The tar reader of Model/Tar.lean on a reader that delivers given bytes.
-/
import Verif.Model.Tar
import Verif.Spec.Session
import Verif.Spec.Tar
import Verif.Props.Session

namespace Radolan.TarReader
open Go _root_.Spec _root_.Spec.Tar

/-- how the entries end: with io.EOF, with an error, or with an extension -/
inductive End where
  | clean | broken | ext
  deriving DecidableEq

/-- the end of the stream where a block should begin or end -/
def endOf (e : IOErr) : End := if e = .eof then .clean else .broken

/-- the entries from the position in `b` on where `nb` bytes of content and `pad` bytes of padding are still to come; at
the end of `b` the reader returns `e` -/
def unpack (e : IOErr) (nb pad : Nat) (b : Bytes) : List Bytes × End :=
  if b.length < nb then ([], .broken)
  else if b.length < nb + pad then ([], endOf e)
  else
    let r := b.drop (nb + pad)
    if r = [] then ([], endOf e)
    else if _h : r.length < 512 then ([], .broken)
    else if r.take 512 = List.replicate 512 0 then
      let r2 := r.drop 512
      if r2 = [] then ([], endOf e)
      else if r2.length < 512 then ([], .broken)
      else ([], if r2.take 512 = List.replicate 512 0 then .clean else .broken)
    else
      match header (r.take 512) with
      | .bad => ([], .broken)
      | .extension => ([], .ext)
      | .file n =>
        let x := unpack e n (blockPadding n) (r.drop 512)
        ((r.drop 512).take n :: x.1, x.2)
termination_by b.length
decreasing_by simp only [r, List.length_drop] at *; omega

variable {S : Source} {ok : S.State → Prop} {rem : S.State → Bytes} {idle : S.State → Nat} {e : IOErr}

theorem readLoop_spec (F : Faithful S ok rem idle)
    (hE : ∀ s n e', ok s → 0 < n → (S.read s n).2.1 = some e' → e' = e) {cap n : Nat} (hcap : 0 < cap ∨ n = 0) :
    ∀ (m : Nat) (s : S.State) (got : Bytes), ok s → (rem s).length * 100 + idle s = m → got.length ≤ n →
    ∃ err s', readLoop cap n got none s = some (got ++ (rem s).take (n - got.length), err, s') ∧ ok s' ∧
      rem s' = (rem s).drop (n - got.length) ∧ (err = none ∨ err = some e ∧ rem s' = []) ∧
      ((rem s).length < n - got.length → err = some e) := by
  intro m
  induction m using Nat.strong_induction_on with
  | _ m ih =>
    intro s got hok hm hg
    rw [readLoop]
    by_cases hlt : got.length < n
    · rw [if_pos ⟨hlt, rfl⟩]
      have hk : 0 < min cap (n - got.length) := by omega
      have h1 := F.stays s _ hok hk
      have h2 := F.fits s _ hok hk
      have h3 := F.delivers s _ hok hk
      have h4 := fun e' => F.ends s _ e' hok hk
      have h5 := F.progress s _ hok hk
      have h6 := F.patience _ h1
      have h7 := fun e' => hE s _ e' hok hk
      generalize S.read s (min cap (n - got.length)) = x at *
      obtain ⟨c, err, s'⟩ := x
      simp only at h1 h2 h3 h4 h5 h6 h7 ⊢
      have hc : c.length ≤ n - got.length := by omega
      have htake : (rem s).take (n - got.length) = c ++ (rem s').take (n - (got ++ c).length) := by
        rw [h3, List.take_append, List.take_of_length_le hc, List.length_append]; congr 2; omega
      have hdrop : (rem s).drop (n - got.length) = (rem s').drop (n - (got ++ c).length) := by
        rw [h3, List.drop_append, List.drop_of_length_le hc, List.length_append]; simp only [List.nil_append]; congr 1; omega
      have hlen : (rem s).length = c.length + (rem s').length := by rw [h3, List.length_append]
      cases err with
      | some e' =>
        obtain ⟨h8, _⟩ := h4 e' rfl
        have := h7 e' rfl
        subst this
        rw [readLoop, if_neg (by simp)]
        refine ⟨some e', s', ?_, h1, ?_, Or.inr ⟨rfl, h8⟩, fun _ => rfl⟩
        · rw [htake, h8]; simp
        · rw [hdrop, h8]; simp
      | none =>
        have hdec : (rem s').length * 100 + idle s' < m := by
          rcases c with _ | ⟨a, c⟩
          · have := h5 rfl rfl
            simp only [List.length_nil] at hlen; omega
          · simp only [List.length_cons] at hlen; omega
        obtain ⟨err, s'', g1, g2, g3, g4, g5⟩ := ih _ hdec s' (got ++ c) h1 rfl (by rw [List.length_append]; omega)
        refine ⟨err, s'', ?_, g2, ?_, g4, ?_⟩
        · rw [g1, htake, List.append_assoc]
        · rw [g3, hdrop]
        · intro h; exact g5 (by rw [List.length_append]; omega)
    · rw [if_neg (by simp [hlt])]
      have : n - got.length = 0 := by omega
      rw [this]
      exact ⟨none, s, by simp, hok, by simp, Or.inl rfl, fun h => by simp at h⟩

/-- io.ReadFull -/
theorem readFull_spec (F : Faithful S ok rem idle)
    (hE : ∀ s n e', ok s → 0 < n → (S.read s n).2.1 = some e' → e' = e) (n : Nat) {s : S.State} (hok : ok s) :
    ∃ err s', readFull n s = some ((rem s).take n, err, s') ∧ ok s' ∧ rem s' = (rem s).drop n ∧
      (n ≤ (rem s).length → err = none) ∧ ((rem s).length < n → ∃ e', err = some e' ∧
        (if e' = .eof then End.clean else .broken) = if rem s = [] then endOf e else .broken) := by
  obtain ⟨err, s', h1, h2, h3, h4, h5⟩ := readLoop_spec F hE (cap := n) (n := n) (by omega) _ s [] hok rfl (by simp)
  simp only [List.length_nil, Nat.sub_zero, List.nil_append] at h1 h3 h5
  refine ⟨_, s', by rw [readFull, h1], h2, h3, ?_, ?_⟩
  · intro h
    rw [if_pos (by simp [h])]
  · intro h
    rw [h5 h, if_neg (by simp; omega), List.take_of_length_le (Nat.le_of_lt h)]
    by_cases hr : rem s = []
    · rw [if_neg (by simp [hr]), if_pos hr]
      exact ⟨e, rfl, rfl⟩
    · rw [if_neg hr]
      have hp : 0 < (rem s).length := List.length_pos_of_ne_nil hr
      by_cases he : e = .eof
      · rw [if_pos ⟨hp, by rw [he]⟩]; exact ⟨_, rfl, rfl⟩
      · rw [if_neg (by simp [he])]; exact ⟨e, rfl, if_neg he⟩

theorem tryReadFull_spec (F : Faithful S ok rem idle)
    (hE : ∀ s n e', ok s → 0 < n → (S.read s n).2.1 = some e' → e' = e) (n : Nat) {s : S.State} (hok : ok s) :
    ∃ err s', tryReadFull n s = some (err, s') ∧ ok s' ∧ rem s' = (rem s).drop n ∧
      ((rem s).length < n → err = some e) ∧ (n ≤ (rem s).length → err = none ∨ err = some e ∧ e ≠ .eof ∧ rem s' = []) := by
  obtain ⟨err, s', h1, h2, h3, h4, h5⟩ := readLoop_spec F hE (cap := n) (n := n) (by omega) _ s [] hok rfl (by simp)
  simp only [List.length_nil, Nat.sub_zero, List.nil_append] at h1 h3 h5
  refine ⟨_, s', by rw [tryReadFull, h1], h2, h3, ?_, ?_⟩
  · intro h
    rw [h5 h, if_neg]
    simp only [List.length_take]; omega
  · intro h
    rcases h4 with h4 | ⟨h4, h6⟩
    · rw [h4, if_neg (by simp)]; exact Or.inl rfl
    · by_cases he : e = .eof
      · rw [if_pos ⟨by simp [h], by rw [h4, he]⟩]; exact Or.inl rfl
      · rw [if_neg (by simp [h4, he])]; exact Or.inr ⟨h4, he, h6⟩

theorem discard_spec (F : Faithful S ok rem idle)
    (hE : ∀ s n e', ok s → 0 < n → (S.read s n).2.1 = some e' → e' = e) (n : Nat) {s : S.State} (hok : ok s) :
    ∃ err s', discard n s = some (err, s') ∧ ok s' ∧ rem s' = (rem s).drop n ∧
      (n ≤ (rem s).length → err = none) ∧ ((rem s).length < n → ∃ e', err = some e' ∧ e' ≠ .eof) := by
  obtain ⟨err, s', h1, h2, h3, h4, h5⟩ := readLoop_spec F hE (cap := 8192) (n := n) (by omega) _ s [] hok rfl (by simp)
  simp only [List.length_nil, Nat.sub_zero, List.nil_append] at h1 h3 h5
  refine ⟨_, s', by rw [discard, h1], h2, h3, ?_, ?_⟩
  · intro h
    rw [if_pos (by simp [h])]
  · intro h
    rw [h5 h, if_neg (by simp; omega)]
    by_cases he : e = .eof
    · rw [if_pos (by rw [he])]; exact ⟨_, rfl, by simp⟩
    · rw [if_neg (by simp [he])]; exact ⟨e, rfl, he⟩

theorem readBlock_spec (F : Faithful S ok rem idle)
    (hE : ∀ s n e', ok s → 0 < n → (S.read s n).2.1 = some e' → e' = e) {s : S.State} (hok : ok s) :
    ∃ b err s', readBlock s = some (b, err, s') ∧
      (rem s = [] → ∃ e', err = some e' ∧ (if e' = .eof then End.clean else .broken) = endOf e) ∧
      (rem s ≠ [] → (rem s).length < 512 → ∃ e', err = some e' ∧ e' ≠ .eof) ∧
      (512 ≤ (rem s).length → (rem s).take 512 ≠ List.replicate 512 0 →
        err = none ∧ b = (rem s).take 512 ∧ ok s' ∧ rem s' = (rem s).drop 512) ∧
      (512 ≤ (rem s).length → (rem s).take 512 = List.replicate 512 0 → ∃ e', err = some e' ∧
        (if e' = .eof then End.clean else .broken) = if (rem s).drop 512 = [] then endOf e
          else if ((rem s).drop 512).length < 512 then .broken
          else if ((rem s).drop 512).take 512 = List.replicate 512 0 then .clean else .broken) := by
  obtain ⟨err, s', h1, h2, h3, h4, h5⟩ := readFull_spec F hE 512 hok
  rw [readBlock, h1]
  by_cases hlen : 512 ≤ (rem s).length
  · rw [h4 hlen]
    simp only
    by_cases hz : (rem s).take 512 = List.replicate 512 0
    · rw [if_pos hz]
      obtain ⟨err2, s2, g1, g2, g3, g4, g5⟩ := readFull_spec F hE 512 h2
      rw [g1]
      rw [h3] at *
      have hne : rem s ≠ [] := by intro h; rw [h] at hlen; simp at hlen
      by_cases hlen2 : 512 ≤ ((rem s).drop 512).length
      · rw [g4 hlen2]
        refine ⟨_, _, _, rfl, fun h => absurd h hne, fun _ h => by omega, fun _ h => absurd hz h, fun _ _ => ⟨_, rfl, ?_⟩⟩
        have : (rem s).drop 512 ≠ [] := by intro h; rw [h] at hlen2; simp at hlen2
        rw [if_neg this, if_neg (show ¬ ((rem s).drop 512).length < 512 by omega)]
        by_cases hz2 : ((rem s).drop 512).take 512 = List.replicate 512 0
        · rw [if_pos hz2, if_pos hz2]; rfl
        · rw [if_neg hz2, if_neg hz2]; rfl
      · obtain ⟨e', g6, g7⟩ := g5 (by omega)
        rw [g6]
        refine ⟨_, _, _, rfl, fun h => absurd h hne, fun _ h => by omega, fun _ h => absurd hz h, fun _ _ => ⟨_, rfl, ?_⟩⟩
        rw [g7]
        by_cases hr : (rem s).drop 512 = []
        · rw [if_pos hr, if_pos hr]
        · rw [if_neg hr, if_neg hr, if_pos (show ((rem s).drop 512).length < 512 by omega)]
    · rw [if_neg hz]
      have hne : rem s ≠ [] := by intro h; rw [h] at hlen; simp at hlen
      exact ⟨_, _, _, rfl, fun h => absurd h hne, fun _ h => by omega, fun _ _ => ⟨rfl, rfl, h2, h3⟩, fun _ h => absurd h hz⟩
  · obtain ⟨e', h6, h7⟩ := h5 (by omega)
    rw [h6]
    refine ⟨_, _, _, rfl, fun h => ⟨_, rfl, ?_⟩, fun h _ => ⟨_, rfl, ?_⟩, fun h => absurd h hlen, fun h => absurd h hlen⟩
    · rw [h7, if_pos h]
    · rw [if_neg h] at h7
      intro he; rw [if_pos he] at h7; simp at h7

/-- what `stop` answers -/
theorem stop_eq (s : State S) (e' : IOErr) (st : S.State) : (stop s e' st).1 =
    match (if e' = .eof then End.clean else .broken) with | .clean => .eof | _ => .error := by
  unfold stop
  by_cases h : e' = .eof
  · rw [if_pos h, if_pos h]
  · rw [if_neg h, if_neg h]

theorem unpack_nil_eof_ne {e : IOErr} (h : e ≠ .eof) (nb pad : Nat) : unpack e nb pad [] = ([], .broken) := by
  rw [unpack]
  simp [endOf, h]

/-- what Next does -/
theorem next_spec (F : Faithful S ok rem idle)
    (hE : ∀ s n e', ok s → 0 < n → (S.read s n).2.1 = some e' → e' = e)
    {ext : Bytes → State S → Option (TarNext × State S)} {s : State S} (hok : ok s.st) (herr : s.err = none)
    (hx : (unpack e s.nb s.pad (rem s.st)).2 ≠ .ext) :
    match unpack e s.nb s.pad (rem s.st) with
    | ([], k) => ∃ s', next ext s = some (match k with | .clean => .eof | _ => .error, s')
    | (b :: bs, k) => ∃ s', next ext s = some (.entry, s') ∧ ok s'.st ∧ s'.err = none ∧ (rem s'.st).take s'.nb = b ∧
        unpack e s'.nb s'.pad (rem s'.st) = (bs, k) := by
  have stopped : ∀ e' st k, next ext s = some (stop s e' st) → (if e' = .eof then End.clean else .broken) = k →
      ∃ s', next ext s = some (match k with | .clean => .eof | _ => .error, s') := by
    intro e' st k h hk
    refine ⟨(stop s e' st).2, ?_⟩
    rw [h, ← hk, ← stop_eq s e' st]
  have broken : ∀ e' st, next ext s = some (stop s e' st) → e' ≠ .eof →
      ∃ s', next ext s = some (.error, s') := fun e' st h he => stopped e' st .broken h (if_neg he)
  unfold next at stopped broken ⊢
  simp only [herr] at stopped broken ⊢
  obtain ⟨err1, s1, d1, d2, d3, d4, d5⟩ := discard_spec F hE s.nb hok
  rw [d1] at stopped broken ⊢
  rw [unpack] at hx ⊢
  by_cases c1 : (rem s.st).length < s.nb
  · rw [if_pos c1]
    obtain ⟨e', h1, h2⟩ := d5 c1
    rw [h1] at stopped broken ⊢
    exact broken e' _ rfl h2
  rw [if_neg c1] at hx ⊢
  rw [d4 (by omega)] at stopped broken ⊢
  simp only at stopped broken ⊢
  obtain ⟨err2, s2, t1, t2, t3, t4, t5⟩ := tryReadFull_spec F hE s.pad d2
  rw [t1] at stopped broken ⊢
  rw [d3, List.drop_drop] at t3
  rw [d3, List.length_drop] at t4 t5
  by_cases c2 : (rem s.st).length < s.nb + s.pad
  · rw [if_pos c2]
    rw [t4 (by omega)] at stopped broken ⊢
    exact stopped e _ _ rfl rfl
  rw [if_neg c2] at hx ⊢
  generalize hr : (rem s.st).drop (s.nb + s.pad) = r at *
  rcases t5 (by omega) with t5 | ⟨t5, t6, t7⟩
  swap
  · rw [t5] at stopped broken ⊢
    rw [t7] at t3
    rw [if_pos t3.symm]
    exact stopped e _ _ rfl rfl
  rw [t5] at stopped broken ⊢
  simp only at stopped broken ⊢
  obtain ⟨b, err3, s3, r1, r2, r3, r4, r5⟩ := readBlock_spec F hE t2
  rw [r1] at stopped broken ⊢
  rw [t3] at r2 r3 r4 r5
  by_cases c3 : r = []
  · rw [if_pos c3]
    obtain ⟨e', h1, h2⟩ := r2 c3
    rw [h1] at stopped broken ⊢
    exact stopped e' _ _ rfl h2
  rw [if_neg c3] at hx ⊢
  by_cases c4 : r.length < 512
  · rw [dif_pos c4]
    obtain ⟨e', h1, h2⟩ := r3 c3 c4
    rw [h1] at stopped broken ⊢
    exact broken e' _ rfl h2
  rw [dif_neg c4] at hx ⊢
  by_cases c5 : r.take 512 = List.replicate 512 0
  · rw [if_pos c5]
    obtain ⟨e', h1, h2⟩ := r5 (by omega) c5
    rw [h1] at stopped broken ⊢
    simp only at stopped broken ⊢
    by_cases c6 : r.drop 512 = []
    · rw [if_pos c6] at h2 ⊢
      exact stopped e' _ _ rfl h2
    rw [if_neg c6] at h2 ⊢
    by_cases c7 : (r.drop 512).length < 512
    · rw [if_pos c7] at h2 ⊢
      exact stopped e' _ _ rfl h2
    rw [if_neg c7] at h2 ⊢
    exact stopped e' _ _ rfl h2
  rw [if_neg c5] at hx ⊢
  obtain ⟨h1, h2, h3, h4⟩ := r4 (by omega) c5
  rw [h1, h2] at stopped broken ⊢
  simp only at stopped broken ⊢
  cases hh : header (r.take 512) with
  | bad =>
    rw [hh] at stopped broken
    exact broken errHeader _ rfl (by decide)
  | extension => rw [hh] at hx; exact absurd rfl hx
  | file n =>
    simp only
    refine ⟨_, rfl, h3, rfl, ?_, ?_⟩
    · simp only [h4]
    · simp only [h4]

/-- reading ahead in the current entry does not change the entries to come -/
theorem unpack_advance (e : IOErr) (nb pad : Nat) (c b : Bytes) (h : c.length ≤ nb) :
    unpack e (nb - c.length) pad b = unpack e nb pad (c ++ b) := by
  rw [unpack, unpack]
  have h1 : (b.length < nb - c.length) = ((c ++ b).length < nb) := by
    rw [List.length_append]; exact propext ⟨by omega, by omega⟩
  have h2 : (b.length < nb - c.length + pad) = ((c ++ b).length < nb + pad) := by
    rw [List.length_append]; exact propext ⟨by omega, by omega⟩
  have h3 : (c ++ b).drop (nb + pad) = b.drop (nb - c.length + pad) := by
    rw [List.drop_append, List.drop_of_length_le (by omega), List.nil_append]; congr 1; omega
  simp only [h1, h2, h3]

end Radolan.TarReader
