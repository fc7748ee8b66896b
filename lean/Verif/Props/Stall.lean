/-
C62: readers that stall.
-/
import Verif.Lemmas.Stall
import Verif.Lemmas.Short
import Verif.Props.Session
import Verif.Props.Runlength

namespace Props
open Go Radolan Spec

/-- C62. A reader that delivers the bytes `b` and from then on answers every call with "no bytes, no error": NewComposite
returns what it returns for `b`, except where the data of a binary file is incomplete: then the call does not return. -/
theorem C62_stalled {E : Env} {S : Source} {s : S.State} {b : Bytes} (h : StallsAfter S s b) :
    NewCompositeReader E S s = match NewComposite E b with
      | .ret _ (some .readSingleByte) => none
      | .ret _ (some .readLittleEndian) => none
      | o => some o := by
  obtain ⟨ok, rem, idle, F, hok, rfl⟩ := h
  have hrel := newComposite_rel (Bufio.stalling_steps F (N := 4096) (by omega)) E (r := Bufio.newReader S s) (b := rem s)
    ⟨hok, rfl, by simp [Bufio.newReader], rfl⟩ Composite.zero
  unfold NewCompositeReader newCompositeFrom NewComposite newCompositeRest
  cases hm : newCompositeM E (rem s) Composite.zero with
  | ok b' c =>
    rw [hm] at hrel
    obtain ⟨r', h1, _⟩ := hrel
    rw [h1]
    simp only
    split <;> simp_all
  | err e c =>
    rw [hm] at hrel
    simp only [hrel]
    cases e <;> rfl
  | panic => rw [hm] at hrel; simp only [hrel]

theorem newComposite_no_delim (E : Env) {b : Bytes} (h : 3 ∉ b) :
    NewComposite E b = .ret Composite.zero (some .headerTooShort) := by
  have h1 : parseHeader E b Composite.zero = .err .headerTooShort Composite.zero := by
    unfold parseHeader
    rw [readDelim_none.mpr h]
    rfl
  unfold NewComposite newCompositeRest newCompositeM
  rw [M.bind_err h1]

theorem newComposite_short {E : Env} {input rest : Bytes} {h : Composite} (hh : headerOf E input = some (h, rest))
    (ha : AllocOK h) (hd : dataOf h rest = none) :
    (identifyEncoding h = .singleByte → ∃ c, NewComposite E input = .ret c (some .readSingleByte)) ∧
    (identifyEncoding h = .littleEndian → ∃ c, NewComposite E input = .ret c (some .readLittleEndian)) ∧
    (identifyEncoding h = .runlength → ∃ c e, NewComposite E input = .ret c (some e) ∧ hangs true e = false) := by
  have hp := parseHeader_eq E input
  rw [hh] at hp
  obtain ⟨he, hb⟩ := hp
  have hD : DimsOK h := ⟨⟨ha.1, ha.2.1⟩, ⟨ha.2.2.1, ha.2.2.2⟩, (header_dims hh).1⟩
  obtain ⟨s1, s2⟩ := parseData_short h rest hb hD hd
  have s3 := parseData_runlength (c := h) rest
  have s4 := parseData_eq h rest hb hD
  unfold NewComposite newCompositeRest newCompositeM
  rw [M.bind_ok he]
  refine ⟨fun hi => ?_, fun hi => ?_, fun hi => ?_⟩
  · obtain ⟨c', h1⟩ := s1 hi
    rw [M.bind_err h1]
    exact ⟨c', rfl⟩
  · obtain ⟨c', h1⟩ := s2 hi
    rw [M.bind_err h1]
    exact ⟨c', rfl⟩
  · unfold StageV at s4
    rw [hd] at s4
    obtain ⟨e, c', h1, _⟩ := s4
    rw [M.bind_err h1]
    exact ⟨c', e, rfl, s3 hi e c' h1⟩

/-- C62 (finding). A transfer of a complete file stalls after `m` bytes, before the end. If the header is incomplete, or
if the file is run-length coded, NewComposite gives up with an error; if the header is complete and the file is binary,
the call does not return. -/
theorem C62_stalled_file {E : Env} {fs : List Field} {data : Bytes} {c : Composite} {m : Nat} {S : Source} {s : S.State}
    (hw : ∀ f ∈ fs, f.WF) (hf : FileOf E (file fs data) c) (hm : m < (file fs data).length)
    (hs : StallsAfter S s ((file fs data).take m)) :
    (m ≤ (header fs).length ∨ value fs (str "LV") ≠ none →
      ∃ c' e, NewCompositeReader E S s = some (.ret c' (some e)) ∧ e ≠ .unknownUnit) ∧
    ((header fs).length < m → value fs (str "LV") = none → NewCompositeReader E S s = none) := by
  have hS : Success E (file fs data) c := Or.inl hf.1
  obtain ⟨h, rows, rest', hh, ha, hd, rfl, hfl, _⟩ := success_fields hw hS
  obtain ⟨n, hn, t1, t2⟩ := C16_truncation hS
  have hlen : (file fs data).length ≤ n := by
    by_contra hlt
    refine hf.2 n (by omega) (finish E h rows) ?_
    unfold Success
    rw [t1 n (le_refl _)]
    exact hS
  obtain ⟨c1, e1, hfail, hne⟩ := t2 m (by omega)
  have hst := C62_stalled (E := E) hs
  by_cases hmh : m ≤ (header fs).length
  · have hnd : (3 : UInt8) ∉ (file fs data).take m := by
      have : (file fs data).take m = (header fs).take m := by
        unfold file
        rw [List.append_assoc, List.take_append_of_le_length hmh]
      rw [this]
      exact fun hc => header_no_delim hw (List.mem_of_mem_take hc)
    rw [newComposite_no_delim E hnd] at hst
    exact ⟨fun _ => ⟨_, _, hst, by decide⟩, fun h => by omega⟩
  · have hmh' : (header fs).length < m := by omega
    have htake : (file fs data).take m = file fs (data.take (m - ((header fs).length + 1))) := by
      unfold file
      rw [List.take_append, List.take_of_length_le (by simp; omega)]
      simp
    rw [htake] at hfail hst
    obtain ⟨p1, q1, q2, _⟩ := headerOf_local E _ _ _ hh
    have hp1 : p1 = header fs ++ [3] := by
      unfold file at q1
      exact (List.append_cancel_right q1).symm
    subst hp1
    have hh2 : headerOf E (file fs (data.take (m - ((header fs).length + 1)))) = some (h, data.take (m - ((header fs).length + 1))) := q2 _
    have hd2 : dataOf h (data.take (m - ((header fs).length + 1))) = none := by
      cases hx : dataOf h (data.take (m - ((header fs).length + 1))) with
      | none => rfl
      | some x =>
        exfalso
        have := newComposite_of_parts hh2 ha (rows := x.1) (rest' := x.2) hx
        rw [hfail, Outcome.ret.injEq] at this
        have h2 := this.2
        split at h2
        · simp only [Option.some.injEq] at h2
          exact hne h2
        · simp at h2
    obtain ⟨s1, s2, s3⟩ := newComposite_short hh2 ha hd2
    constructor
    · rintro (h0 | hLV)
      · omega
      · obtain ⟨v, hv⟩ := Option.ne_none_iff_exists'.mp hLV
        obtain ⟨l, hl⟩ := level_some hfl hv
        have hi : identifyEncoding h = .runlength := by
          unfold identifyEncoding
          rw [hl]; rfl
        obtain ⟨c2, e2, h5, h6⟩ := s3 hi
        rw [h5] at hfail
        rw [h5] at hst
        simp only [Outcome.ret.injEq, Option.some.injEq] at hfail
        obtain ⟨-, rfl⟩ := hfail
        refine ⟨c2, e2, ?_, hne⟩
        rw [hst]
        cases e2 <;> first | rfl | exact absurd h6 (by decide)
    · intro _ hLV
      have hl := level_none hfl hLV
      cases hi : identifyEncoding h with
      | runlength =>
        unfold identifyEncoding at hi
        rw [hl] at hi
        simp only [Option.isSome_none, Bool.false_eq_true, if_false] at hi
        split at hi
        · simp at hi
        · split at hi <;> simp at hi
      | unknown => unfold dataOf at hd; rw [hi] at hd; simp at hd
      | singleByte =>
        obtain ⟨c2, h5⟩ := s1 hi
        rw [hst, h5]
      | littleEndian =>
        obtain ⟨c2, h5⟩ := s2 hi
        rw [hst, h5]

/-- C62. Every scripted reader that never reports its end stalls after its chunks, as in C17_scripts. -/
theorem C62_scripts {cs : List Bytes} (h : Lively cs) : StallsAfter stallScript cs cs.flatten := by
  refine ⟨Lively, List.flatten, fun cs => (cs.takeWhile List.isEmpty).length, ?_, h, rfl⟩
  have key : ∀ (cs : List Bytes) (n : Nat), Lively cs → 0 < n →
      Lively (stallRead cs n).2.2 ∧ (stallRead cs n).1.length ≤ n ∧
      cs.flatten = (stallRead cs n).1 ++ List.flatten (stallRead cs n).2.2 ∧
      (stallRead cs n).2.1 = none ∧
      (cs.flatten ≠ [] → (stallRead cs n).1 = [] →
        (List.takeWhile List.isEmpty (stallRead cs n).2.2).length < (cs.takeWhile List.isEmpty).length) := by
    intro cs n h hn
    rcases cs with _ | ⟨c, cs⟩
    · exact ⟨h, Nat.zero_le _, rfl, rfl, fun h => absurd rfl h⟩
    · by_cases hc : c.length ≤ n
      · have hr : stallRead (c :: cs) n = (c, none, cs) := by
          show (if c.length ≤ n then _ else _) = _
          rw [if_pos hc]
        rw [hr]
        refine ⟨lively_tail h, hc, by simp, rfl, ?_⟩
        intro _ hc'
        have hc'' : c = [] := hc'
        subst hc''
        rw [List.takeWhile_cons_of_pos (a := []) rfl]
        simp
      · have hr : stallRead (c :: cs) n = (c.take n, none, c.drop n :: cs) := by
          show (if c.length ≤ n then _ else _) = _
          rw [if_neg hc]
        rw [hr]
        refine ⟨lively_head h ?_, by simp, by simp [← List.append_assoc], rfl, ?_⟩
        · intro h0; have := congrArg List.length h0; simp at this; omega
        · intro _ h0
          have h0' : c.take n = [] := h0
          have := congrArg List.length h0'
          rw [List.length_take, List.length_nil] at this; omega
  exact ⟨fun (s : List Bytes) n h hn => (key s n h hn).1, fun s n h hn => (key s n h hn).2.1,
    fun s n h hn => (key s n h hn).2.2.1, fun s n h hn => (key s n h hn).2.2.2.1,
    fun s n h hn => (key s n h hn).2.2.2.2, fun s h => h s (List.suffix_refl s)⟩

/-- the RX sample stalls one byte before its end, and in its header -/
example : NewCompositeReader env0 stallScript [sampleRX.take 20, sampleRX.take 51 |>.drop 20] = none ∧
    ∃ c e, NewCompositeReader env0 stallScript [sampleRX.take 20] = some (.ret c (some e)) := by
  have hl : ∀ cs : List Bytes, (∀ q ∈ cs.tails, (q.takeWhile List.isEmpty).length < 100) → Lively cs :=
    fun cs h q hq => h q ((List.mem_tails _ _).mpr hq)
  obtain ⟨⟨c, hc⟩, _⟩ := sample_files
  have hfile : sampleRX.take 52 = file fieldsRX [10, 20, 30, 40, 250, 60] := by decide
  rw [hfile] at hc
  have h1 := C62_scripts (cs := [sampleRX.take 20, sampleRX.take 51 |>.drop 20]) (hl _ (by decide +kernel))
  have h2 := C62_scripts (cs := [sampleRX.take 20]) (hl _ (by decide +kernel))
  have e1 : [sampleRX.take 20, sampleRX.take 51 |>.drop 20].flatten =
    (file fieldsRX [10, 20, 30, 40, 250, 60]).take 51 := by decide
  have e2 : [sampleRX.take 20].flatten = (file fieldsRX [10, 20, 30, 40, 250, 60]).take 20 := by decide
  rw [e1] at h1
  rw [e2] at h2
  refine ⟨(C62_stalled_file fieldsRX_wf hc (by decide) h1).2 (by decide) (by decide), ?_⟩
  obtain ⟨c', e, h, _⟩ := (C62_stalled_file fieldsRX_wf hc (by decide) h2).1 (Or.inl (by decide))
  exact ⟨c', e, h⟩

end Props
