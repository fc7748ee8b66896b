/-
C17: the result of NewComposite depends only on the bytes the reader delivers.
-/
import Verif.Lemmas.Reader
import Verif.Props.Archive

namespace Props
open Go Radolan Spec

/-- C17. NewComposite returns for every io.Reader that delivers a finite byte sequence `b`, however it splits it into
chunks and however often (up to 99 times in a row) it delivers nothing, and the result is that for `b`. -/
theorem C17_reader {E : Env} {S : Source} {s : S.State} {b : Bytes} (h : Delivers S s b) :
    NewCompositeReader E S s = some (NewComposite E b) := by
  obtain ⟨ok, rem, idle, F, hok, rfl⟩ := h
  exact newCompositeFrom_eq F E (by omega) ⟨hok, rfl, by simp [Bufio.newReader], by simp [Bufio.newReader]⟩

/-- C17. Two readers that deliver the same bytes give the same result. -/
theorem C17_chunking {E : Env} {S T : Source} {s : S.State} {t : T.State} {b : Bytes} (hs : Delivers S s b)
    (ht : Delivers T t b) : NewCompositeReader E S s = NewCompositeReader E T t := by
  rw [C17_reader hs, C17_reader ht]

/-- C17. If the caller passes a *bufio.Reader with a buffer of at least 4096 bytes, bufio.NewReader returns that reader
itself: the result is that for its unread bytes followed by what the underlying reader still delivers. -/
theorem C17_bufio_reader {E : Env} {S : Source} {N : Nat} (hN : 4096 ≤ N) {r : Bufio.Reader S} {b : Bytes}
    (hs : Delivers S r.st b) (hbuf : r.buf.length ≤ N) (herr : r.err = none) :
    newCompositeFrom E N r = some (NewComposite E (r.buf ++ b)) := by
  obtain ⟨ok, rem, idle, F, hok, rfl⟩ := hs
  exact newCompositeFrom_eq F E (by omega) ⟨hok, rfl, hbuf, by simp [herr]⟩

theorem lively_tail {c : Bytes} {cs : List Bytes} (h : Lively (c :: cs)) : Lively cs :=
  fun q hq => h q (hq.trans (List.suffix_cons c cs))

theorem lively_head {c c' : Bytes} {cs : List Bytes} (h : Lively (c :: cs)) (hc : c' ≠ []) : Lively (c' :: cs) := by
  intro q hq
  rcases List.suffix_cons_iff.mp hq with rfl | hq
  · rw [List.takeWhile_cons_of_neg]
    · simp
    · simpa using hc
  · exact lively_tail h q hq

theorem script_faithful {e : IOErr} (he : e ≠ .bufferFull) (w : Bool) :
    Faithful (script e w) Lively List.flatten (fun cs : List Bytes => (cs.takeWhile List.isEmpty).length) := by
  have hnil : Lively [] := by
    intro q hq
    rw [List.suffix_nil.mp hq]; simp
  have key : ∀ (cs : List Bytes) (n : Nat), Lively cs → 0 < n →
      Lively (scriptRead e w cs n).2.2 ∧ (scriptRead e w cs n).1.length ≤ n ∧
      cs.flatten = (scriptRead e w cs n).1 ++ List.flatten (scriptRead e w cs n).2.2 ∧
      (∀ e', (scriptRead e w cs n).2.1 = some e' → List.flatten (scriptRead e w cs n).2.2 = [] ∧ e' ≠ .bufferFull) ∧
      ((scriptRead e w cs n).2.1 = none → (scriptRead e w cs n).1 = [] →
        (List.takeWhile List.isEmpty (scriptRead e w cs n).2.2).length < (cs.takeWhile List.isEmpty).length) := by
    intro cs n h hn
    rcases cs with _ | ⟨c, _ | ⟨c2, cs⟩⟩
    · show Lively [] ∧ ([] : Bytes).length ≤ n ∧ _ ∧ (∀ e', some e = some e' → _) ∧ (some e = none → _)
      refine ⟨hnil, by simp, rfl, ?_, by simp⟩
      rintro e' ⟨⟩
      exact ⟨rfl, he⟩
    · by_cases hc : c.length ≤ n
      · have hr : scriptRead e w [c] n = (c, if w then some e else none, []) := by
          show (if c.length ≤ n then _ else _) = _
          rw [if_pos hc]
        rw [hr]
        refine ⟨hnil, hc, by simp, ?_, ?_⟩
        · intro e' he'
          refine ⟨rfl, ?_⟩
          cases w
          · simp at he'
          · simp only [if_true, Option.some.injEq] at he'
            subst he'; exact he
        · intro _ hc'
          have hc'' : c = [] := hc'
          subst hc''
          simp
      · have hr : scriptRead e w [c] n = (c.take n, none, [c.drop n]) := by
          show (if c.length ≤ n then _ else _) = _
          rw [if_neg hc]
        rw [hr]
        refine ⟨lively_head h ?_, by simp, by simp [← List.append_assoc], by simp, ?_⟩
        · intro h0; have := congrArg List.length h0; simp at this; omega
        · intro _ h0
          have h0' : c.take n = [] := h0
          have := congrArg List.length h0'
          rw [List.length_take, List.length_nil] at this; omega
    · by_cases hc : c.length ≤ n
      · have hr : scriptRead e w (c :: c2 :: cs) n = (c, none, c2 :: cs) := by
          show (if c.length ≤ n then _ else _) = _
          rw [if_pos hc]
        rw [hr]
        refine ⟨lively_tail h, hc, by simp, by simp, ?_⟩
        intro _ hc'
        have hc'' : c = [] := hc'
        subst hc''
        rw [List.takeWhile_cons_of_pos (a := []) rfl]
        simp
      · have hr : scriptRead e w (c :: c2 :: cs) n = (c.take n, none, c.drop n :: c2 :: cs) := by
          show (if c.length ≤ n then _ else _) = _
          rw [if_neg hc]
        rw [hr]
        refine ⟨lively_head h ?_, by simp, by simp [← List.append_assoc], by simp, ?_⟩
        · intro h0; have := congrArg List.length h0; simp at this; omega
        · intro _ h0
          have h0' : c.take n = [] := h0
          have := congrArg List.length h0'
          rw [List.length_take, List.length_nil] at this; omega
  exact ⟨fun (s : List Bytes) n h hn => (key s n h hn).1, fun s n h hn => (key s n h hn).2.1, fun s n h hn => (key s n h hn).2.2.1,
    fun s n e' h hn => (key s n h hn).2.2.2.1 e', fun s n h hn => (key s n h hn).2.2.2.2,
    fun s h => h s (List.suffix_refl s)⟩

/-- C17. Every scripted reader delivers its chunks: whatever the chunks, whichever of them are empty (but not a hundred
in a row), whichever error ends the input, and whether or not the error comes with the last chunk. -/
theorem C17_scripts {e : IOErr} (he : e ≠ .bufferFull) (w : Bool) {cs : List Bytes} (h : Lively cs) :
    Delivers (script e w) cs cs.flatten :=
  ⟨Lively, List.flatten, _, script_faithful he w, h, rfl⟩

/-- the RX sample delivered byte by byte with an empty read before each byte, and in one piece together with io.EOF -/
example : NewCompositeReader env0 (script (.other 1) false) (sampleRX.flatMap fun b => [[], [b]]) =
      NewCompositeReader env0 (script .eof true) [sampleRX] ∧
    ∃ c, NewCompositeReader env0 (script .eof true) [sampleRX] = some (.ret c none) := by
  have h1 : Delivers (script (.other 1) false) (sampleRX.flatMap fun b => [[], [b]]) sampleRX := by
    have := C17_scripts (e := .other 1) (by simp) false (cs := sampleRX.flatMap fun b => [[], [b]]) ?_
    · have h : (sampleRX.flatMap fun b => [[], [b]]).flatten = sampleRX := by decide +kernel
      rwa [h] at this
    · intro q hq
      have h : ∀ q ∈ (sampleRX.flatMap fun b => [[], [b]]).tails, (q.takeWhile List.isEmpty).length < 100 := by
        decide +kernel
      exact h q ((List.mem_tails _ _).mpr hq)
  have h2 : Delivers (script .eof true) [sampleRX] sampleRX := by
    have := C17_scripts (e := .eof) (by simp) true (cs := [sampleRX]) ?_
    · have h : [sampleRX].flatten = sampleRX := by decide +kernel
      rwa [h] at this
    · intro q hq
      have h : ∀ q ∈ [sampleRX].tails, (q.takeWhile List.isEmpty).length < 100 := by decide +kernel
      exact h q ((List.mem_tails _ _).mpr hq)
  refine ⟨C17_chunking h1 h2, ?_⟩
  rw [C17_reader h2]
  obtain ⟨c, h, _⟩ := sampleRX_at
  exact ⟨c, by rw [show NewComposite env0 sampleRX = _ from h]⟩

end Props
