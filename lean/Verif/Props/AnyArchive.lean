/-
C96: what NewComposites makes of every archive.
-/
import Verif.Props.ExitStatus
import Verif.Props.Archive
import Verif.Spec.ArchiveStatus

namespace Props
open Go Radolan Radolan.Any
open _root_.Spec

theorem file_inj {H H' : Head} {data data' : Bytes} (h : (3 : UInt8) ∉ H.text) (h' : (3 : UInt8) ∉ H'.text)
    (e : H.file data = H'.file data') : H.text = H'.text ∧ data = data' := by
  have d : ∀ {K : Head} (x : Bytes), (3 : UInt8) ∉ K.text → readDelim 3 (K.file x) = some (K.text ++ [3], x) := by
    intro K x hk
    rw [readDelim_some]
    exact ⟨K.text, rfl, by simp [Head.file], hk⟩
  have h1 := d data h
  rw [e, d data' h'] at h1
  simp only [Option.some.injEq, Prod.mk.injEq] at h1
  exact ⟨(List.append_cancel_right h1.1).symm, h1.2.symm⟩

/-- one entry -/
theorem entry_verdict (E : Env) (b : Bytes) :
    ((∃ c, NewComposite E b = .ret c none) ↔ GoodEntry E.isUpperNA b) ∧
    (NewComposite E b = .panic ↔ ImpossibleEntry E.isUpperNA b) ∧
    ∀ text, (∃ c e, NewComposite E b = .ret c (some e) ∧ e.text = text) ↔ BadEntry E.isUpperNA b text := by
  rcases C93_every_input E b with ⟨H, data, hU, rfl⟩ | ⟨h3, c, e, hn, ht⟩
  · have uniq : ∀ {H' data'}, Understood E.isUpperNA H' → H.file data = H'.file data' → H' = H ∧ data' = data := by
      intro H' data' hU' e
      obtain ⟨e1, e2⟩ := file_inj hU.1 hU'.1 e
      exact ⟨(C93_one_reading hU hU' e1).symm, e2.symm⟩
    obtain ⟨k1, k2, k3⟩ := C93_verdict E hU data
    have h3 : (3 : UInt8) ∈ H.file data := by simp [Head.file]
    refine ⟨⟨?_, ?_⟩, ⟨?_, ?_⟩, fun text => ⟨?_, ?_⟩⟩
    · rintro ⟨c, hc⟩
      exact ⟨H, data, hU, rfl, k1.mp ⟨c, Or.inl hc⟩, (listed_iff hU hc (Or.inl rfl)).mp rfl⟩
    · rintro ⟨H', data', hU', e, hF, hL⟩
      obtain ⟨rfl, rfl⟩ := uniq hU' e
      obtain ⟨c, hS⟩ := k1.mpr hF
      rcases hS with hS | hS
      · exact ⟨c, hS⟩
      · exact absurd ((listed_iff hU hS (Or.inr rfl)).mpr hL) (by simp)
    · intro h
      obtain ⟨n, rows, cols, a, b⟩ := k2.mp h
      exact ⟨H, data, n, rows, cols, hU, rfl, a, b⟩
    · rintro ⟨H', data', n, rows, cols, hU', e, a, b⟩
      obtain ⟨rfl, rfl⟩ := uniq hU' e
      exact k2.mpr ⟨n, rows, cols, a, b⟩
    · rintro ⟨c, e, hn, ht⟩
      refine Or.inr ⟨H, data, hU, rfl, ?_⟩
      by_cases he : e = .unknownUnit
      · subst he
        refine Or.inr ⟨k1.mp ⟨c, Or.inr hn⟩, fun hL => ?_, ht.symm⟩
        exact absurd ((listed_iff hU hn (Or.inr rfl)).mpr hL) (by simp)
      · exact Or.inl ((k3 text).mp ⟨c, e, hn, he, ht⟩)
    · rintro (⟨g, _⟩ | ⟨H', data', hU', e, g⟩)
      · exact absurd h3 g
      · obtain ⟨rfl, rfl⟩ := uniq hU' e
        rcases g with g | ⟨hF, hL, rfl⟩
        · obtain ⟨c, e, h1, _, h2⟩ := (k3 text).mpr g
          exact ⟨c, e, h1, h2⟩
        · obtain ⟨c, hS⟩ := k1.mpr hF
          rcases hS with hS | hS
          · exact absurd ((listed_iff hU hS (Or.inl rfl)).mp rfl) hL
          · exact ⟨c, _, hS, rfl⟩
  · have hno : ∀ {H : Head} {data : Bytes}, b ≠ H.file data := by
      rintro H data rfl
      exact h3 (by simp [Head.file])
    refine ⟨⟨?_, ?_⟩, ⟨?_, ?_⟩, fun text => ⟨?_, ?_⟩⟩
    · rintro ⟨c', hc⟩; rw [hn] at hc; simp at hc
    · rintro ⟨H, data, _, e, _⟩; exact absurd e hno
    · intro h; rw [hn] at h; simp at h
    · rintro ⟨H, data, _, _, _, _, e, _⟩; exact absurd e hno
    · rintro ⟨c', e', hn', rfl⟩
      rw [hn] at hn'
      simp only [Outcome.ret.injEq, Option.some.injEq] at hn'
      obtain ⟨rfl, rfl⟩ := hn'
      exact Or.inl ⟨h3, ht⟩
    · rintro (⟨_, rfl⟩ | ⟨H, data, _, e, _⟩)
      · exact ⟨c, e, hn, ht⟩
      · exact absurd e hno

theorem readEntries_panic {E : Env} {damaged : Bool} {l : List Bytes} : readEntries E damaged l = none ↔
    ∃ pre b post, l = pre ++ b :: post ∧ (∀ p ∈ pre, ∃ c, NewComposite E p = .ret c none) ∧ NewComposite E b = .panic := by
  induction l with
  | nil =>
    unfold readEntries
    constructor
    · intro h; split at h <;> simp at h
    · rintro ⟨pre, b, post, h, _⟩; simp at h
  | cons x l ih =>
    unfold readEntries
    cases hx : NewComposite E x with
    | panic =>
      exact ⟨fun _ => ⟨[], x, l, rfl, by simp, hx⟩, fun _ => rfl⟩
    | ret c o =>
      have hcons : ∀ {pre b post}, x :: l = pre ++ b :: post → NewComposite E b = .panic →
          ∃ pre', pre = x :: pre' ∧ l = pre' ++ b :: post := by
        intro pre b post h hb
        cases pre with
        | nil =>
          simp only [List.nil_append, List.cons.injEq] at h
          rw [← h.1, hx] at hb
          simp at hb
        | cons y pre =>
          simp only [List.cons_append, List.cons.injEq] at h
          obtain ⟨rfl, rfl⟩ := h
          exact ⟨pre, rfl, rfl⟩
      cases o with
      | some e =>
        simp only [reduceCtorEq, false_iff]
        rintro ⟨pre, b, post, h, hp, hb⟩
        obtain ⟨pre', rfl, _⟩ := hcons h hb
        obtain ⟨c', hc'⟩ := hp x (by simp)
        rw [hx] at hc'
        simp at hc'
      | none =>
        simp only
        have : (∃ pre b post, x :: l = pre ++ b :: post ∧ (∀ p ∈ pre, ∃ c, NewComposite E p = .ret c none) ∧
            NewComposite E b = .panic) ↔ readEntries E damaged l = none := by
          rw [ih]
          constructor
          · rintro ⟨pre, b, post, h, hp, hb⟩
            obtain ⟨pre', rfl, rfl⟩ := hcons h hb
            exact ⟨pre', b, post, rfl, fun p hq => hp p (by simp [hq]), hb⟩
          · rintro ⟨pre, b, post, rfl, hp, hb⟩
            refine ⟨x :: pre, b, post, rfl, ?_, hb⟩
            intro p hq
            rcases List.mem_cons.mp hq with rfl | hq
            · exact ⟨c, hx⟩
            · exact hp p hq
        rw [this]
        cases readEntries E damaged l with
        | none => simp
        | some r => cases r <;> simp

/-- C96. What NewComposites makes of an archive is decided by the bytes of its entries, whatever they are. It succeeds
exactly if the archive is intact and all entries are good; otherwise the first entry that is not good decides: the error
names what is wrong with it, or the program panics because of its dimensions; a damaged archive is an error if all entries
before the damage are good. -/
theorem C96_archive_verdict (E : Env) {sortSlice : (Composite → Composite → Bool) → List Composite → List Composite}
    (hs : IsSortSlice sortSlice) (a : Archive) :
      ((∃ cs, NewComposites E sortSlice a = some (.ok cs)) ↔
        a.damaged = false ∧ ∀ b ∈ a.entries, GoodEntry E.isUpperNA b) ∧
      (∀ text, (∃ e, NewComposites E sortSlice a = some (.error (.composite e)) ∧ e.text = text) ↔
        ∃ b, FirstNotGood E.isUpperNA a.entries b ∧ BadEntry E.isUpperNA b text) ∧
      (NewComposites E sortSlice a = none ↔
        ∃ b, FirstNotGood E.isUpperNA a.entries b ∧ ImpossibleEntry E.isUpperNA b) ∧
      (NewComposites E sortSlice a = some (.error .tar) ↔
        a.damaged = true ∧ ∀ b ∈ a.entries, GoodEntry E.isUpperNA b) := by
  have key := entry_verdict E
  have h28 := (C28_sorted_permutation (E := E) hs a).1
  have h29 := C29_all_or_nothing (E := E) (sortSlice := sortSlice) a
  refine ⟨?_, fun text => ⟨?_, ?_⟩, ?_, ?_⟩
  · rw [h28]
    simp only [(key _).1]
  · rintro ⟨e, he, rfl⟩
    obtain ⟨pre, b, post, c, h1, h2, h3⟩ := (h29.1 e).mp he
    exact ⟨b, ⟨pre, post, h1, fun p hp => (key p).1.mp (h2 p hp)⟩, ((key b).2.2 _).mp ⟨c, e, h3, rfl⟩⟩
  · rintro ⟨b, ⟨pre, post, h1, h2⟩, h3⟩
    obtain ⟨c, e, h4, h5⟩ := ((key b).2.2 _).mpr h3
    exact ⟨e, (h29.1 e).mpr ⟨pre, b, post, c, h1, fun p hp => (key p).1.mpr (h2 p hp), h4⟩, h5⟩
  · have : NewComposites E sortSlice a = none ↔ readEntries E a.damaged a.entries = none := by
      unfold NewComposites
      split <;> simp_all
    rw [this, readEntries_panic]
    simp only [(key _).1, (key _).2.1]
    constructor
    · rintro ⟨pre, b, post, h1, h2, h3⟩; exact ⟨b, ⟨pre, post, h1, h2⟩, h3⟩
    · rintro ⟨b, ⟨pre, post, h1, h2⟩, h3⟩; exact ⟨pre, b, post, h1, h2, h3⟩
  · rw [h29.2]
    simp only [(key _).1]

/-- C96. The composites of an archive are one for each entry, in ascending order of forecast time, and each has the
attributes and pixels its entry states (C94). -/
theorem C96_archive_contents {E : Env} {sortSlice : (Composite → Composite → Bool) → List Composite → List Composite}
    (hs : IsSortSlice sortSlice) {a : Archive} {cs : List Composite} (h : NewComposites E sortSlice a = some (.ok cs)) :
      (∃ ps, cs.Perm ps ∧ List.Forall₂ (fun b c => ∃ H data, Understood E.isUpperNA H ∧ b = H.file data ∧ H.Attributes c ∧
        (H.val (str "LV") = none → H.Bytewise data c) ∧
        ∀ v, H.val (str "LV") = some v → Head.Linewise v data c) a.entries ps) ∧
      cs.Pairwise fun x y => x.forecastTime ≤ y.forecastTime := by
  obtain ⟨_, ⟨ps, hp, hq⟩, hord⟩ := (C28_sorted_permutation (E := E) hs a).2 cs h
  refine ⟨⟨ps, hq, hp.imp ?_⟩, List.pairwise_iff_getElem.mpr fun i j hi hj hij => hord i j hi hj hij⟩
  intro b c hc
  have hS : Success E b c := Or.inl hc
  obtain ⟨H, data, hU, rfl⟩ := C93_accepted hS
  exact ⟨H, data, hU, rfl, C94_attributes hU hS, fun hl => C94_pixels hU hS hl, fun v hv => C94_lines hU hS hv⟩

/-! ### concrete archives -/

theorem odd_good (data : Bytes) (h : data.length = 6) : GoodEntry env0.isUpperNA (oddHead.file data) :=
  ⟨oddHead, data, oddHead_understood _, rfl, odd_fine data h, .dBZ, by decide⟩

/-- two good entries: a list of two composites -/
example {sortSlice : (Composite → Composite → Bool) → List Composite → List Composite} (hs : IsSortSlice sortSlice)
    (d1 d2 : Bytes) (h1 : d1.length = 6) (h2 : d2.length = 6) :
    ∃ cs, NewComposites env0 sortSlice ⟨[oddHead.file d1, oddHead.file d2], false⟩ = some (.ok cs) := by
  refine (C96_archive_verdict env0 hs _).1.mpr ⟨rfl, ?_⟩
  intro b hb
  simp only [List.mem_cons, List.not_mem_nil, or_false] at hb
  rcases hb with rfl | rfl
  · exact odd_good d1 h1
  · exact odd_good d2 h2

/-- a readme between them: the whole archive is refused, damaged or not, whatever comes after -/
example {sortSlice : (Composite → Composite → Bool) → List Composite → List Composite} (hs : IsSortSlice sortSlice)
    (d1 : Bytes) (h1 : d1.length = 6) (more : List Bytes) (damaged : Bool) :
    ∃ e, NewComposites env0 sortSlice ⟨oddHead.file d1 :: str "readme" :: more, damaged⟩ = some (.error (.composite e)) ∧
      e.text = "radolan.parseHeader: header corrupted: too short" := by
  refine ((C96_archive_verdict env0 hs _).2.1 _).mpr ⟨str "readme", ⟨[oddHead.file d1], more, rfl, ?_⟩, Or.inl ⟨by decide, rfl⟩⟩
  intro p hp
  simp only [List.mem_cons, List.not_mem_nil, or_false] at hp
  subst hp
  exact odd_good d1 h1

end Props
