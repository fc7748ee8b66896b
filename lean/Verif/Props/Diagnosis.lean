/-
C78: an error names the first thing that is wrong with the file.
-/
import Verif.Lemmas.LongHeader

namespace Props
open Go Radolan Spec

theorem arrangeData_no_err (c : Composite) : (arrangeData c).Sat (fun _ _ => True) (fun _ _ => False) True := by
  unfold arrangeData
  simp only [M.get_bind]
  split
  · trivial
  · have hP : ∀ {α β : Type} (o : Option α) (k : α → M β) (c : Composite), (∀ a c, (k a c).Sat (fun _ _ => True) (fun _ _ => False) True) →
        ((M.orPanic o >>= k) c).Sat (fun _ _ => True) (fun _ _ => False) True := by
      intro α β o k c h
      cases o with
      | none => trivial
      | some a => exact h a c
    split
    · split
      · trivial
      · exact hP _ _ _ (fun _ _ => hP _ _ _ (fun _ _ => trivial))
    · refine hP _ _ _ ?_
      intro l c'
      rw [pureM_bind]
      exact hP _ _ _ (fun _ _ => trivial)

/-- an error comes from the header or from the data section -/
theorem error_source {E : Env} {input : Bytes} {c : Composite} {e : Err} (h : NewComposite E input = .ret c (some e))
    (he : e ≠ .unknownUnit) : parseHeader E input Composite.zero = .err e c ∨
      ∃ rest hd, parseHeader E input Composite.zero = .ok rest hd ∧ parseData rest hd = .err e c := by
  unfold NewComposite newCompositeRest newCompositeM at h
  cases hp : parseHeader E input Composite.zero with
  | panic => rw [M.bind_panic hp] at h; simp at h
  | err e' c' =>
    rw [M.bind_err hp] at h
    simp only [Outcome.ret.injEq, Option.some.injEq] at h
    obtain ⟨rfl, rfl⟩ := h
    exact Or.inl rfl
  | ok rest hd =>
    rw [M.bind_ok hp] at h
    right
    refine ⟨rest, hd, rfl, ?_⟩
    cases hq : parseData rest hd with
    | panic => rw [M.bind_panic hq] at h; simp at h
    | err e' c' =>
      rw [M.bind_err hq] at h
      simp only [Outcome.ret.injEq, Option.some.injEq] at h
      obtain ⟨rfl, rfl⟩ := h
      rfl
    | ok rest' hd' =>
      rw [M.bind_ok hq] at h
      have ha := arrangeData_no_err hd'
      cases har : arrangeData hd' with
      | panic => rw [M.bind_panic har] at h; simp at h
      | err e' c' => rw [har] at ha; exact ha.elim
      | ok u c' =>
        rw [M.bind_ok har] at h
        simp only [M.modify_bind, pureM_apply, Outcome.ret.injEq] at h
        obtain ⟨_, h2⟩ := h
        split at h2
        · simp only [Option.some.injEq] at h2; exact absurd h2.symm he
        · simp at h2

/-- no error means that header and data section are read -/
theorem accepted_source {E : Env} {input : Bytes} {c : Composite} {o : Option Err} (h : NewComposite E input = .ret c o)
    (ho : o = none ∨ o = some .unknownUnit) :
    ∃ rest hd rest' hd', parseHeader E input Composite.zero = .ok rest hd ∧ parseData rest hd = .ok rest' hd' := by
  have hS : Radolan.Parsed E input c := by
    rcases ho with rfl | rfl
    exacts [Or.inl h, Or.inr h]
  obtain ⟨hd, rest, rows, rest', hh, ha, hd', rfl⟩ := parsed_iff.mp hS
  have hp := parseHeader_eq E input
  rw [hh] at hp
  obtain ⟨he, hb⟩ := hp
  have hdims := header_dims hh
  have hD : DimsOK hd := ⟨⟨ha.1, ha.2.1⟩, ⟨ha.2.2.1, ha.2.2.2⟩, hdims.1⟩
  have hpd := parseData_eq hd rest hb hD
  unfold StageV GoodRes at hpd
  rw [hd'] at hpd
  exact ⟨_, _, _, _, he, hpd.1⟩

/-- a parsed header, in terms of the file -/
theorem header_source {E : Env} {fs : List Field} (hw : ∀ f ∈ fs, f.WF) {data rest : Bytes} {hd : Composite}
    (h : parseHeader E (file fs data) Composite.zero = .ok rest hd) :
    rest = data ∧ Passed (headerChecks fs) ∧ ∃ n, Announces fs n ∧ Declares fs hd.py hd.px ∧
      (parseData data hd).Sat (fun _ _ => Passed (dataChecks fs n hd.py hd.px data))
        (fun e _ => FirstFailing (dataChecks fs n hd.py hd.px data) e.text) True := by
  have hp := parseHeader_eq E (file fs data)
  cases hh : headerOf E (file fs data) with
  | none =>
    rw [hh] at hp
    obtain ⟨e, c, he, _⟩ := hp
    rw [h] at he; simp at he
  | some q =>
    obtain ⟨c', rest'⟩ := q
    rw [hh] at hp
    obtain ⟨he, hb⟩ := hp
    rw [h] at he
    simp only [PRes.ok.injEq] at he
    obtain ⟨rfl, rfl⟩ := he
    obtain ⟨rfl, hf, len, hR, hl, _, _⟩ := readable_of_header hw hh
    have hk := header_checks E hw rest
    rw [h] at hk
    exact ⟨rfl, hk, len, hR.length, hR.grid, data_checks hf hb (header_dims hh).1 hl⟩

theorem announces_unique {fs : List Field} (hw : ∀ f ∈ fs, f.WF) {n m : Int} (h1 : Announces fs n) (h2 : Announces fs m) : n = m := by
  obtain ⟨v, hv, hn⟩ := h1
  obtain ⟨v', hv', hm⟩ := h2
  rw [hv] at hv'
  simp only [Option.some.injEq] at hv'
  subst hv'
  have a := sscanfD_iff.mpr hn
  have b := sscanfD_iff.mpr hm
  rw [a] at b
  simpa using b

theorem declares_unique {fs : List Field} (hw : ∀ f ∈ fs, f.WF) {r c r' c' : Int} (h1 : Declares fs r c) (h2 : Declares fs r' c') :
    r = r' ∧ c = c' := by
  obtain ⟨dx, dy, a⟩ := (declares_iff hw).mpr h1
  obtain ⟨dx', dy', b⟩ := (declares_iff hw).mpr h2
  rw [a] at b
  simp only [Option.some.injEq, Dims.mk.injEq] at b
  exact ⟨b.2.1, b.1⟩

theorem diagnosis_unique {fs : List Field} (hw : ∀ f ∈ fs, f.WF) {data : Bytes} {t t' : String}
    (h : Diagnosis fs data t) (h' : Diagnosis fs data t') : t = t' := by
  rcases h with h | ⟨hp, n, r, c, a1, a2, a3⟩ <;> rcases h' with h' | ⟨hp', n', r', c', b1, b2, b3⟩
  · exact FirstFailing.unique h h'
  · exact absurd hp' (FirstFailing.not_passed h)
  · exact absurd hp (FirstFailing.not_passed h')
  · obtain rfl := announces_unique hw a1 b1
    obtain ⟨rfl, rfl⟩ := declares_unique hw a2 b2
    exact FirstFailing.unique a3 b3

theorem error_diagnosis {E : Env} {fs : List Field} (hw : ∀ f ∈ fs, f.WF) {data : Bytes} {c : Composite} {e : Err}
    (h : NewComposite E (file fs data) = .ret c (some e)) (he : e ≠ .unknownUnit) :
    Diagnosis fs data e.text := by
  rcases error_source h he with h1 | ⟨rest, hd, h1, h2⟩
  · have := header_checks E hw data
    rw [h1] at this
    exact Or.inl this
  · obtain ⟨rfl, hp, n, g1, g2, g3⟩ := header_source hw h1
    rw [h2] at g3
    exact Or.inr ⟨hp, n, _, _, g1, g2, g3⟩

/-- C78 (a). The text of the error names the first check that fails, for every file that does not make the parser
panic: `text` begins the error message exactly if it is the diagnosis of the file. -/
theorem C78_names_defect (E : Env) {fs : List Field} {data : Bytes} (hw : ∀ f ∈ fs, f.WF)
    (hnp : NewComposite E (file fs data) ≠ .panic) (text : String) :
    (∃ c e, NewComposite E (file fs data) = .ret c (some e) ∧ e ≠ .unknownUnit ∧ e.text = text) ↔
      Diagnosis fs data text := by
  constructor
  · rintro ⟨c, e, h, he, rfl⟩
    exact error_diagnosis hw h he
  · intro hd
    cases hr : NewComposite E (file fs data) with
    | panic => exact absurd hr hnp
    | ret c o =>
      by_cases ho : o = none ∨ o = some .unknownUnit
      · exfalso
        obtain ⟨rest, hd1, rest', hd2, p1, p2⟩ := accepted_source hr ho
        obtain ⟨rfl, hp, n, g1, g2, g3⟩ := header_source hw p1
        rw [p2] at g3
        rcases hd with h | ⟨_, n', r', c', b1, b2, b3⟩
        · exact FirstFailing.not_passed h hp
        · obtain rfl := announces_unique hw g1 b1
          obtain ⟨rfl, rfl⟩ := declares_unique hw g2 b2
          exact FirstFailing.not_passed b3 g3
      · obtain ⟨e, rfl⟩ : ∃ e, o = some e := by
          cases o with
          | none => simp at ho
          | some e => exact ⟨e, rfl⟩
        have he : e ≠ .unknownUnit := by rintro rfl; simp at ho
        exact ⟨c, e, rfl, he, diagnosis_unique hw (error_diagnosis hw hr he) hd⟩

/-- C78 (b). A file that does not make the parser panic is accepted exactly if no check fails. -/
theorem C78_no_defect (E : Env) {fs : List Field} {data : Bytes} (hw : ∀ f ∈ fs, f.WF)
    (hnp : NewComposite E (file fs data) ≠ .panic) :
    (∃ c, Success E (file fs data) c) ↔ ∀ text, ¬ Diagnosis fs data text := by
  have key := C78_names_defect E hw hnp
  constructor
  · rintro ⟨c, hS⟩ text hd
    obtain ⟨c', e, h1, h2, _⟩ := (key text).mpr hd
    rcases hS with g | g
    · rw [h1] at g; simp at g
    · rw [h1] at g
      simp only [Outcome.ret.injEq, Option.some.injEq] at g
      exact h2 g.2
  · intro hno
    cases hr : NewComposite E (file fs data) with
    | panic => exact absurd hr hnp
    | ret c o =>
      cases o with
      | none => exact ⟨c, Or.inl hr⟩
      | some e =>
        by_cases he : e = .unknownUnit
        · exact ⟨c, Or.inr (by rw [hr, he])⟩
        · exact absurd ((key _).mp ⟨c, e, hr, he, rfl⟩) (hno _)

/-- C78 (c). Whatever the input: it is called too short exactly if no delimiter (byte 3) comes after 21 bytes or more
without one. -/
theorem C78_too_short (E : Env) (input : Bytes) :
    (∃ c e, NewComposite E input = .ret c (some e) ∧ e.text = "radolan.parseHeader: header corrupted: too short") ↔
      ∀ pre rest : Bytes, input = pre ++ 3 :: rest → (3 : UInt8) ∉ pre → pre.length < 21 := by
  have inj : ∀ e : Err, e.text = "radolan.parseHeader: header corrupted: too short" → e = .headerTooShort := by
    intro e
    cases e <;> first | (intro _; rfl) | (intro h; exact absurd h (by decide))
  constructor
  · rintro ⟨c, e, h, ht⟩ pre rest rfl hp
    obtain rfl := inj e ht
    by_contra hl
    have hrd : readDelim 3 (pre ++ 3 :: rest) = some (pre ++ [3], rest) := readDelim_some.mpr ⟨pre, rfl, rfl, hp⟩
    rcases error_source h (by decide) with h1 | ⟨rest', hd, _, h2⟩
    · unfold parseHeader at h1
      rw [hrd] at h1
      simp only [M.orErr_some_bind] at h1
      rw [if_neg (by simp; omega)] at h1
      have hq := Long.bind (Long.header E (pre ++ [3])) (fun _ => Long.pure rest)
      have := hq Composite.zero .headerTooShort c (by rw [← h1]; simp only [M.bind_assoc'])
      simp [isShort] at this
    · have := Long.data rest' hd .headerTooShort c h2
      simp [isShort] at this
  · intro h
    have : ∃ c, parseHeader E input Composite.zero = .err .headerTooShort c := by
      unfold parseHeader
      cases hr : readDelim 3 input with
      | none => exact ⟨_, rfl⟩
      | some q =>
        obtain ⟨hdr, rest⟩ := q
        obtain ⟨pre, rfl, he, hp⟩ := readDelim_some.mp hr
        have := h pre rest he hp
        simp only [M.orErr_some_bind]
        rw [if_pos (by simp; omega)]
        exact ⟨_, rfl⟩
    obtain ⟨c, hc⟩ := this
    refine ⟨c, .headerTooShort, ?_, rfl⟩
    unfold NewComposite newCompositeRest newCompositeM
    rw [M.bind_err hc]

/-! ### the diagnosis at work -/

theorem fieldsRX_passed : Passed (headerChecks fieldsRX) := by
  have hn := fieldsRX_readable.numbers
  have hLV : value fieldsRX (str "LV") = none := by decide
  have hg := fieldsRX_readable.grid
  have hGP : value fieldsRX (str "GP") = some (str " 2x 3") := by decide
  unfold Declares at hg
  rw [hGP] at hg
  unfold headerChecks
  rw [hLV, hGP]
  have num : ∀ k ∈ ["VV", "INT", "E", "VS"], Numeric fieldsRX k := by
    intro k hk v hv
    refine hn (str k) ?_ v hv
    simp only [List.mem_cons, List.not_mem_nil, or_false] at hk ⊢
    rcases hk with rfl | rfl | rfl | rfl <;> simp
  simp only [passed_cons, passed_nil, and_true]
  refine ⟨by decide, ⟨52, fieldsRX_readable.length⟩, fieldsRX_readable.stamped, num _ (by simp), num _ (by simp), ?_,
    by simp, by simp, num _ (by simp), by simp, by simp, by simp, by simp, num _ (by simp)⟩
  intro v hv
  simp only [Option.some.injEq] at hv
  subst hv
  exact ⟨2, 3, hg⟩

/-- five bytes instead of six: the line reader is named -/
example (data : Bytes) (h : data.length = 5) :
    ∃ c e, NewComposite env0 (file fieldsRX data) = .ret c (some e) ∧ e ≠ .unknownUnit ∧ e.text = "radolan.readLineSingleByte: " := by
  have hnp : NewComposite env0 (file fieldsRX data) ≠ .panic := by
    rw [Ne, C63_panics_iff env0 fieldsRX_wf]
    rintro ⟨len, rows, cols, hR, _, _, hF⟩
    obtain ⟨rfl, rfl⟩ := declares_unique fieldsRX_wf hR.grid fieldsRX_readable.grid
    exact hF (by unfold Fit; decide)
  refine (C78_names_defect env0 fieldsRX_wf hnp _).mpr (Or.inr ⟨fieldsRX_passed, 52, 2, 3, fieldsRX_readable.length,
    fieldsRX_readable.grid, ?_⟩)
  have hno : ¬ Sized fieldsRX 52 2 3 2 := by unfold Sized; decide
  unfold dataChecks
  rw [if_pos (by decide)]
  refine FirstFailing.later (by decide) (FirstFailing.later (Or.inr ?_) (FirstFailing.later (fun g => absurd g hno)
    (FirstFailing.here ?_)))
  · unfold Sized; decide
  · intro g
    have := g hno
    omega

/-- a header without length field -/
def fieldsNoLength : List Field :=
  [⟨str "RX", str "021310100000217"⟩, ⟨str "GP", str " 2x 3"⟩]

example (data : Bytes) : Diagnosis fieldsNoLength data "radolan.parseHeader: could not parse data length: " := by
  refine Or.inl (FirstFailing.later (by decide) (FirstFailing.here ?_))
  rintro ⟨n, v, hv, _⟩
  rw [show value fieldsNoLength (str "BY") = none by decide] at hv
  simp at hv

end Props
