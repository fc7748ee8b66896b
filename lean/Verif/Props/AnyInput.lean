/-
C93: the verdict on every input, whatever its header says.
-/
import Verif.Lemmas.AnyHeader
import Verif.Lemmas.AnySplit
import Verif.Props.Diagnosis

namespace Props
open Go Radolan Radolan.Any
open _root_.Spec

theorem pairs_items (is : List Item) : pairs (is.map Item.field) = is.map itemPair := by
  unfold pairs
  rw [List.map_map]
  rfl

/-- every understood header is split as understood -/
theorem understood_split (E : Env) {H : Head} (hU : Understood E.isUpperNA H) : ∃ s, Split E H s := by
  obtain ⟨h3, cs, hc, hr⟩ := hU
  generalize hv : H.val = v at hr
  have done : ∀ {fs : List Field}, v = value fs → splitHeader E H.text = some (pairs fs).reverse → ∃ s, Split E H s := by
    intro fs he hs
    exact ⟨_, hs, fun k => by rw [find_pairs, hv, he], h3⟩
  cases hr with
  | fields is ne wf => exact done rfl (by rw [split_items ne wf hc, pairs_items])
  | trailing is g k wf ne up =>
    refine done rfl ?_
    rw [split_trailing wf ne up hc]
    have h := pairs_items (is ++ [g])
    unfold pairs at h ⊢
    rw [List.map_append (l₁ := (is ++ [g]).map Item.field), h, List.reverse_append]
    rfl
  | headless c rest low => exact ⟨[], split_low low hc, fun k => by rw [hv]; rfl, h3⟩
  | key k up => exact done rfl (by rw [split_upper up hc]; rfl)

/-! ### every text is understood -/

theorem span_upper {α : Type} (p : α → Bool) (t : List α) :
    ∃ a r, t = a ++ r ∧ (∀ b ∈ a, p b = true) ∧ ∀ b ∈ r.head?, p b = false := by
  induction t with
  | nil => exact ⟨[], [], rfl, by simp, by simp⟩
  | cons c t ih =>
    cases hc : p c with
    | false => exact ⟨[], c :: t, rfl, by simp, by simpa using hc⟩
    | true =>
      obtain ⟨a, r, rfl, h1, h2⟩ := ih
      refine ⟨c :: a, r, rfl, ?_, h2⟩
      intro b hb
      rcases List.mem_cons.mp hb with rfl | hb
      · exact hc
      · exact h1 b hb

/-- the fields of a text that begins with an upper-case letter, and what is left of it -/
theorem decompose (U : Nat → Bool) (n : Nat) : ∀ t : List (Nat × Bytes), t.length ≤ n → (∀ c ∈ t.head?, Capital U c) →
    ∃ (is : List Item) (k : List (Nat × Bytes)), (∀ i ∈ is, i.WF U) ∧ (∀ c ∈ k, Capital U c) ∧
      t = (is.flatMap fun i => i.key ++ i.val) ++ k := by
  classical
  induction n with
  | zero =>
    intro t hl _
    have : t = [] := List.length_eq_zero_iff.mp (by omega)
    subst this
    exact ⟨[], [], by simp, by simp, rfl⟩
  | succ n ih =>
    intro t hl hh
    obtain ⟨k, r, rfl, hk, hr⟩ := span_upper (fun c => decide (Capital U c)) t
    obtain ⟨v, r', rfl, hv, hr'⟩ := span_upper (fun c => decide (¬ Capital U c)) r
    simp only [decide_eq_true_eq, decide_eq_false_iff_not] at hk hr hv hr'
    by_cases hv0 : v = []
    · subst hv0
      cases r' with
      | nil => exact ⟨[], k, by simp, hk, by simp⟩
      | cons b r' =>
        exact absurd (by simpa using hr' b (by simp)) (hr b (by simp))
    · have hk0 : k ≠ [] := by
        rintro rfl
        cases v with
        | nil => exact hv0 rfl
        | cons b v => exact absurd (hh b (by simp)) (hv b (by simp))
      have hlk : 0 < k.length := List.length_pos_iff.mpr hk0
      have hlen : r'.length ≤ n := by simp at hl; omega
      obtain ⟨is, k', h1, h2, h3⟩ := ih r' hlen (fun b hb => by simpa using hr' b hb)
      refine ⟨⟨k, v⟩ :: is, k', ?_, h2, ?_⟩
      · intro i hi
        rcases List.mem_cons.mp hi with rfl | hi
        · exact ⟨hk0, hk, hv0, hv⟩
        · exact h1 i hi
      · rw [h3]; simp

theorem reads_exist (U : Nat → Bool) (cs : List (Nat × Bytes)) : ∃ v, Reads U cs v := by
  cases cs with
  | nil => exact ⟨_, .key [] (by simp)⟩
  | cons c rest =>
    by_cases hc : Capital U c
    · obtain ⟨is, k, h1, h2, h3⟩ := decompose U _ (c :: rest) (le_refl _) (by simpa using hc)
      rw [h3]
      by_cases hk : k = []
      · subst hk
        rw [List.append_nil]
        refine ⟨_, .fields is ?_ h1⟩
        rintro rfl
        simp at h3
      · rcases List.eq_nil_or_concat is with rfl | ⟨is', g, rfl⟩
        · exact ⟨_, .key k h2⟩
        · rw [List.concat_eq_append] at h1 ⊢
          exact ⟨_, .trailing is' g k h1 hk h2⟩
    · exact ⟨_, .headless c rest hc⟩

/-- C93 (a). Every text without delimiter has a reading as a header. -/
theorem C93_every_text (U : Nat → Bool) (t : Bytes) (h3 : (3 : UInt8) ∉ t) : ∃ H, H.text = t ∧ Understood U H := by
  obtain ⟨cs, hc⟩ := chars_exist t
  obtain ⟨v, hv⟩ := reads_exist U cs
  exact ⟨⟨t, v⟩, rfl, h3, cs, hc, hv⟩

/-! ### ASCII headers -/

def single (b : UInt8) : Nat × Bytes := (b.toNat, [b])

theorem chars_ascii {t : Bytes} (h : ∀ b ∈ t, b < 128) : Chars t (t.map single) := by
  induction t with
  | nil => exact .nil
  | cons b t ih =>
    have hb := h b (by simp)
    have := Chars.char (scalar_byte hb) (ih fun x hx => h x (by simp [hx]))
    rw [utf8_byte hb] at this
    exact this

theorem seen_ascii (t : Bytes) : seen (t.map single) = t := by
  induction t with
  | nil => rfl
  | cons b t ih =>
    cases t with
    | nil => rfl
    | cons c t =>
      rw [List.map_cons, List.map_cons, seen]
      rw [List.map_cons] at ih
      rw [ih]
      rfl

theorem capital_ascii (U : Nat → Bool) {b : UInt8} (h : b < 128) : Capital U (single b) ↔ upper b := by
  unfold Capital single upper
  have h' : b.toNat < 128 := by rw [lt8] at h; exact h
  simp only [if_pos h', le8]
  rfl

def asItem (f : Field) : Item := ⟨f.key.map single, f.val.map single⟩

theorem asItem_wf (U : Nat → Bool) {f : Field} (h : f.WF) : (asItem f).WF U where
  key := by simpa [asItem] using h.1
  up c hc := by
    obtain ⟨b, hb, rfl⟩ := List.mem_map.mp hc
    exact (capital_ascii U (upper_lt (h.2.1 b hb))).mpr (h.2.1 b hb)
  val := by simpa [asItem] using h.2.2.1
  low c hc := by
    obtain ⟨b, hb, rfl⟩ := List.mem_map.mp hc
    obtain ⟨h1, h2⟩ := WF.val h b hb
    exact fun hx => h2 ((capital_ascii U h1).mp hx)

theorem asItem_field (f : Field) : (asItem f).field = f := by
  unfold asItem Item.field
  rw [seen_ascii, seen_ascii]

theorem asItems_field (fs : List Field) : (fs.map asItem).map Item.field = fs := by
  rw [List.map_map, show Item.field ∘ asItem = id from funext asItem_field, List.map_id]

theorem asItems_chars (fs : List Field) : ((fs.map asItem).flatMap fun i => i.key ++ i.val) = (header fs).map single := by
  induction fs with
  | nil => rfl
  | cons f fs ih =>
    rw [List.map_cons, List.flatMap_cons, ih, header]
    simp [asItem]

theorem upper_ne3 {b : UInt8} (h : upper b) : b ≠ 3 := by
  rintro rfl
  revert h; decide

theorem header_lt {fs : List Field} (wf : ∀ f ∈ fs, f.WF) : ∀ b ∈ header fs, b < 128 := by
  induction fs with
  | nil => simp [header]
  | cons f fs ih =>
    intro b hb
    have h := wf f (by simp)
    rw [header, List.mem_append, List.mem_append] at hb
    rcases hb with (hb | hb) | hb
    · exact upper_lt (h.2.1 b hb)
    · exact (WF.val h b hb).1
    · exact ih (fun g hg => wf g (by simp [hg])) b hb

/-- C93 (e). For a header in ASCII this is the reading of bytes. -/
theorem C93_ascii (U : Nat → Bool) {H : Head} (h : AsciiHead H) : Understood U H := by
  have up' : ∀ {k : Bytes}, (∀ b ∈ k, upper b) → ∀ c ∈ k.map single, Capital U c := by
    intro k hk c hc
    obtain ⟨b, hb, rfl⟩ := List.mem_map.mp hc
    exact (capital_ascii U (upper_lt (hk b hb))).mpr (hk b hb)
  have wf' : ∀ {fs : List Field}, (∀ f ∈ fs, f.WF) → ∀ i ∈ fs.map asItem, i.WF U := by
    intro fs hf i hi
    obtain ⟨f, hm, rfl⟩ := List.mem_map.mp hi
    exact asItem_wf U (hf f hm)
  cases h with
  | fields fs ne wf =>
    refine ⟨header_no_delim wf, _, chars_ascii (header_lt wf), ?_⟩
    have := Reads.fields (U := U) (fs.map asItem) (by simpa using ne) (wf' wf)
    rw [asItems_chars, asItems_field] at this
    exact this
  | trailing fs g k wf ne up =>
    refine ⟨?_, _, chars_ascii ?_, ?_⟩
    · simp only [List.mem_append, not_or]
      exact ⟨header_no_delim wf, fun h => upper_ne3 (up 3 h) rfl⟩
    · intro b hb
      rcases List.mem_append.mp hb with hb | hb
      · exact header_lt wf b hb
      · exact upper_lt (up b hb)
    · have := Reads.trailing (U := U) (fs.map asItem) (asItem g) (k.map single)
        (by have := wf' wf; rwa [List.map_append] at this) (by simpa using ne) (up' up)
      rw [show fs.map asItem ++ [asItem g] = (fs ++ [g]).map asItem by simp, asItems_chars, asItems_field, ← List.map_append,
        seen_ascii, show seen (asItem g).val = g.val from seen_ascii _] at this
      exact this
  | headless b rest low ascii =>
    refine ⟨fun h => (ascii 3 h).2 rfl, _, chars_ascii (fun c hc => (ascii c hc).1), .headless _ _ ?_⟩
    rw [capital_ascii U (ascii b (by simp)).1]
    exact low
  | key k up =>
    refine ⟨fun h => upper_ne3 (up 3 h) rfl, _, chars_ascii (fun b hb => upper_lt (up b hb)), ?_⟩
    have := Reads.key (U := U) (k.map single) (up' up)
    rw [seen_ascii] at this
    exact this

/-- C93 (c). The text of a header determines its reading. -/
theorem C93_one_reading {U : Nat → Bool} {H H' : Head} (h : Understood U H) (h' : Understood U H') (ht : H.text = H'.text) :
    H = H' := by
  obtain ⟨s, hs⟩ := understood_split { env0 with isUpperNA := U } h
  obtain ⟨s', hs'⟩ := understood_split { env0 with isUpperNA := U } h'
  have h1 := hs.split
  rw [ht, hs'.split] at h1
  simp only [Option.some.injEq] at h1
  subst h1
  cases H with | mk t v => cases H' with | mk t' v' =>
    simp only at ht
    subst ht
    congr 1
    funext k
    exact (hs.find k).symm.trans (hs'.find k)

/-! ### the verdict -/

theorem head_of_header {E : Env} {H : Head} {s : Section} (hw : Split E H s) {data rest : Bytes} {h : Composite}
    (hh : headerOf E (H.file data) = some (h, rest)) :
    rest = data ∧ HeaderFields E (H.text ++ [3]) s h ∧
      ∃ len, H.Announces len ∧ H.Declares h.py h.px ∧ h.dataLength = wrap64 (len - (H.text.length + 1)) := by
  obtain ⟨hdr, s', h1, h2, h3, hf, h5⟩ := headerOf_some hh
  rw [hw.delim] at h1
  simp only [Option.some.injEq, Prod.mk.injEq] at h1
  obtain ⟨rfl, rfl⟩ := h1
  simp only [List.length_append, List.length_singleton] at h2
  rw [List.dropLast_concat, hw.split] at h3
  simp only [Option.some.injEq] at h3
  subst h3
  obtain ⟨n, hn, hl⟩ := hf.length
  obtain ⟨by', hby⟩ : ∃ v, H.val (str "BY") = some v := by
    cases h : H.val (str "BY") with
    | some v => exact ⟨v, rfl⟩
    | none => rw [hw.find, h] at hn; simp only [Option.getD_none] at hn; rw [show sscanfD [] = none by decide] at hn; simp at hn
  rw [hw.find, hby] at hn
  refine ⟨rfl, hf, n, ⟨by', hby, sscanfD_iff.mp hn⟩, ?_, by rw [hl]; simp⟩
  have := hf.dims
  rw [List.take_append_of_le_length (by omega)] at this
  exact (Any.declares_iff hw).mp ⟨_, _, this⟩

theorem head_announces_unique {E : Env} {H : Head} {s : Section} (hw : Split E H s) {n m : Int}
    (h1 : H.Announces n) (h2 : H.Announces m) : n = m := by
  obtain ⟨v, hv, hn⟩ := h1
  obtain ⟨v', hv', hm⟩ := h2
  rw [hv] at hv'
  simp only [Option.some.injEq] at hv'
  subst hv'
  have a := sscanfD_iff.mpr hn
  have b := sscanfD_iff.mpr hm
  rw [a] at b
  simpa using b

theorem head_declares_unique {E : Env} {H : Head} {s : Section} (hw : Split E H s) {r c r' c' : Int}
    (h1 : H.Declares r c) (h2 : H.Declares r' c') : r = r' ∧ c = c' := by
  obtain ⟨dx, dy, a⟩ := (Any.declares_iff hw).mpr h1
  obtain ⟨dx', dy', b⟩ := (Any.declares_iff hw).mpr h2
  rw [a] at b
  simp only [Option.some.injEq, Dims.mk.injEq] at b
  exact ⟨b.2.1, b.1⟩

theorem head_orderly {E : Env} {H : Head} {s : Section} (hw : Split E H s) {data rest : Bytes} {hd : Composite}
    (hh : headerOf E (H.file data) = some (hd, rest)) : rest = data ∧ ∃ n, H.Orderly n hd.py hd.px ∧
      (parseData data hd).Sat (fun _ _ => Passed (H.dataChecks n hd.py hd.px data))
        (fun e _ => FirstFailing (H.dataChecks n hd.py hd.px data) e.text) True := by
  obtain ⟨rfl, hf, n, h1, h2, h3⟩ := head_of_header hw hh
  have hp := parseHeader_eq E (H.file rest)
  rw [hh] at hp
  obtain ⟨he, hb⟩ := hp
  have hk := header_checks hw rest
  rw [he] at hk
  exact ⟨rfl, n, ⟨hk, h1, h2⟩, data_checks hw hf hb (header_dims hh).1 h3⟩

theorem outcome_head {E : Env} {H : Head} {s : Section} (hw : Split E H s) (data : Bytes) :
    (NewComposite E (H.file data) = .panic ∧ ∃ n r c, H.Orderly n r c ∧ Head.Impossible r c) ∨
    ((∃ c, Success E (H.file data) c) ∧ H.Fine data) ∨
    (∃ c e, NewComposite E (H.file data) = .ret c (some e) ∧ e ≠ .unknownUnit ∧ H.Wrong data e.text) := by
  cases hr : NewComposite E (H.file data) with
  | panic =>
    left
    refine ⟨rfl, ?_⟩
    have hc := newComposite_cases E (H.file data)
    unfold NewComposite at hr
    generalize newCompositeRest E (H.file data) = r at hc hr
    cases hc with
    | panic c rest h hz ha =>
      obtain ⟨rfl, n, ho, _⟩ := head_orderly hw h
      exact ⟨n, _, _, ho, by omega, by omega, fun hf => ha (alloc_iff.mpr hf)⟩
    | _ => simp at hr
  | ret c o =>
    right
    by_cases ho : o = none ∨ o = some .unknownUnit
    · left
      have hS : Radolan.Parsed E (H.file data) c := by
        rcases ho with rfl | rfl
        exacts [Or.inl hr, Or.inr hr]
      refine ⟨⟨c, hS⟩, ?_⟩
      obtain ⟨hd, rest, rows, rest', hh, ha, hdat, rfl⟩ := parsed_iff.mp hS
      obtain ⟨r1, hd1, r2, hd2, p1, p2⟩ := accepted_source hr ho
      have hp := parseHeader_eq E (H.file data)
      rw [hh] at hp
      have he := hp.1
      rw [p1] at he
      simp only [PRes.ok.injEq] at he
      obtain ⟨rfl, rfl⟩ := he
      obtain ⟨rfl, n, g1, g2⟩ := head_orderly hw hh
      rw [p2] at g2
      exact ⟨n, _, _, g1, alloc_iff.mp ha, g2⟩
    · right
      obtain ⟨e, rfl⟩ : ∃ e, o = some e := by
        cases o with
        | none => simp at ho
        | some e => exact ⟨e, rfl⟩
      have he : e ≠ .unknownUnit := by rintro rfl; simp at ho
      refine ⟨c, e, rfl, he, ?_⟩
      rcases error_source hr he with h1 | ⟨rest, hd, h1, h2⟩
      · have := header_checks hw data
        rw [h1] at this
        exact Or.inl this
      · have hp := parseHeader_eq E (H.file data)
        cases hh : headerOf E (H.file data) with
        | none =>
          rw [hh] at hp
          obtain ⟨_, _, q, _⟩ := hp
          rw [h1] at q; simp at q
        | some q =>
          obtain ⟨hd', rest'⟩ := q
          rw [hh] at hp
          have q := hp.1
          rw [h1] at q
          simp only [PRes.ok.injEq] at q
          obtain ⟨rfl, rfl⟩ := q
          obtain ⟨rfl, n, g1, g2⟩ := head_orderly hw hh
          rw [h2] at g2
          refine Or.inr ⟨n, _, _, g1, ?_, g2⟩
          rintro ⟨i1, i2, i3⟩
          rw [parseData_panic hd rest (by omega) (fun ha => i3 (alloc_iff.mp ha))] at h2
          simp at h2

theorem orderly_unique {E : Env} {H : Head} {s : Section} (hw : Split E H s) {n r c n' r' c' : Int}
    (h1 : H.Orderly n r c) (h2 : H.Orderly n' r' c') : n = n' ∧ r = r' ∧ c = c' :=
  ⟨head_announces_unique hw h1.2.1 h2.2.1, head_declares_unique hw h1.2.2 h2.2.2⟩

theorem fit_possible {r c : Int} (h : Fit r c) : ¬ Head.Impossible r c := fun hi => hi.2.2 h

theorem fine_not_wrong {E : Env} {H : Head} {s : Section} (hw : Split E H s) {data : Bytes} {t : String}
    (h : H.Fine data) : ¬ H.Wrong data t := by
  obtain ⟨n, r, c, g1, g2, g3⟩ := h
  rintro (h | ⟨n', r', c', k1, _, k3⟩)
  · exact FirstFailing.not_passed h g1.1
  · obtain ⟨rfl, rfl, rfl⟩ := orderly_unique hw g1 k1
    exact FirstFailing.not_passed k3 g3

theorem wrong_unique {E : Env} {H : Head} {s : Section} (hw : Split E H s) {data : Bytes} {t t' : String}
    (h : H.Wrong data t) (h' : H.Wrong data t') : t = t' := by
  rcases h with h | ⟨n, r, c, a1, a2, a3⟩ <;> rcases h' with h' | ⟨n', r', c', b1, b2, b3⟩
  · exact FirstFailing.unique h h'
  · exact absurd b1.1 (FirstFailing.not_passed h)
  · exact absurd a1.1 (FirstFailing.not_passed h')
  · obtain ⟨rfl, rfl, rfl⟩ := orderly_unique hw a1 b1
    exact FirstFailing.unique a3 b3

theorem impossible_alone {E : Env} {H : Head} {s : Section} (hw : Split E H s) {data : Bytes}
    {n r c : Int} (ho : H.Orderly n r c) (hi : Head.Impossible r c) :
    ¬ H.Fine data ∧ ∀ t, ¬ H.Wrong data t := by
  constructor
  · rintro ⟨n', r', c', k1, k2, _⟩
    obtain ⟨rfl, rfl, rfl⟩ := orderly_unique hw ho k1
    exact hi.2.2 k2
  · rintro t (h | ⟨n', r', c', k1, k2, _⟩)
    · exact FirstFailing.not_passed h ho.1
    · obtain ⟨rfl, rfl, rfl⟩ := orderly_unique hw ho k1
      exact k2 hi

/-- C93 (b). Whatever the header says, in whatever bytes: the file is accepted exactly if it is fine, the program
panics exactly if the header is in order but its dimensions are impossible, and the text of the error is exactly the one
that names what is wrong. -/
theorem C93_verdict (E : Env) {H : Head} (hU : Understood E.isUpperNA H) (data : Bytes) :
    ((∃ c, Success E (H.file data) c) ↔ H.Fine data) ∧
    (NewComposite E (H.file data) = .panic ↔ ∃ n rows cols, H.Orderly n rows cols ∧ Head.Impossible rows cols) ∧
    ∀ text : String, (∃ c e, NewComposite E (H.file data) = .ret c (some e) ∧ e ≠ .unknownUnit ∧ e.text = text) ↔
      H.Wrong data text := by
  obtain ⟨s, hw⟩ := understood_split E hU
  rcases outcome_head hw data with ⟨h1, n, r, c, h2, h3⟩ | ⟨⟨c, h1⟩, h2⟩ | ⟨c, e, h1, h2, h3⟩
  · have hx := impossible_alone hw (data := data) h2 h3
    refine ⟨⟨?_, fun h => absurd h hx.1⟩, ⟨fun _ => ⟨n, r, c, h2, h3⟩, fun _ => h1⟩, fun t => ⟨?_, fun h => absurd h (hx.2 t)⟩⟩
    · rintro ⟨c, hS⟩
      rcases hS with hS | hS <;> rw [h1] at hS <;> simp at hS
    · rintro ⟨c, e, hS, _⟩
      rw [h1] at hS; simp at hS
  · refine ⟨⟨fun _ => h2, fun _ => ⟨c, h1⟩⟩, ⟨?_, ?_⟩, fun t => ⟨?_, fun h => absurd h (fine_not_wrong hw h2)⟩⟩
    · intro hp
      rcases h1 with hS | hS <;> rw [hp] at hS <;> simp at hS
    · rintro ⟨n, r, c, a, b⟩
      exact absurd h2 (impossible_alone hw a b).1
    · rintro ⟨c', e, hS, he, _⟩
      rcases h1 with h1 | h1
      · rw [h1] at hS; simp at hS
      · rw [h1] at hS
        simp only [Outcome.ret.injEq, Option.some.injEq] at hS
        exact absurd hS.2.symm he
  · refine ⟨⟨?_, fun h => absurd h3 (fine_not_wrong hw h)⟩, ⟨?_, ?_⟩, fun t => ⟨?_, ?_⟩⟩
    · rintro ⟨c', hS⟩
      rcases hS with hS | hS
      · rw [h1] at hS; simp at hS
      · rw [h1] at hS
        simp only [Outcome.ret.injEq, Option.some.injEq] at hS
        exact absurd hS.2 h2
    · intro hp
      rw [h1] at hp; simp at hp
    · rintro ⟨n, r, c, a, b⟩
      exact absurd h3 ((impossible_alone hw a b).2 _)
    · rintro ⟨c', e', hS, he, rfl⟩
      rw [h1] at hS
      simp only [Outcome.ret.injEq, Option.some.injEq] at hS
      obtain ⟨rfl, rfl⟩ := hS
      exact h3
    · intro h
      exact ⟨c, e, h1, h2, wrong_unique hw h3 h⟩

/-- C93 (d). Every input is covered: either it is a file with an understood header, or it has no
delimiter and is called too short. -/
theorem C93_every_input (E : Env) (input : Bytes) :
    (∃ H data, Understood E.isUpperNA H ∧ input = H.file data) ∨
    ((3 : UInt8) ∉ input ∧ ∃ c e, NewComposite E input = .ret c (some e) ∧
      e.text = "radolan.parseHeader: header corrupted: too short") := by
  cases hr : readDelim 3 input with
  | none =>
    right
    have hno : (3 : UInt8) ∉ input := readDelim_none.mp hr
    refine ⟨hno, (C78_too_short E input).mpr ?_⟩
    rintro pre rest rfl _
    exact absurd (by simp) hno
  | some q =>
    obtain ⟨hdr, rest⟩ := q
    obtain ⟨pre, rfl, he, hp⟩ := readDelim_some.mp hr
    obtain ⟨H, rfl, hU⟩ := C93_every_text E.isUpperNA pre hp
    exact Or.inl ⟨H, rest, hU, by rw [he]; simp [Head.file]⟩

/-- C93. Every accepted input is a file with an understood header, so that C94 tells its contents. -/
theorem C93_accepted {E : Env} {input : Bytes} {c : Composite} (hS : Success E input c) :
    ∃ H data, Understood E.isUpperNA H ∧ input = H.file data := by
  rcases C93_every_input E input with h | ⟨_, c', e, h, ht⟩
  · exact h
  · exfalso
    rcases hS with hS | hS <;> rw [h] at hS <;> simp only [Outcome.ret.injEq, Option.some.injEq, reduceCtorEq, and_false] at hS
    rw [hS.2] at ht
    revert ht
    decide

/-- C03. NewComposite panics exactly on inputs whose header is in order but declares nonzero dimensions that cannot be
allocated. -/
theorem C03_impossible_dimensions (E : Env) (input : Bytes) : NewComposite E input = .panic ↔
    ∃ H data n rows cols, Understood E.isUpperNA H ∧ input = H.file data ∧ H.Orderly n rows cols ∧
      Head.Impossible rows cols := by
  constructor
  · intro h
    rcases C93_every_input E input with ⟨H, data, hU, rfl⟩ | ⟨_, c, e, hr, _⟩
    · obtain ⟨n, rows, cols, h1, h2⟩ := (C93_verdict E hU data).2.1.mp h
      exact ⟨H, data, n, rows, cols, hU, rfl, h1, h2⟩
    · rw [h] at hr; simp at hr
  · rintro ⟨H, data, n, rows, cols, hU, rfl, h1, h2⟩
    exact (C93_verdict E hU data).2.1.mpr ⟨n, rows, cols, h1, h2⟩

/-! ### odd headers -/

/-- a header with the key E at its end, without value: the precision is the length, 36 -/
def oddFields : List Field := [⟨str "RX", str "021310100000217"⟩, ⟨str "GP", str " 2x 3"⟩]
def oddHead : Head := ⟨header (oddFields ++ [⟨str "BY", str "36"⟩]) ++ str "E",
  value (oddFields ++ [⟨str "BY", str "36"⟩] ++ [⟨str "E", str "36"⟩])⟩

theorem oddHead_understood (U : Nat → Bool) : Understood U oddHead :=
  C93_ascii U <| .trailing oddFields ⟨str "BY", str "36"⟩ (str "E") (by decide) (by decide) (by decide)

example : oddHead.text = str "RX021310100000217GP 2x 3BY36E" := by decide

theorem odd_reads : ReadsInt (str "36") 36 :=
  ⟨[], reads_blank (d := [3, 6]) (s := .none) 0 (by decide) (by decide) (by decide) (by simp) (by decide) (by decide)⟩

theorem odd_grid : ReadsGrid (str " 2x 3") 2 3 :=
  ⟨str " 3", [], reads_blank (d := [2]) (s := .none) 1 (by decide) (by decide) (by decide)
      (by unfold IsDigit; decide) (by decide) (by decide),
    reads_blank (d := [3]) (s := .none) 1 (by decide) (by decide) (by decide) (by simp) (by decide) (by decide)⟩

/-- any six bytes complete this header -/
theorem odd_fine (data : Bytes) (h : data.length = 6) : oddHead.Fine data := by
  refine ⟨36, 2, 3, ⟨?_, ⟨str "36", by decide, odd_reads⟩, ?_⟩, by unfold Fit; decide, ?_⟩
  · have hGP : oddHead.val (str "GP") = some (str " 2x 3") := by decide
    have hLV : oddHead.val (str "LV") = none := by decide
    have none : ∀ k : String, oddHead.val (str k) = none → oddHead.Numeric k := fun k h v hv => by rw [h] at hv; simp at hv
    unfold Head.headerChecks
    rw [hGP, hLV]
    simp only [passed_cons, passed_nil, and_true]
    refine ⟨by decide, ⟨36, str "36", by decide, odd_reads⟩,
      ⟨⟨2017, 2, 2, 13, 10⟩, by decide, by decide, by decide, by decide, by decide, Or.inl (by decide)⟩,
      none _ (by decide), none _ (by decide), ?_, by simp, by simp, ?_, by simp, by simp, by simp, by simp, none _ (by decide)⟩
    · intro v hv
      simp only [Option.some.injEq] at hv
      subst hv
      exact ⟨2, 3, odd_grid⟩
    · intro v hv
      rw [show oddHead.val (str "E") = some (str "36") by decide] at hv
      simp only [Option.some.injEq] at hv
      subst hv
      exact ⟨36, odd_reads⟩
  · unfold Head.Declares
    rw [show oddHead.val (str "GP") = some (str " 2x 3") by decide]
    exact odd_grid
  · have s2 : ¬ oddHead.Sized 36 2 3 2 := by unfold Head.Sized; decide
    have s1 : oddHead.Sized 36 2 3 1 := by unfold Head.Sized; decide
    unfold Head.dataChecks
    rw [if_pos (by decide)]
    simp only [passed_cons, passed_nil, and_true]
    exact ⟨by decide, Or.inr s1, fun g => absurd g s2, fun _ => by omega⟩

theorem odd_accepted (data : Bytes) (h : data.length = 6) : ∃ c, Success env0 (oddHead.file data) c := by
  exact (C93_verdict env0 (oddHead_understood _) data).1.mpr (odd_fine data h)

/-- a text without an upper-case letter at its beginning: the length is missed first -/
example (data : Bytes) : ∃ c e, NewComposite env0 ((⟨str "rx 021310100000217 BY36", fun _ => none⟩ : Head).file data) = .ret c (some e) ∧
    e ≠ .unknownUnit ∧ e.text = "radolan.parseHeader: could not parse data length: " := by
  have hU : Understood env0.isUpperNA ⟨str "rx 021310100000217 BY36", fun _ => none⟩ :=
    C93_ascii _ <| .headless 114 (str "x 021310100000217 BY36") (by decide) (by decide)
  refine ((C93_verdict env0 hU data).2.2 _).mpr (Or.inl (FirstFailing.later (by decide) (FirstFailing.here ?_)))
  rintro ⟨n, v, hv, _⟩
  simp at hv

/-! ### beyond ASCII -/

/-- a no-break space is white space -/
example : ReadsInt ([0xC2, 0xA0] ++ str "36") 36 :=
  ⟨[], [0xC2, 0xA0], .none, [3, 6], by decide, ⟨[0xA0], by decide, by simp [White]⟩, by decide, by decide, by simp, by decide,
    by decide, by decide⟩

/-- "MS<Ü>BY36": the letter Ü in UTF-8 is a key of its own, of which only the first byte counts; ">" is its value -/
def foreignHead : Head := ⟨str "MS<" ++ [0xC3, 0x9C] ++ str ">BY36",
  value [⟨str "MS", str "<"⟩, ⟨[0xC3], str ">"⟩, ⟨str "BY", str "36"⟩]⟩

example (U : Nat → Bool) (hU : U 0xDC = true) : Understood U foreignHead := by
  have a : ∀ b : UInt8, b < 128 → ∀ {r : Bytes} {l : List (Nat × Bytes)}, Chars r l → Chars (b :: r) (single b :: l) := by
    intro b hb r l h
    have := Chars.char (scalar_byte hb) h
    rw [utf8_byte hb] at this
    exact this
  have u : ∀ {r : Bytes} {l : List (Nat × Bytes)}, Chars r l → Chars (0xC3 :: 0x9C :: r) ((0xDC, [0xC3, 0x9C]) :: l) := by
    intro r l h
    exact Chars.char (cp := 0xDC) (by unfold scalar; decide) h
  refine ⟨by decide, _, a 77 (by decide) (a 83 (by decide) (a 60 (by decide) (u (a 62 (by decide) (a 66 (by decide)
    (a 89 (by decide) (a 51 (by decide) (a 54 (by decide) .nil)))))))), ?_⟩
  have cap : ∀ b : UInt8, upper b → Capital U (single b) := fun b hb => (capital_ascii U (upper_lt hb)).mpr hb
  have low : ∀ b : UInt8, b < 128 → ¬ upper b → ¬ Capital U (single b) := fun b hb h hx => h ((capital_ascii U hb).mp hx)
  have hÜ : Capital U (0xDC, [0xC3, 0x9C]) := by unfold Capital; simpa using hU
  exact .fields [⟨[single 77, single 83], [single 60]⟩, ⟨[(0xDC, [0xC3, 0x9C])], [single 62]⟩,
    ⟨[single 66, single 89], [single 51, single 54]⟩] (by simp) (by
      intro i hi
      simp only [List.mem_cons, List.not_mem_nil, or_false] at hi
      rcases hi with rfl | rfl | rfl
      · exact ⟨by simp, by simpa using ⟨cap 77 (by decide), cap 83 (by decide)⟩, by simp,
          by simpa using low 60 (by decide) (by decide)⟩
      · exact ⟨by simp, by simpa using hÜ, by simp, by simpa using low 62 (by decide) (by decide)⟩
      · exact ⟨by simp, by simpa using ⟨cap 66 (by decide), cap 89 (by decide)⟩, by simp,
          by simpa using ⟨low 51 (by decide) (by decide), low 54 (by decide) (by decide)⟩⟩)

end Props
