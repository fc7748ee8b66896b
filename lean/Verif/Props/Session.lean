/-
C60: successive calls of NewComposite on one reader. C61: NewComposites on a tar reader.
-/
import Verif.Spec.Session
import Verif.Props.Chunking
import Verif.Props.Stream

namespace Props
open Go Radolan Spec

/-! ### the position of the reader after a call -/

theorem rest_of_parts {E : Env} {input rest rest' : Bytes} {h : Composite} {rows : List (List F32)}
    (hh : headerOf E input = some (h, rest)) (ha : AllocOK h) (hd : dataOf h rest = some (rows, rest')) :
    newCompositeRest E input = (.ret (finish E h rows)
      (if h.dataUnit = Unit_unknown then some .unknownUnit else none), rest') := by
  have hc := newComposite_cases E input
  generalize newCompositeRest E input = r at *
  cases hc with
  | header h' => rw [hh] at h'; simp at h'
  | zero c' rest2 h' hz hb =>
    rw [hh] at h'; simp at h'; obtain ⟨rfl, rfl⟩ := h'
    obtain ⟨a, b, c, d⟩ := ha; omega
  | panic c' rest2 h' hz ha' =>
    rw [hh] at h'; simp at h'; obtain ⟨rfl, rfl⟩ := h'; exact absurd ha ha'
  | data c' rest2 h' ha' hd' =>
    rw [hh] at h'; simp at h'; obtain ⟨rfl, rfl⟩ := h'; rw [hd] at hd'; simp at hd'
  | ok c' rest2 h' ha' rows' rest2' hd' =>
    rw [hh] at h'; simp at h'; obtain ⟨rfl, rfl⟩ := h'
    rw [hd] at hd'; simp at hd'; obtain ⟨rfl, rfl⟩ := hd'
    rfl

/-- a file is read to its last byte, and no further -/
theorem fileOf_rest {E : Env} {f : Bytes} {c : Composite} (h : FileOf E f c) (t : Bytes) :
    newCompositeM E (f ++ t) Composite.zero = .ok t c ∧ c.dataUnit ≠ Unit_unknown := by
  obtain ⟨hp, hmin⟩ := h
  obtain ⟨hc, rest, rows, rest', hh, ha, hd, hcc⟩ := parsed_iff.mp (Or.inl hp : Success E f c)
  obtain ⟨p1, e1, e2, e3⟩ := headerOf_local E _ _ _ hh
  obtain ⟨p2, k1, k2, k3⟩ := dataOf_local hc _ _ _ hd
  have hf : f = (p1 ++ p2) ++ rest' := by rw [e1, k1]; simp
  have hrest : rest' = [] := by
    by_contra hne
    have hs := newComposite_of_parts (E := E) (input := p1 ++ p2) (e2 p2) ha (by have := k2 []; simpa using this)
    refine hmin (p1 ++ p2).length ?_ (finish E hc rows) ?_
    · have hl := congrArg List.length hf
      have := List.length_pos_iff.mpr hne
      simp only [List.length_append] at hl ⊢
      omega
    · have ht : f.take (p1 ++ p2).length = p1 ++ p2 := by
        conv_lhs => rw [hf]
        exact List.take_left
      rw [ht]
      unfold Success
      rw [hs]
      split
      · exact Or.inr rfl
      · exact Or.inl rfl
  subst hrest
  rw [List.append_nil] at hf
  have hr := rest_of_parts (E := E) (input := f ++ t) (rest := p2 ++ t) (rest' := t)
    (by rw [hf, List.append_assoc]; exact e2 _) ha (k2 t)
  have hp' := newComposite_of_parts hh ha hd
  rw [hp, Outcome.ret.injEq] at hp'
  rw [← hp'.1, ← hp'.2] at hr
  unfold newCompositeRest at hr
  cases hm : newCompositeM E (f ++ t) Composite.zero with
  | ok b c' =>
    rw [hm] at hr
    simp only [Prod.mk.injEq, Outcome.ret.injEq] at hr
    obtain ⟨⟨rfl, h2⟩, rfl⟩ := hr
    refine ⟨rfl, ?_⟩
    intro hu
    rw [if_pos hu] at h2
    simp at h2
  | err e c' => rw [hm] at hr; simp at hr
  | panic => rw [hm] at hr; simp at hr

theorem callFrom_ok {E : Env} {S : Source} {R : Bufio.Reader S → Bytes → Prop} {N : Nat} {hang : Bool}
    (F : Steps R N hang) {r : Bufio.Reader S} {b b' : Bytes} {c : Composite} (hs : R r b)
    (h : newCompositeM E b Composite.zero = .ok b' c) :
    ∃ r', callFrom E N r = some (.data c (if c.dataUnit = Unit_unknown then some .unknownUnit else none) r') ∧
      R r' b' := by
  have := newComposite_rel F E hs Composite.zero
  rw [h] at this
  obtain ⟨r', h1, h2⟩ := this
  exact ⟨r', by unfold callFrom; rw [h1], h2⟩

theorem unread_iff {S : Source} {N : Nat} {r : Bufio.Reader S} {b : Bytes} :
    Unread N r b ↔ ∃ ok rem idle, Faithful S ok rem idle ∧ Bufio.Sim ok rem N r b := by
  constructor
  · rintro ⟨later, ⟨ok, rem, idle, F, h1, rfl⟩, h2, h3, h4⟩
    exact ⟨ok, rem, idle, F, h1, h2, h3, h4⟩
  · rintro ⟨ok, rem, idle, F, h1, h2, h3, h4⟩
    exact ⟨rem r.st, ⟨ok, rem, idle, F, h1, rfl⟩, h2, h3, h4⟩

/-- C60. Files that follow each other in a *bufio.Reader (with a buffer of at least 4096 bytes) can be read by
successive calls of NewComposite: the calls return the composites of the files, one after the other, and leave the
reader at the first byte after the last file. -/
theorem C60_consecutive {E : Env} {S : Source} {N : Nat} (hN : 4096 ≤ N) {files : List Bytes} {cs : List Composite}
    (hf : List.Forall₂ (FileOf E) files cs) {tail : Bytes} {r : Bufio.Reader S}
    (hr : Unread N r (files.flatten ++ tail)) :
    ∃ r', callsFrom E N files.length r = some (cs, r') ∧ Unread N r' tail := by
  obtain ⟨ok, rem, idle, F, hs⟩ := unread_iff.mp hr
  have F' := faithful_steps F (N := N) (by omega)
  clear hr
  induction hf generalizing r with
  | nil => exact ⟨r, rfl, unread_iff.mpr ⟨ok, rem, idle, F, by simpa using hs⟩⟩
  | cons h1 _ ih =>
    rename_i f c fs cs _
    rw [List.flatten_cons, List.append_assoc] at hs
    obtain ⟨h2, h3⟩ := fileOf_rest h1 (fs.flatten ++ tail)
    obtain ⟨r1, h4, h5⟩ := callFrom_ok F' hs h2
    obtain ⟨r2, h6, h7⟩ := ih h5
    refine ⟨r2, ?_, h7⟩
    simp only [List.length_cons, callsFrom, h4, if_neg h3, h6, Option.map_some]

/-- C60. With any other io.Reader a call returns the composite, but may take up to 4096 bytes following the file out of
the reader; these are lost for later calls. -/
theorem C60_read_ahead {E : Env} {S : Source} {s : S.State} {f tail : Bytes} {c : Composite} (hf : FileOf E f c)
    (hs : Delivers S s (f ++ tail)) :
    ∃ r lost later, call E S s = some (.data c none r) ∧ Delivers S r.st later ∧ tail = lost ++ later ∧
      lost.length ≤ 4096 := by
  obtain ⟨ok, rem, idle, F, hok, hrem⟩ := hs
  obtain ⟨h2, h3⟩ := fileOf_rest hf tail
  obtain ⟨r, h4, h5⟩ := callFrom_ok (N := 4096) (faithful_steps F (by omega)) (r := Bufio.newReader S s)
    ⟨hok, by simp [Bufio.newReader, hrem], by simp [Bufio.newReader], by simp [Bufio.newReader]⟩ h2
  rw [if_neg h3] at h4
  exact ⟨r, r.buf, rem r.st, h4, ⟨ok, rem, idle, F, h5.ok, rfl⟩, h5.eq, h5.fits⟩

theorem script_end_faithful {e : IOErr} (he : e ≠ .bufferFull) (w : Bool) :
    Faithful (script e w) (fun s => s = ([] : List Bytes)) (fun _ => []) (fun _ => 0) where
  stays := by rintro s n rfl -; rfl
  fits := by rintro s n rfl -; exact Nat.zero_le _
  delivers := by rintro s n rfl -; rfl
  ends := by
    rintro s n e' rfl - h
    refine ⟨rfl, ?_⟩
    have : some e = some e' := h
    simp only [Option.some.injEq] at this
    exact this ▸ he
  progress := by
    rintro s n rfl - h
    exact absurd h (by simp [script, scriptRead])
  patience := by intro s _; omega

theorem first_fill {e : IOErr} {b : Bytes} (hb : b ≠ []) (hl : b.length ≤ 4096) (d : UInt8) :
    Bufio.readBytes 4096 d [] (Bufio.newReader (script e false) [b]) =
      Bufio.readBytes 4096 d [] ⟨b, none, ([] : List Bytes)⟩ := by
  have hfill : Bufio.fill 4096 (Bufio.newReader (script e false) [b]) = ⟨b, none, ([] : List Bytes)⟩ := by
    unfold Bufio.fill Bufio.fillLoop
    have hr : (script e false).read (Bufio.newReader (script e false) [b]).st
        (4096 - (Bufio.newReader (script e false) [b]).buf.length) = (b, none, ([] : List Bytes)) := by
      show scriptRead e false [b] (4096 - 0) = _
      simp only [scriptRead]
      rw [if_pos (by omega)]
      rfl
    rw [hr]
    simp only [List.length_pos_iff.mpr hb, if_true]
    rfl
  have hslice : Bufio.readSlice 4096 d 0 (Bufio.newReader (script e false) [b]) =
      Bufio.readSlice 4096 d 0 ⟨b, none, ([] : List Bytes)⟩ := by
    rw [Bufio.readSlice]
    have h1 : Bufio.indexByte d ((Bufio.newReader (script e false) [b]).buf.drop 0) = none := rfl
    have h2 : (Bufio.newReader (script e false) [b]).err = none := rfl
    rw [h1, h2]
    simp only
    rw [if_neg (by simp [Bufio.newReader]), hfill]
    rfl
  rw [Bufio.readBytes, hslice, ← Bufio.readBytes]

/-- C60 (finding). Two small files in one plain io.Reader: the first call returns the first composite but takes the
whole input out of the reader, so that the second call reports a missing header. -/
theorem C60_second_file_lost {E : Env} {f tail : Bytes} {c : Composite} (hf : FileOf E f c)
    (hl : (f ++ tail).length ≤ 4096) {e : IOErr} (he : e ≠ .bufferFull) :
    ∃ r, call E (script e false) [f ++ tail] = some (.data c none r) ∧
      ∃ c', call E (script e false) r.st = some (.fail c' .headerTooShort) := by
  obtain ⟨h2, h3⟩ := fileOf_rest hf tail
  have F' := faithful_steps (N := 4096) (script_end_faithful he false) (by omega)
  have hne : f ++ tail ≠ [] := by
    intro h0
    rw [h0] at h2
    have : headerOf E [] = none := rfl
    have hp := parseHeader_eq E []
    rw [this] at hp
    obtain ⟨e', c', hp, _⟩ := hp
    rw [newCompositeM, M.bind_err hp] at h2
    simp at h2
  obtain ⟨r, h4, h5⟩ := callFrom_ok F' (r := ⟨f ++ tail, none, ([] : List Bytes)⟩)
    ⟨rfl, by simp, hl, by simp⟩ h2
  have hsame : callFrom E 4096 (Bufio.newReader (script e false) [f ++ tail]) =
      callFrom E 4096 (⟨f ++ tail, none, ([] : List Bytes)⟩ : Bufio.Reader (script e false)) := by
    unfold callFrom newCompositeMR parseHeaderR
    rw [first_fill hne hl]
  refine ⟨r, ?_, ?_⟩
  · unfold call
    rw [hsame, h4, if_neg h3]
  · have hst : r.st = ([] : List Bytes) := h5.ok
    have hrel := newComposite_rel F' E (r := Bufio.newReader (script e false) r.st) (b := [])
      ⟨hst, by simp [Bufio.newReader], by simp [Bufio.newReader], by simp [Bufio.newReader]⟩ Composite.zero
    have hm : newCompositeM E [] Composite.zero = .err .headerTooShort Composite.zero := by
      have : parseHeader E [] Composite.zero = .err .headerTooShort Composite.zero := rfl
      rw [newCompositeM, M.bind_err this]
    rw [hm] at hrel
    refine ⟨Composite.zero, ?_⟩
    unfold call callFrom
    rw [hrel]
    rfl

/-! ### archives -/

theorem faithful_const {S : Source} {ok : S.State → Prop} {rem : S.State → Bytes} {idle : S.State → Nat}
    (F : Faithful S ok rem idle) {α : Type} (g : S.State → α) (hg : ∀ s n, ok s → 0 < n → g (S.read s n).2.2 = g s) (a : α) :
    Faithful S (fun s => ok s ∧ g s = a) rem idle where
  stays s n h hn := ⟨F.stays s n h.1 hn, (hg s n h.1 hn).trans h.2⟩
  fits s n h hn := F.fits s n h.1 hn
  delivers s n h hn := F.delivers s n h.1 hn
  ends s n e h hn he := F.ends s n e h.1 hn he
  progress s n h hn := F.progress s n h.1 hn
  patience s h := F.patience s h.1

theorem tarLoop_eq {E : Env} {T : Tar} {damaged : Bool} {ok : T.State → Prop} {cur : T.State → Bytes}
    {later : T.State → List Bytes} {idle : T.State → Nat} (C : TarContract T damaged ok cur later idle) :
    ∀ (entries : List Bytes) (cs : List Composite) (s : T.State), ok s → later s = entries →
    tarLoop E T cs s = some (match readEntries E damaged entries with
      | none => none
      | some (.error e) => some (.error e)
      | some (.ok cs') => some (.ok (cs ++ cs'))) := by
  intro entries
  induction entries with
  | nil =>
    intro cs s hok hl
    rw [tarLoop]
    obtain ⟨s', this⟩ := C.last s hok hl
    rw [this]
    cases damaged
    · simp [readEntries]
    · simp [readEntries]
  | cons b bs ih =>
    intro cs s hok hl
    rw [tarLoop]
    obtain ⟨s', h1, h2, h3, h4⟩ := C.next s b bs hok hl
    rw [h1]
    have F := faithful_const C.reads later C.keeps bs
    have hrel := newComposite_rel (faithful_steps (N := 4096) F (by omega)) E (r := Bufio.newReader T.source s') (b := b)
      ⟨⟨h2, h4⟩, by simp [Bufio.newReader, h3], by simp [Bufio.newReader], by simp [Bufio.newReader]⟩ Composite.zero
    simp only [call, callFrom, readEntries, NewComposite, newCompositeRest]
    cases hm : newCompositeM E b Composite.zero with
    | panic => rw [hm] at hrel; simp only [hrel]
    | err e c =>
      rw [hm] at hrel
      have hrel' : newCompositeMR E 4096 (Bufio.newReader T.source s') Composite.zero = some (.err e c) := hrel
      simp only [hrel']
    | ok b' c =>
      rw [hm] at hrel
      obtain ⟨r, hr1, hr2⟩ := hrel
      simp only [hr1]
      by_cases hu : c.dataUnit = Unit_unknown
      · simp only [if_pos hu]
      · simp only [if_neg hu]
        rw [ih (cs ++ [c]) r.st hr2.ok.1 hr2.ok.2]
        cases readEntries E damaged bs with
        | none => rfl
        | some y =>
          cases y with
          | error e => rfl
          | ok cs' => simp

/-- C61. NewComposites returns for every tar reader, however it delivers the entries (in whatever chunks, with errors
together with or after the last bytes), and the result is a function of the contents of the entries alone: C28, C29 and
C30 hold for it. In particular bytes of one entry never leak into the next, although every call of NewComposite reads
ahead. -/
theorem C61_archive_reader {E : Env} {T : Tar} {s : T.State} {a : Archive} (h : TarDelivers T s a)
    (sortSlice : (Composite → Composite → Bool) → List Composite → List Composite) :
    NewCompositesTar E sortSlice T s = some (NewComposites E sortSlice a) := by
  obtain ⟨ok, cur, later, idle, C, hok, hl⟩ := h
  unfold NewCompositesTar NewComposites
  rw [tarLoop_eq C _ [] s hok hl]
  cases readEntries E a.damaged a.entries with
  | none => rfl
  | some y =>
    cases y with
    | error e => rfl
    | ok cs' => simp

/-- C61. Two tar readers that deliver the same entries give the same result. -/
theorem C61_chunking {E : Env} {T T' : Tar} {s : T.State} {s' : T'.State} {a : Archive} (h : TarDelivers T s a)
    (h' : TarDelivers T' s' a) (sortSlice : (Composite → Composite → Bool) → List Composite → List Composite) :
    NewCompositesTar E sortSlice T s = NewCompositesTar E sortSlice T' s' := by
  rw [C61_archive_reader h, C61_archive_reader h']

/-- C61. Every scripted tar reader delivers the entries of its script, as in C17_scripts. -/
theorem C61_scripts {e : IOErr} (he : e ≠ .bufferFull) (w damaged : Bool) {cs : List (List Bytes)}
    (h : ∀ c ∈ cs, Lively c) :
    TarDelivers (scriptTar e w damaged) ([], cs) ⟨cs.map List.flatten, damaged⟩ := by
  have F := script_faithful he w
  have hnil : Lively [] := by
    intro q hq
    rw [List.suffix_nil.mp hq]; simp
  refine ⟨fun s => Lively s.1 ∧ ∀ c ∈ s.2, Lively c, fun s => s.1.flatten, fun s => s.2.map List.flatten,
    fun s => (s.1.takeWhile List.isEmpty).length, ⟨?_, ?_, ?_, ?_⟩, ⟨hnil, h⟩, rfl⟩
  · exact {
      stays := fun s n hs hn => ⟨F.stays s.1 n hs.1 hn, hs.2⟩
      fits := fun s n hs hn => F.fits s.1 n hs.1 hn
      delivers := fun s n hs hn => F.delivers s.1 n hs.1 hn
      ends := fun s n e' hs hn => F.ends s.1 n e' hs.1 hn
      progress := fun s n hs hn => F.progress s.1 n hs.1 hn
      patience := fun s hs => F.patience s.1 hs.1 }
  · intro s n hs hn; rfl
  · rintro ⟨c, l⟩ b bs hs hl
    cases l with
    | nil => simp at hl
    | cons x xs =>
      simp only [List.map_cons, List.cons.injEq] at hl
      exact ⟨_, rfl, ⟨hs.2 x (by simp), fun c hc => hs.2 c (List.mem_cons_of_mem _ hc)⟩, hl.1, hl.2⟩
  · rintro ⟨c, l⟩ hs hl
    simp only [List.map_eq_nil_iff] at hl
    subst hl
    exact ⟨_, rfl⟩

/-- an archive of two entries, the later forecast first, delivered byte by byte -/
example : ∃ c1 c2, NewCompositesTar env0 insertionSort (scriptTar .eof true false)
      ([], [sampleRX2.map fun b => [b], sampleRX.map fun b => [b]]) = some (some (.ok [c1, c2])) ∧
    c1.forecastTime < c2.forecastTime := by
  have hl : ∀ b : Bytes, Lively (b.map fun x => [x]) := by
    intro b q hq
    rcases q with _ | ⟨x, q⟩
    · simp
    · have : x ∈ b.map fun x => [x] := hq.subset (by simp)
      obtain ⟨y, _, rfl⟩ := List.mem_map.mp this
      rw [List.takeWhile_cons_of_neg (by simp)]
      simp
  have hfl : ∀ b : Bytes, (b.map fun x => [x]).flatten = b := by
    intro b; induction b with
    | nil => rfl
    | cons x xs ih => simp [ih]
  have h := C61_scripts (e := .eof) (by simp) true false (cs := [sampleRX2.map fun b => [b], sampleRX.map fun b => [b]])
    (by
      intro c hc
      rcases List.mem_cons.mp hc with rfl | hc
      · exact hl _
      · rw [List.mem_singleton.mp hc]; exact hl _)
  rw [C61_archive_reader h]
  simp only [List.map_cons, List.map_nil, hfl]
  obtain ⟨c1, h1, t1⟩ := sampleRX_at
  obtain ⟨c2, h2, t2⟩ := sampleRX2_at
  have h : c1.forecastTime < c2.forecastTime := by rw [t1, t2]; norm_num
  exact ⟨c1, c2, by rw [newComposites_ok.mpr ⟨[c2, c1], rfl, .cons h2 (.cons h1 .nil), sort_two h⟩], h⟩

/-! ### concrete files -/

theorem fileOf_of {E : Env} {f : Bytes} {c : Composite} (h : NewComposite E f = .ret c none)
    (h' : okWith (NewComposite E f.dropLast) (fun _ => true) = false) : FileOf E f c := by
  refine ⟨h, fun m hm c' hc' => ?_⟩
  obtain ⟨n, hn, h1, h2⟩ := C16_truncation (Or.inl h : Success E f c)
  have hd : f.dropLast = f.take (f.length - 1) := List.dropLast_eq_take ..
  rw [hd] at h'
  have hlast : f.length - 1 < n := by
    by_contra hle
    rw [h1 _ (by omega), h] at h'
    simp [okWith] at h'
  obtain ⟨c2, e, h3, h4⟩ := h2 m (by omega)
  rcases hc' with hc' | hc' <;> rw [h3] at hc' <;> simp at hc'
  exact h4 hc'.2

/-- the RX sample without its surplus byte is a complete file, and so are the RW and PC samples -/
theorem sample_files : (∃ c, FileOf env0 (sampleRX.take 52) c) ∧ (∃ c, FileOf env0 sampleRW c) ∧
    ∃ c, FileOf env0 samplePC c := by
  refine ⟨?_, ?_, ?_⟩
  · obtain ⟨c, h, _⟩ := parsesAt (b := sampleRX.take 52) (t := 1486041000000000000) (by decide +kernel)
    exact ⟨c, fileOf_of h (by decide +kernel)⟩
  · obtain ⟨c, h, _⟩ := parsesAt (b := sampleRW) (t := 1486041000000000000) (by decide +kernel)
    exact ⟨c, fileOf_of h (by decide +kernel)⟩
  · obtain ⟨c, h, _⟩ := parsesAt (b := samplePC) (t := 1486041000000000000) (by decide +kernel)
    exact ⟨c, fileOf_of h (by decide +kernel)⟩

/-- three files and two more bytes in a *bufio.Reader, one of which it has buffered already -/
example : ∃ cs r', callsFrom env0 4096 3
      (⟨(sampleRX.take 1), none, [sampleRX.take 52 |>.drop 1, sampleRW, samplePC ++ [7, 8]]⟩ : Bufio.Reader (script .eof true)) =
      some (cs, r') ∧ Unread 4096 r' [7, 8] := by
  obtain ⟨⟨c1, h1⟩, ⟨c2, h2⟩, c3, h3⟩ := sample_files
  obtain ⟨r', h, h'⟩ := C60_consecutive (E := env0) (N := 4096) (by omega) (files := [sampleRX.take 52, sampleRW, samplePC])
    (cs := [c1, c2, c3]) (.cons h1 (.cons h2 (.cons h3 .nil))) (tail := [7, 8])
    (r := (⟨(sampleRX.take 1), none, [sampleRX.take 52 |>.drop 1, sampleRW, samplePC ++ [7, 8]]⟩ : Bufio.Reader (script .eof true)))
    ⟨_, C17_scripts (by simp) true (cs := [sampleRX.take 52 |>.drop 1, sampleRW, samplePC ++ [7, 8]]) (by
      intro q hq
      have : ∀ q ∈ [sampleRX.take 52 |>.drop 1, sampleRW, samplePC ++ [7, 8]].tails,
        (q.takeWhile List.isEmpty).length < 100 := by decide +kernel
      exact this q ((List.mem_tails _ _).mpr hq)), by decide +kernel, by decide +kernel, by simp⟩
  exact ⟨_, r', h, h'⟩

/-- two files in one plain reader: the second is lost -/
example : ∃ c r, call env0 (script .eof false) [sampleRX.take 52 ++ sampleRW] = some (.data c none r) ∧
    ∃ c', call env0 (script .eof false) r.st = some (.fail c' .headerTooShort) := by
  obtain ⟨⟨c1, h1⟩, _, _⟩ := sample_files
  exact ⟨c1, C60_second_file_lost h1 (by decide +kernel) (by simp)⟩

end Props
