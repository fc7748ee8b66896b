/-
The tar reader of the standard library satisfies the contract of tar readers.
-/
import Verif.Lemmas.Tar
import Mathlib.Tactic.IntervalCases

namespace Radolan.TarReader
open Go _root_.Spec _root_.Spec.Tar

variable {S : Source} {ok : S.State → Prop} {rem : S.State → Bytes} {idle : S.State → Nat} {e : IOErr}

/-- the states between the calls -/
def Between (ok : S.State → Prop) (rem : S.State → Bytes) (e : IOErr) (damaged : Bool) (s : State S) : Prop :=
  ok s.st ∧ (s.err = none ∧ (unpack e s.nb s.pad (rem s.st)).2 = (if damaged then End.broken else .clean) ∨
    damaged = true ∧ ∃ e', s.err = some e' ∧ e' ≠ .eof ∧ e' ≠ .bufferFull)

/-- the unread part of the current entry -/
def cur (rem : S.State → Bytes) (s : State S) : Bytes := if s.err = none then (rem s.st).take s.nb else []

/-- the entries to come -/
def later (rem : S.State → Bytes) (e : IOErr) (s : State S) : List Bytes :=
  if s.err = none then (unpack e s.nb s.pad (rem s.st)).1 else []

theorem unpack_short (e : IOErr) {nb : Nat} (pad : Nat) (h : 0 < nb) : unpack e nb pad [] = ([], .broken) := by
  rw [unpack, if_pos (by simpa using h)]

theorem read_spec (F : Faithful S ok rem idle)
    (hE : ∀ s n e', ok s → 0 < n → (S.read s n).2.1 = some e' → e' = e) {damaged : Bool} {s : State S}
    (hs : Between ok rem e damaged s) {n : Nat} (hn : 0 < n) :
    Between ok rem e damaged (read s n).2.2 ∧ (read s n).1.length ≤ n ∧
    cur rem s = (read s n).1 ++ cur rem (read s n).2.2 ∧
    (∀ e', (read s n).2.1 = some e' → cur rem (read s n).2.2 = [] ∧ e' ≠ .bufferFull) ∧
    ((read s n).2.1 = none → (read s n).1 = [] → idle (read s n).2.2.st < idle s.st) ∧
    later rem e (read s n).2.2 = later rem e s := by
  obtain ⟨hok, hs⟩ := hs
  cases herr : s.err with
  | some e' =>
    rcases hs with ⟨h, _⟩ | ⟨hd, e'', h1, h2, h3⟩
    · rw [h] at herr; cases herr
    · rw [herr] at h1
      obtain rfl : e' = e'' := by simpa using h1
      have hr : read s n = ([], some e', s) := by unfold read; rw [herr]
      rw [hr]
      refine ⟨⟨hok, Or.inr ⟨hd, e', herr, h2, h3⟩⟩, by simp, by simp, ?_, by simp, rfl⟩
      intro e2 he2
      obtain rfl : e' = e2 := by simpa using he2
      exact ⟨by simp [cur, herr], h3⟩
  | none =>
    rcases hs with ⟨_, hs⟩ | ⟨_, e', h1, _⟩
    swap
    · rw [herr] at h1; cases h1
    by_cases hnb : 0 < s.nb
    · have hk : 0 < min n s.nb := by omega
      have h1 := F.stays s.st _ hok hk
      have h2 := F.fits s.st _ hok hk
      have h3 := F.delivers s.st _ hok hk
      have h4 := fun e' => F.ends s.st _ e' hok hk
      have h5 := F.progress s.st _ hok hk
      have h7 := fun e' => hE s.st _ e' hok hk
      unfold read
      simp only [herr, if_pos hk]
      generalize S.read s.st (min n s.nb) = x at *
      obtain ⟨c, err, st⟩ := x
      simp only at h1 h2 h3 h4 h5 h7 ⊢
      have hc : c.length ≤ s.nb := by omega
      have hadv : unpack e (s.nb - c.length) s.pad (rem st) = unpack e s.nb s.pad (rem s.st) := by
        rw [unpack_advance e s.nb s.pad c (rem st) hc, ← h3]
      have hcur : (rem s.st).take s.nb = c ++ (rem st).take (s.nb - c.length) := by
        rw [h3, List.take_append, List.take_of_length_le hc]
      refine ⟨?_, by omega, ?_, ?_, ?_, ?_⟩
      all_goals cases err with
      | none => ?_
      | some e' => ?_
      -- Between
      · refine ⟨h1, Or.inl ⟨?_, by simp only; rw [hadv]; exact hs⟩⟩
        by_cases hz : s.nb - c.length = 0 <;> simp [hz]
      · obtain ⟨h8, h9⟩ := h4 e' rfl
        obtain rfl := h7 e' rfl
        rw [h8] at hadv
        refine ⟨h1, ?_⟩
        by_cases hz : 0 < s.nb - c.length
        · rw [unpack_short e' s.pad hz] at hadv
          rw [← hadv] at hs
          right
          cases damaged with
          | false => simp at hs
          | true =>
            refine ⟨rfl, ?_⟩
            by_cases he : e' = .eof
            · exact ⟨.unexpectedEOF, by simp [he, hz], by simp, by simp⟩
            · exact ⟨e', by simp [he], he, h9⟩
        · by_cases he : e' = .eof
          · left
            refine ⟨by simp [he, hz], ?_⟩
            simp only [h8]
            rw [hadv]; exact hs
          · right
            rw [unpack_nil_eof_ne he] at hadv
            rw [← hadv] at hs
            cases damaged with
            | false => simp at hs
            | true => exact ⟨rfl, e', by simp [he], he, h9⟩
      -- delivers
      · unfold cur
        rw [if_pos herr, hcur]
        by_cases hz : s.nb - c.length = 0 <;> simp [hz]
      · obtain ⟨h8, h9⟩ := h4 e' rfl
        unfold cur
        rw [if_pos herr, hcur, h8]
        simp
      -- ends
      · intro e2 he2
        by_cases hz : s.nb - c.length = 0
        · simp only [hz] at he2
          simp at he2
          subst he2
          simp [cur, hz]
        · simp [hz] at he2
      · intro e2 he2
        obtain ⟨h8, h9⟩ := h4 e' rfl
        refine ⟨by simp [cur, h8], ?_⟩
        split at he2
        · simp at he2; subst he2; simp
        · simp at he2; subst he2; exact h9
      -- progress
      · intro h h'
        exact h5 rfl h'
      · intro h
        split at h <;> simp at h
      -- keeps
      · unfold later
        rw [if_pos herr, ← hadv]
        by_cases hz : s.nb - c.length = 0 <;> simp [hz]
      · obtain ⟨h8, h9⟩ := h4 e' rfl
        obtain rfl := h7 e' rfl
        unfold later
        rw [if_pos herr, ← hadv, h8]
        by_cases hz : 0 < s.nb - c.length
        · rw [unpack_short e' s.pad hz]
          simp only [ite_self]
        · by_cases he : e' = .eof
          · simp [he, hz]
          · rw [unpack_nil_eof_ne he]
            simp
    · have h0 : s.nb = 0 := by omega
      have hr : read s n = ([], some .eof, ⟨s.st, 0, s.pad, none⟩) := by
        unfold read
        simp [herr, h0]
      rw [hr]
      refine ⟨⟨hok, Or.inl ⟨rfl, ?_⟩⟩, by simp, ?_, ?_, by simp, ?_⟩
      · simp only; rw [← h0]; exact hs
      · simp [cur, h0]
      · intro e2 he2
        simp at he2; subst he2
        simp [cur]
      · simp [later, herr, h0]

/-- the tar reader of the standard library, over a reader that delivers `b` and then `e`, delivers the archive in `b` -/
theorem goTar_delivers {s : S.State} {b : Bytes} {e : IOErr} (h : DeliversThen S s b e)
    (ext : Bytes → State S → Option (TarNext × State S)) {entries : List Bytes} {damaged : Bool}
    (hu : unpack e 0 0 b = (entries, if damaged then .broken else .clean)) :
    TarDelivers (goTar S ext) (newReader s) ⟨entries, damaged⟩ := by
  obtain ⟨ok, rem, idle, F, hok, hrem, hE⟩ := h
  refine ⟨Between ok rem e damaged, cur rem, later rem e, fun s => idle s.st, ⟨?_, ?_, ?_, ?_⟩, ?_, ?_⟩
  · exact {
      stays := fun s n hs hn => (read_spec F hE hs hn).1
      fits := fun s n hs hn => (read_spec F hE hs hn).2.1
      delivers := fun s n hs hn => (read_spec F hE hs hn).2.2.1
      ends := fun s n e' hs hn => (read_spec F hE hs hn).2.2.2.1 e'
      progress := fun s n hs hn => (read_spec F hE hs hn).2.2.2.2.1
      patience := fun s hs => F.patience s.st hs.1 }
  · exact fun s n hs hn => (read_spec F hE hs hn).2.2.2.2.2
  · rintro s c cs ⟨h1, h2⟩ hl
    unfold later at hl
    split at hl
    swap
    · simp at hl
    rename_i herr
    rcases h2 with ⟨_, h2⟩ | ⟨_, e', h3, _⟩
    swap
    · rw [herr] at h3; cases h3
    have key := next_spec F hE (ext := ext) h1 herr (by rw [h2]; cases damaged <;> simp)
    generalize hx : unpack e s.nb s.pad (rem s.st) = x at *
    obtain ⟨l, k⟩ := x
    simp only at hl h2
    subst hl
    obtain ⟨s', g1, g2, g3, g4, g5⟩ := key
    exact ⟨s', g1, ⟨g2, Or.inl ⟨g3, by rw [g5]; exact h2⟩⟩, by simp [cur, g3, g4], by simp [later, g3, g5]⟩
  · rintro s ⟨h1, h2⟩ hl
    cases herr : s.err with
    | some e' =>
      rcases h2 with ⟨h2, _⟩ | ⟨hd, e'', h3, h4, _⟩
      · rw [herr] at h2; cases h2
      rw [herr] at h3
      obtain rfl : e' = e'' := by simpa using h3
      refine ⟨(stop s e' s.st).2, ?_⟩
      show next ext s = _
      unfold next
      rw [herr]
      simp only [hd, if_true]
      have : (stop s e' s.st).1 = .error := by unfold stop; rw [if_neg h4]
      rw [← this]
      rfl
    | none =>
      rcases h2 with ⟨_, h2⟩ | ⟨_, e', h3, _⟩
      swap
      · rw [herr] at h3; cases h3
      unfold later at hl
      rw [if_pos herr] at hl
      have key := next_spec F hE (ext := ext) h1 herr (by rw [h2]; cases damaged <;> simp)
      generalize hx : unpack e s.nb s.pad (rem s.st) = x at *
      obtain ⟨l, k⟩ := x
      simp only at hl h2
      subst hl
      obtain ⟨s', key⟩ := key
      refine ⟨s', key.trans ?_⟩
      rw [h2]
      cases damaged <;> rfl
  · refine ⟨hok, Or.inl ⟨rfl, ?_⟩⟩
    simp only [newReader, hrem, hu]
  · simp [later, newReader, hrem, hu]

/-! ### header blocks -/

theorem cut_eq (h : Bytes) (i n : Nat) : cut h i (i + n) = field h i n := by
  unfold cut field
  rw [List.drop_take]
  congr 1
  omega

theorem octal_digits {ds : Bytes} {v : Nat} (h : Octal ds v) : ∀ c ∈ ds, 48 ≤ c.toNat ∧ c.toNat ≤ 55 := by
  induction h with
  | nil => simp
  | @snoc ds v d _ hd ih =>
    intro c hc
    rcases List.mem_append.mp hc with hc | hc
    · exact ih c hc
    · simp at hc
      subst hc
      interval_cases d <;> decide

theorem octal_fold {ds : Bytes} {v : Nat} (h : Octal ds v) :
    ds.foldlM (fun n c => if 48 ≤ c.toNat ∧ c.toNat ≤ 55 then some (8 * n + (c.toNat - 48)) else none) 0 = some v := by
  induction h with
  | nil => rfl
  | @snoc ds v d _ hd ih =>
    rw [List.foldlM_append, ih]
    have : ∀ d ≤ 7, 48 ≤ (48 + UInt8.ofNat d).toNat ∧ (48 + UInt8.ofNat d).toNat ≤ 55 ∧ (48 + UInt8.ofNat d).toNat - 48 = d := by
      intro d hd; interval_cases d <;> decide
    obtain ⟨h1, h2, h3⟩ := this d hd
    show (some v).bind _ = _
    rw [Option.bind_some, List.foldlM_cons, if_pos ⟨h1, h2⟩, h3]
    rfl

theorem blank_iff (c : UInt8) : blank c = true ↔ c = 32 ∨ c = 0 := by simp [blank]

theorem digit_not_blank {c : UInt8} (h : 48 ≤ c.toNat ∧ c.toNat ≤ 55) : blank c = false := by
  rw [Bool.eq_false_iff]
  intro hb
  rcases (blank_iff c).mp hb with rfl | rfl <;> simp at h

theorem trim_field {pre ds post : Bytes} (h1 : Tar.Blank pre) (h2 : Tar.Blank post)
    (h3 : ∀ c ∈ ds, 48 ≤ c.toNat ∧ c.toNat ≤ 55) : trim (pre ++ ds ++ post) = ds := by
  have dw : ∀ (p x : Bytes), Tar.Blank p → (p ++ x).dropWhile blank = x.dropWhile blank := by
    intro p x hp
    induction p with
    | nil => rfl
    | cons a p ih =>
      rw [List.cons_append, List.dropWhile_cons_of_pos ((blank_iff a).mpr (hp a (by simp)))]
      exact ih fun c hc => hp c (by simp [hc])
  have dn : ∀ x : Bytes, (∀ c ∈ x, 48 ≤ c.toNat ∧ c.toNat ≤ 55) → x.dropWhile blank = x := by
    intro x hx
    cases x with
    | nil => rfl
    | cons a x => rw [List.dropWhile_cons_of_neg (by rw [digit_not_blank (hx a (by simp))]; simp)]
  unfold trim
  rw [List.append_assoc, dw pre _ h1]
  by_cases hd : ds = []
  · subst hd
    have := dw post [] h2
    simp only [List.append_nil] at this
    rw [List.nil_append, this]; rfl
  · have : (ds ++ post).dropWhile blank = ds ++ post := by
      cases ds with
      | nil => exact absurd rfl hd
      | cons a x => rw [List.cons_append, List.dropWhile_cons_of_neg (by rw [digit_not_blank (h3 a (by simp))]; simp)]
    rw [this, List.reverse_append, dw _ _ (fun c hc => h2 c (by simpa using hc)),
      dn _ (fun c hc => h3 c (by simpa using hc)), List.reverse_reverse]

theorem parseOctal_field {f : Bytes} {v : Nat} (h : NumField f v) : parseOctal f = some v := by
  obtain ⟨pre, ds, post, rfl, h1, h2, h3⟩ := h
  have hd := octal_digits h3
  unfold parseOctal
  rw [trim_field h1 h2 hd]
  by_cases h0 : ds = []
  · subst h0
    have := octal_fold h3
    simp at this
    simp [this]
  · rw [if_neg h0]
    have : parseString ds = ds := by
      have tw : ∀ x : Bytes, (∀ c ∈ x, 48 ≤ c.toNat ∧ c.toNat ≤ 55) → x.takeWhile (· ≠ 0) = x := by
        intro x hx
        induction x with
        | nil => rfl
        | cons a x ih =>
          have ha := hx a (by simp)
          rw [List.takeWhile_cons_of_pos, ih fun c hc => hx c (by simp [hc])]
          simp only [ne_eq, decide_eq_true_eq]
          rintro rfl
          simp at ha
      exact tw ds hd
    rw [this, parseUint8, if_neg h0, octal_fold h3]

theorem parseNumeric_field {f : Bytes} {v : Nat} (h : NumField f v) : parseNumeric f = some (v : Int) := by
  have hp := parseOctal_field h
  obtain ⟨pre, ds, post, hf, h1, h2, h3⟩ := h
  have hd := octal_digits h3
  cases f with
  | nil => simp [parseNumeric, hp]
  | cons c cs =>
    have hc : c ∈ pre ++ ds ++ post := by rw [← hf]; simp
    have : c &&& 0x80 = 0 := by
      have : (c = 32 ∨ c = 0) ∨ (48 ≤ c.toNat ∧ c.toNat ≤ 55) := by
        simp only [List.mem_append] at hc
        rcases hc with (hc | hc) | hc
        · exact Or.inl (h1 c hc)
        · exact Or.inr (hd c hc)
        · exact Or.inl (h2 c hc)
      rcases this with (rfl | rfl) | this
      · decide
      · decide
      · obtain ⟨n, hn⟩ : ∃ n, n = c.toNat := ⟨_, rfl⟩
        have hc : c = UInt8.ofNat n := by rw [hn]; simp
        rw [← hn] at this
        obtain ⟨t1, t2⟩ := this
        rw [hc]
        clear hn hc
        interval_cases n <;> decide
    simp [parseNumeric, this, hp]

theorem sum_eq (h : Bytes) : sumUnsigned h = (checksum h : Int) := by
  have : ∀ l : Bytes, (l.map fun c => (c.toNat : Int)).sum = (((l.map UInt8.toNat).sum : Nat) : Int) := by
    intro l; induction l with
    | nil => rfl
    | cons a l ih => simp [ih]
  unfold sumUnsigned blanked checksum
  rw [List.map_append, List.map_append, List.sum_append, List.sum_append, this, this, this]
  have : ((List.replicate 8 (32 : UInt8)).map UInt8.toNat).sum = 256 := by decide
  rw [this]
  push_cast
  ring

/-- a well-formed header is accepted -/
theorem header_block {h : Bytes} {size : Nat} {t : UInt8} (H : HeaderBlock h size t) (ht : t ≠ 0) (hx : extension t = false) :
    header h = .file (if headerOnly t then 0 else size) := by
  have hty : typeflag h = t := by
    unfold typeflag
    rw [List.getD_eq_getElem?_getD, H.type]; rfl
  have hck : checksumOK h = true := by
    unfold checksumOK
    rw [show cut h 148 156 = field h 148 8 from cut_eq h 148 8, parseOctal_field H.sum]
    simp [sum_eq]
  have hsz : parseNumeric (cut h 124 136) = some (size : Int) := by
    rw [show cut h 124 136 = field h 124 12 from cut_eq h 124 12, parseNumeric_field H.size]
  have hns : format h ≠ .star := by
    unfold format
    have := H.noStar
    rw [← cut_eq] at this
    simp only [Nat.reduceAdd] at this
    rw [if_neg this]
    split
    · simp
    · split <;> simp
  have hall : ((numericFields h).any fun f => (parseNumeric f).isNone) = false := by
    rw [Bool.eq_false_iff]
    intro hany
    obtain ⟨f, hf, hp⟩ := List.any_eq_true.mp hany
    have num : ∀ {i n}, (∃ v, NumField (field h i n) v) → (parseNumeric (cut h i (i + n))).isNone = false := by
      rintro i n ⟨v, hv⟩
      rw [cut_eq, parseNumeric_field hv]; rfl
    have e1 := num H.mode
    have e2 := num H.uid
    have e3 := num H.gid
    have e4 := num ⟨_, H.size⟩
    have e5 := num H.mtime
    have e6 := num H.devmajor
    have e7 := num H.devminor
    simp only [Nat.reduceAdd] at e1 e2 e3 e4 e5 e6 e7
    unfold numericFields at hf
    rw [if_neg hns] at hf
    simp only [List.mem_append, List.mem_cons, List.not_mem_nil, or_false] at hf
    rcases hf with (rfl | rfl | rfl | rfl | rfl) | hf
    · rw [e1] at hp; cases hp
    · rw [e2] at hp; cases hp
    · rw [e3] at hp; cases hp
    · rw [e4] at hp; cases hp
    · rw [e5] at hp; cases hp
    · split at hf
      · simp at hf
      · simp only [List.mem_cons, List.not_mem_nil, or_false] at hf
        rcases hf with rfl | rfl
        · rw [e6] at hp; cases hp
        · rw [e7] at hp; cases hp
  unfold header
  rw [hck, if_neg (by simp), hall, if_neg (by simp), hsz, hty]
  simp only [hx]
  by_cases hh : headerOnly t = true
  · simp [hh, ht]
  · simp [hh, ht]

/-- a well-formed header is not a block of zeros -/
theorem header_not_zero {h : Bytes} {size : Nat} {t : UInt8} (H : HeaderBlock h size t) (ht : t ≠ 0) : h ≠ List.replicate 512 0 := by
  rintro rfl
  have := H.type
  rw [List.getElem?_replicate] at this
  simp at this
  exact ht this.symm

theorem padding_eq {n p : Nat} (h1 : p < 512) (h2 : 512 ∣ n + p) : blockPadding n = p := by
  unfold blockPadding
  omega

/-- a header at the beginning of the rest -/
theorem unpack_header (e : IOErr) {h : Bytes} {n : Nat} (hl : h.length = 512) (hz : h ≠ List.replicate 512 0)
    (hh : header h = .file n) (r : Bytes) : unpack e 0 0 (h ++ r) =
      (r.take n :: (unpack e n (blockPadding n) r).1, (unpack e n (blockPadding n) r).2) := by
  rw [unpack, if_neg (by simp), if_neg (by simp)]
  have h1 : (h ++ r).take 512 = h := by rw [← hl]; simp
  have h2 : (h ++ r).drop 512 = r := by rw [← hl]; simp
  have h3 : h ++ r ≠ [] := by intro h0; have := congrArg List.length h0; simp [hl] at this
  simp only [Nat.zero_add, List.drop_zero]
  rw [if_neg h3, dif_neg (by simp [hl]), h1, if_neg hz, hh, h2]

/-- the content and the padding are skipped -/
theorem unpack_skip (e : IOErr) (c p r : Bytes) : unpack e c.length p.length (c ++ p ++ r) = unpack e 0 0 r := by
  conv_lhs => rw [unpack]
  conv_rhs => rw [unpack]
  have h1 : (c ++ p ++ r).drop (c.length + p.length) = r := by
    rw [← List.length_append]; simp
  have h2 : (c ++ p ++ r).length = c.length + p.length + r.length := by simp; omega
  rw [h1, h2, if_neg (show ¬ c.length + p.length + r.length < c.length by omega),
    if_neg (show ¬ c.length + p.length + r.length < c.length + p.length by omega),
    if_neg (show ¬ r.length < 0 by omega), if_neg (show ¬ r.length < 0 + 0 by omega)]
  simp only [Nat.zero_add, List.drop_zero]

theorem member_header {h c : Bytes} (H : HeaderBlock h c.length 48 ∨ HeaderBlock h c.length 55) :
    h.length = 512 ∧ h ≠ List.replicate 512 0 ∧ header h = .file c.length := by
  rcases H with H | H
  · exact ⟨H.length, header_not_zero H (by decide), header_block H (by decide) (by decide)⟩
  · exact ⟨H.length, header_not_zero H (by decide), header_block H (by decide) (by decide)⟩

theorem unpack_member (e : IOErr) {m c : Bytes} (hm : Member m c) (r : Bytes) :
    unpack e 0 0 (m ++ r) = (c :: (unpack e 0 0 r).1, (unpack e 0 0 r).2) := by
  obtain ⟨h, p, rfl, H, hp1, hp2⟩ := hm
  obtain ⟨h1, h2, h3⟩ := member_header H
  have e1 : h ++ c ++ p ++ r = h ++ (c ++ p ++ r) := by simp
  rw [e1, unpack_header e h1 h2 h3, padding_eq hp1 hp2, unpack_skip]
  simp [List.append_assoc]

theorem unpack_members (e : IOErr) {ms : Bytes} {cs : List Bytes} (hm : Members ms cs) (r : Bytes) :
    unpack e 0 0 (ms ++ r) = (cs ++ (unpack e 0 0 r).1, (unpack e 0 0 r).2) := by
  induction hm with
  | nil => simp
  | @cons m c ms cs h1 _ ih => rw [List.append_assoc, unpack_member e h1, ih]; simp

theorem unpack_end (e : IOErr) {r : Bytes} (h : EndMark r) : unpack e 0 0 r = ([], .clean) := by
  obtain ⟨j, rfl⟩ := h
  unfold zeroBlock
  generalize hz : List.replicate 512 (0 : UInt8) = z
  have hl : z.length = 512 := by rw [← hz, List.length_replicate]
  rw [unpack, if_neg (by simp), if_neg (by simp)]
  have h1 : (z ++ z ++ j).take 512 = z := by rw [List.append_assoc, ← hl]; simp
  have h2 : (z ++ z ++ j).drop 512 = z ++ j := by rw [List.append_assoc, ← hl]; simp
  have h3 : (z ++ j).take 512 = z := by rw [← hl]; simp
  have n1 : z ++ z ++ j ≠ [] := by intro h0; have := congrArg List.length h0; simp [hl] at this
  have n2 : z ++ j ≠ [] := by intro h0; have := congrArg List.length h0; simp [hl] at this
  simp only [Nat.zero_add, List.drop_zero]
  rw [if_neg n1, dif_neg (by simp [hl]), hz, h1, if_pos rfl, h2, if_neg n2, if_neg (by simp [hl]), h3, if_pos rfl]

theorem unpack_nothing (e : IOErr) : unpack e 0 0 [] = ([], endOf e) := by
  rw [unpack]; simp

theorem unpack_zero (e : IOErr) : unpack e 0 0 zeroBlock = ([], endOf e) := by
  unfold zeroBlock
  generalize hz : List.replicate 512 (0 : UInt8) = z
  have hl : z.length = 512 := by rw [← hz, List.length_replicate]
  rw [unpack, if_neg (by simp), if_neg (by simp)]
  have h1 : z.take 512 = z := by rw [← hl]; simp
  have h2 : z.drop 512 = [] := by rw [← hl]; simp
  have n1 : z ≠ [] := by intro h0; have := congrArg List.length h0; simp [hl] at this
  simp only [Nat.zero_add, List.drop_zero]
  rw [if_neg n1, dif_neg (by simp [hl]), hz, h1, if_pos rfl, h2, if_pos rfl]

end Radolan.TarReader
