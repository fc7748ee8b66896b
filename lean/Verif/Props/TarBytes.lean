/-
C101: archives as byte streams.
-/
import Verif.Lemmas.TarContract
import Verif.Props.Archive

namespace Props
open Go Radolan Radolan.TarReader Spec Spec.Tar

variable {E : Env} {S : Source} {s : S.State} {e : IOErr} {ms : Bytes} {cs : List Bytes}
  {sortSlice : (Composite → Composite → Bool) → List Composite → List Composite}
  {ext : Bytes → TarReader.State S → Option (TarNext × TarReader.State S)}

theorem endOf_eq (e : IOErr) : endOf e = if decide (e ≠ .eof) then .broken else .clean := by
  unfold endOf
  by_cases h : e = .eof <;> simp [h]

/-- C101. An archive as a stream of bytes, delivered in whatever chunks: members, each a header, the content and padding,
and then the end mark (two blocks of zeros, whatever comes after them, and however the stream ends), a single block of
zeros, or nothing. NewComposites parses exactly the contents of the members, in order, whatever names, modes, owners, times
and padding are stored with them: C28, C29 and C30 hold with `cs` as the entries. -/
theorem C101_archive {r : Bytes} (hm : Members ms cs) (hr : EndMark r ∨ (r = [] ∨ r = zeroBlock) ∧ e = .eof)
    (h : DeliversThen S s (ms ++ r) e) :
    NewCompositesTar E sortSlice (goTar S ext) (newReader s) = some (NewComposites E sortSlice ⟨cs, false⟩) := by
  apply C61_archive_reader
  apply goTar_delivers h
  rw [unpack_members e hm]
  rcases hr with hr | ⟨rfl | rfl, rfl⟩
  · rw [unpack_end e hr]; simp
  · rw [unpack_nothing]; simp [endOf]
  · rw [unpack_zero]; simp [endOf]

/-- where a member was cut off: the entries -/
theorem unpack_cut {m c : Bytes} (hm : Member m c) {k : Nat} (hk : k < m.length) :
    (0 < k → k < 512 → unpack e 0 0 (m.take k) = ([], .broken)) ∧
    (512 ≤ k → k < 512 + c.length → unpack e 0 0 (m.take k) = ([c.take (k - 512)], .broken)) ∧
    (512 + c.length ≤ k → unpack e 0 0 (m.take k) = ([c], endOf e)) := by
  obtain ⟨h, p, rfl, H, hp1, hp2⟩ := hm
  obtain ⟨h1, h2, h3⟩ := member_header H
  have split : 512 ≤ k → (h ++ c ++ p).take k = h ++ (c ++ p).take (k - 512) := by
    intro hk
    rw [List.append_assoc, List.take_append, List.take_of_length_le (by omega), h1]
  refine ⟨fun k0 k1 => ?_, fun k1 k2 => ?_, fun k1 => ?_⟩
  · have hlen : ((h ++ c ++ p).take k).length = k := by rw [List.length_take]; omega
    rw [unpack, if_neg (by simp), if_neg (by simp)]
    simp only [Nat.zero_add, List.drop_zero]
    rw [if_neg (by intro h0; rw [h0] at hlen; simp at hlen; omega), dif_pos (by omega)]
  · rw [split k1, unpack_header e h1 h2 h3]
    have e1 : (c ++ p).take (k - 512) = c.take (k - 512) := by
      rw [List.take_append, show k - 512 - c.length = 0 by omega]; simp
    rw [e1, unpack, if_pos (by rw [List.length_take]; omega), List.take_of_length_le (by rw [List.length_take]; omega)]
  · rw [split (by omega), unpack_header e h1 h2 h3, padding_eq hp1 hp2]
    have e1 : (c ++ p).take (k - 512) = c ++ p.take (k - 512 - c.length) := by
      rw [List.take_append, List.take_of_length_le (by omega)]
    simp only [List.length_append, h1] at hk
    rw [e1, unpack, if_neg (by simp), if_pos (by rw [List.length_append, List.length_take]; omega)]
    simp

/-- C101. A stream that breaks off after `k` bytes of a member: inside the header the member is lost and the archive
damaged; inside the content the rest of the content is lost and the archive damaged; inside the padding the member is
complete, and io.EOF at that point is taken for a proper end. -/
theorem C101_cut {m c : Bytes} (hms : Members ms cs) (hm : Member m c) {k : Nat} (hk : k < m.length)
    (h : DeliversThen S s (ms ++ m.take k) e) :
    (0 < k → k < 512 → NewCompositesTar E sortSlice (goTar S ext) (newReader s) =
      some (NewComposites E sortSlice ⟨cs, true⟩)) ∧
    (512 ≤ k → k < 512 + c.length → NewCompositesTar E sortSlice (goTar S ext) (newReader s) =
      some (NewComposites E sortSlice ⟨cs ++ [c.take (k - 512)], true⟩)) ∧
    (512 + c.length ≤ k → NewCompositesTar E sortSlice (goTar S ext) (newReader s) =
      some (NewComposites E sortSlice ⟨cs ++ [c], decide (e ≠ .eof)⟩)) := by
  obtain ⟨c1, c2, c3⟩ := unpack_cut (e := e) hm hk
  refine ⟨fun a b => ?_, fun a b => ?_, fun a => ?_⟩ <;> apply C61_archive_reader <;> apply goTar_delivers h <;>
    rw [unpack_members e hms]
  · rw [c1 a b]; simp
  · rw [c2 a b]; simp
  · rw [c3 a, endOf_eq]

theorem damaged_never_ok {a : Archive} (hd : a.damaged = true) (cs : List Composite) :
    NewComposites E sortSlice a ≠ some (.ok cs) := by
  intro h
  obtain ⟨ps, h1, _⟩ := newComposites_ok.mp h
  rw [hd] at h1; cases h1

/-- C101. Nothing is ever returned from part of an archive when the reader reports that the stream is broken: if it fails
with anything but io.EOF before the end mark (after some members, within a member, or after one block of zeros),
NewComposites does not succeed. -/
theorem C101_broken_stream {m c r : Bytes} (hms : Members ms cs) (hm : Member m c) {k : Nat} (hk : k < m.length)
    (hr : r = m.take k ∨ r = zeroBlock) (he : e ≠ .eof) (h : DeliversThen S s (ms ++ r) e) (cs' : List Composite) :
    NewCompositesTar E sortSlice (goTar S ext) (newReader s) ≠ some (some (.ok cs')) := by
  have key : ∃ l, unpack e 0 0 (ms ++ r) = (l, .broken) := by
    rw [unpack_members e hms]
    rcases hr with rfl | rfl
    · obtain ⟨c1, c2, c3⟩ := unpack_cut (e := e) hm hk
      by_cases k0 : k = 0
      · subst k0
        simp only [List.take_zero]
        rw [unpack_nothing]; simp [endOf, he]
      by_cases k1 : k < 512
      · rw [c1 (by omega) k1]; simp
      by_cases k2 : k < 512 + c.length
      · rw [c2 (by omega) k2]; simp
      · rw [c3 (by omega)]; simp [endOf, he]
    · rw [unpack_zero]; simp [endOf, he]
  obtain ⟨l, hl⟩ := key
  rw [C61_archive_reader (goTar_delivers h ext (damaged := true) (by simpa using hl))]
  intro h0
  exact damaged_never_ok rfl cs' (by simpa using h0)

/-- C101. A single wrong byte in a header (all ASCII, as names in DWD archives are) outside of the checksum field is
always detected: the archive is damaged there, whatever comes after it, and NewComposites does not succeed. -/
theorem C101_header_corrupted {h r : Bytes} {size : Nat} {t x : UInt8} {i : Nat} (hms : Members ms cs)
    (H : HeaderBlock h size t) (hascii : ∀ c ∈ h, c.toNat < 128) (hi : i < 148 ∨ 156 ≤ i ∧ i < 512)
    (hx : h[i]? ≠ some x) (hd : DeliversThen S s (ms ++ h.set i x ++ r) e) :
    NewCompositesTar E sortSlice (goTar S ext) (newReader s) = some (NewComposites E sortSlice ⟨cs, true⟩) ∧
    ∀ cs', NewCompositesTar E sortSlice (goTar S ext) (newReader s) ≠ some (some (.ok cs')) := by
  have hl := H.length
  have hi' : i < h.length := by omega
  have hx' : h[i] ≠ x := by
    intro h0; apply hx; rw [List.getElem?_eq_getElem hi', h0]
  -- the sums of the changed block
  have sum_set : ∀ (f : UInt8 → Int) (l : Bytes) (i : Nat) (hi : i < l.length), ((l.set i x).map f).sum = (l.map f).sum - f l[i] + f x := by
    intro f l
    induction l with
    | nil => intro i hi; simp at hi
    | cons a l ih =>
      intro i hi
      cases i with
      | zero => simp only [List.set_cons_zero, List.map_cons, List.sum_cons, List.getElem_cons_zero]; ring
      | succ i =>
        simp only [List.set_cons_succ, List.map_cons, List.sum_cons, List.getElem_cons_succ]
        rw [ih i (by simpa using hi)]; ring
  have sums : ∀ f : UInt8 → Int, ((blanked (h.set i x)).map f).sum = ((blanked h).map f).sum - f h[i] + f x := by
    intro f
    unfold blanked
    simp only [List.map_append, List.sum_append]
    rcases hi with hi | ⟨hi, hi2⟩
    · rw [List.drop_set_of_lt (by omega), List.take_set, sum_set f _ i (by rw [List.length_take]; omega), List.getElem_take]
      ring
    · rw [List.take_set_of_le (by omega), List.drop_set, if_neg (by omega), sum_set f _ (i - 156) (by rw [List.length_drop]; omega),
        List.getElem_drop]
      have : h[156 + (i - 156)]'(by omega) = h[i] := by
        have : 156 + (i - 156) = i := by omega
        simp only [this]
      rw [this]
      ring
  have hck : field (h.set i x) 148 8 = field h 148 8 := by
    unfold field
    rcases hi with hi | ⟨hi, hi2⟩
    · rw [List.drop_set_of_lt (by omega)]
    · rw [List.drop_set, if_neg (by omega), List.take_set_of_le (by omega)]
  have hsgn : sumSigned h = sumUnsigned h := by
    unfold sumSigned sumUnsigned
    congr 1
    apply List.map_congr_left
    intro c hc
    unfold blanked at hc
    simp only [List.mem_append, List.mem_replicate] at hc
    rw [if_pos]
    rcases hc with (hc | ⟨_, rfl⟩) | hc
    · exact hascii c (List.mem_of_mem_take hc)
    · decide
    · exact hascii c (List.mem_of_mem_drop hc)
  have hasc := hascii _ (List.getElem_mem hi')
  have hne : h[i].toNat ≠ x.toNat := fun h0 => hx' (UInt8.toNat_inj.mp h0)
  have hlt : x.toNat < 256 := x.toNat_lt
  have hbad : checksumOK (h.set i x) = false := by
    unfold checksumOK
    rw [show cut (h.set i x) 148 156 = field (h.set i x) 148 8 from cut_eq _ 148 8, hck, parseOctal_field H.sum]
    simp only [Bool.or_eq_false_iff, decide_eq_false_iff_not]
    constructor
    · rw [← sum_eq]
      unfold sumUnsigned
      rw [sums]
      omega
    · rw [← sum_eq, ← hsgn]
      unfold sumSigned
      rw [sums]
      rw [if_pos hasc]
      split <;> omega
  have hnz : h.set i x ≠ List.replicate 512 0 := by
    intro h0
    rw [h0] at hbad hck
    -- the checksum field of a block of zeros is 0, that of `h` is at least 256
    have h1 : field (List.replicate 512 (0 : UInt8)) 148 8 = List.replicate 8 0 := by
      unfold field; rw [List.drop_replicate, List.take_replicate]; rfl
    rw [h1] at hck
    have h2 := parseOctal_field H.sum
    rw [← hck] at h2
    have h3 : parseOctal (List.replicate 8 0) = some 0 := by decide
    rw [h3] at h2
    have : 256 ≤ checksum h := by unfold checksum; omega
    simp at h2
    omega
  have key : unpack e 0 0 (ms ++ h.set i x ++ r) = (cs, .broken) := by
    rw [List.append_assoc, unpack_members e hms]
    have hl2 : (h.set i x).length = 512 := by simp [hl]
    generalize hg : h.set i x = g at *
    rw [unpack, if_neg (by simp), if_neg (by simp)]
    have h1 : (g ++ r).take 512 = g := by rw [← hl2]; simp
    have h3 : g ++ r ≠ [] := by intro h0; have := congrArg List.length h0; simp [hl2] at this
    simp only [Nat.zero_add, List.drop_zero]
    rw [if_neg h3, dif_neg (by simp [hl2]), h1, if_neg hnz]
    have : header g = .bad := by unfold header; rw [if_pos hbad]
    rw [this]; simp
  have main := C61_archive_reader (E := E) (goTar_delivers hd ext (damaged := true) (by simpa using key)) sortSlice
  refine ⟨main, fun cs' => ?_⟩
  rw [main]
  intro h0
  exact damaged_never_ok rfl cs' (by simpa using h0)

/-- C101. A block (not a block of zeros) whose checksum field holds something else than a number, that is whose first
character but spaces and NULs is not an octal digit, is never taken for a header, whatever it contains otherwise: the
archive is damaged there, and NewComposites does not succeed. -/
theorem C101_no_checksum {h r pre rest : Bytes} {x : UInt8} (hms : Members ms cs) (hl : h.length = 512)
    (hf : field h 148 8 = pre ++ x :: rest) (hpre : Spec.Tar.Blank pre) (hx : x ≠ 32 ∧ x ≠ 0 ∧ (x < 48 ∨ 55 < x))
    (hd : DeliversThen S s (ms ++ h ++ r) e) :
    NewCompositesTar E sortSlice (goTar S ext) (newReader s) = some (NewComposites E sortSlice ⟨cs, true⟩) ∧
    ∀ cs', NewCompositesTar E sortSlice (goTar S ext) (newReader s) ≠ some (some (.ok cs')) := by
  have hb : blank x = false := by simp [blank, hx.1, hx.2.1]
  have hdrop : (pre ++ x :: rest).dropWhile blank = x :: rest := by
    rw [List.dropWhile_append_of_pos (by intro c hc; rcases hpre c hc with h | h <;> simp [blank, h])]
    rw [List.dropWhile_cons_of_neg (by simp [hb])]
  have htrim : ∃ t, trim (pre ++ x :: rest) = x :: t := by
    unfold trim
    rw [hdrop]
    have hsome : ∀ l : Bytes, ∃ t, (l ++ [x]).dropWhile blank = t ++ [x] := by
      intro l
      induction l with
      | nil => exact ⟨[], by simp [hb]⟩
      | cons a l ih =>
        by_cases ha : blank a = true
        · obtain ⟨t, ht⟩ := ih
          exact ⟨t, by rw [List.cons_append, List.dropWhile_cons_of_pos ha, ht]⟩
        · exact ⟨a :: l, by rw [List.cons_append, List.dropWhile_cons_of_neg ha]⟩
    obtain ⟨t, ht⟩ := hsome rest.reverse
    exact ⟨t.reverse, by rw [List.reverse_cons, ht]; simp⟩
  have hoct : parseOctal (pre ++ x :: rest) = none := by
    obtain ⟨t, ht⟩ := htrim
    have hn : ¬ (48 ≤ x.toNat ∧ x.toNat ≤ 55) := by
      rcases hx.2.2 with h | h
      · have := UInt8.lt_iff_toNat_lt.mp h
        intro h0
        have h1 : (48 : UInt8).toNat = 48 := rfl
        omega
      · have := UInt8.lt_iff_toNat_lt.mp h
        intro h0
        have h1 : (55 : UInt8).toNat = 55 := rfl
        omega
    unfold parseOctal parseString parseUint8
    rw [ht, if_neg (by simp), List.takeWhile_cons_of_pos (by simp [hx.2.1]), if_neg (by simp), List.foldlM_cons, if_neg hn]
    rfl
  have hbad : checksumOK h = false := by
    unfold checksumOK
    rw [show cut h 148 156 = field h 148 8 from cut_eq _ 148 8, hf, hoct]
  have hnz : h ≠ List.replicate 512 0 := by
    intro h0
    rw [h0] at hf
    have h1 : field (List.replicate 512 (0 : UInt8)) 148 8 = List.replicate 8 0 := by
      unfold field; rw [List.drop_replicate, List.take_replicate]; rfl
    rw [h1] at hf
    have : x ∈ List.replicate 8 (0 : UInt8) := by rw [hf]; simp
    exact hx.2.1 (List.eq_of_mem_replicate this)
  have key : unpack e 0 0 (ms ++ h ++ r) = (cs, .broken) := by
    rw [List.append_assoc, unpack_members e hms]
    rw [unpack, if_neg (by simp), if_neg (by simp)]
    have h1 : (h ++ r).take 512 = h := by rw [← hl]; simp
    have h3 : h ++ r ≠ [] := by intro h0; have := congrArg List.length h0; simp [hl] at this
    simp only [Nat.zero_add, List.drop_zero]
    rw [if_neg h3, dif_neg (by simp [hl]), h1, if_neg hnz]
    have : header h = .bad := by unfold header; rw [if_pos hbad]
    rw [this]; simp
  have main := C61_archive_reader (E := E) (goTar_delivers hd ext (damaged := true) (by simpa using key)) sortSlice
  refine ⟨main, fun cs' => ?_⟩
  rw [main]
  intro h0
  exact damaged_never_ok rfl cs' (by simpa using h0)

/-- text is not an archive: 512 bytes 'A' at the beginning of a stream -/
example (E : Env) (sortSlice : (Composite → Composite → Bool) → List Composite → List Composite) {S : Source}
    {s : S.State} {e : IOErr} {r : Bytes} (ext : Bytes → TarReader.State S → Option (TarNext × TarReader.State S))
    (hd : DeliversThen S s (List.replicate 512 65 ++ r) e) (cs : List Composite) :
    NewCompositesTar E sortSlice (goTar S ext) (newReader s) ≠ some (some (.ok cs)) := by
  refine (C101_no_checksum (ms := []) (pre := []) (x := 65) (rest := List.replicate 7 65) .nil (List.length_replicate ..) ?_
    (by intro c hc; cases hc) (by decide) hd).2 cs
  unfold field; rw [List.drop_replicate, List.take_replicate]; rfl

/-- C101. An archive with a directory (or link, device or fifo) in it cannot be read: NewComposites treats the entry as a
composite file without content. If the files before it are fine, the error is "header too short"; it never succeeds. -/
theorem C101_directory {m ms' r : Bytes} {cs' : List Bytes} (hms : Members ms cs) (hm : NoContent m)
    (hms' : Members ms' cs') (hr : EndMark r) (h : DeliversThen S s (ms ++ m ++ ms' ++ r) e) :
    (∀ l, NewCompositesTar E sortSlice (goTar S ext) (newReader s) ≠ some (some (.ok l))) ∧
    ((∀ b ∈ cs, ∃ c, NewComposite E b = .ret c none) →
      NewCompositesTar E sortSlice (goTar S ext) (newReader s) = some (some (.error (.composite .headerTooShort)))) := by
  have key : unpack e 0 0 (ms ++ m ++ ms' ++ r) = (cs ++ [] :: cs', .clean) := by
    obtain ⟨size, t, H, ht1, ht2⟩ := hm
    rw [List.append_assoc, List.append_assoc, unpack_members e hms]
    have ht : t = 49 ∨ t = 50 ∨ t = 51 ∨ t = 52 ∨ t = 53 ∨ t = 54 := by
      have h1 := UInt8.le_iff_toNat_le.mp ht1
      have h2 := UInt8.le_iff_toNat_le.mp ht2
      simp only [UInt8.reduceToNat] at h1 h2
      have : t.toNat = 49 ∨ t.toNat = 50 ∨ t.toNat = 51 ∨ t.toNat = 52 ∨ t.toNat = 53 ∨ t.toNat = 54 := by omega
      rcases this with h | h | h | h | h | h
      · exact Or.inl (UInt8.toNat_inj.mp h)
      · exact Or.inr (Or.inl (UInt8.toNat_inj.mp h))
      · exact Or.inr (Or.inr (Or.inl (UInt8.toNat_inj.mp h)))
      · exact Or.inr (Or.inr (Or.inr (Or.inl (UInt8.toNat_inj.mp h))))
      · exact Or.inr (Or.inr (Or.inr (Or.inr (Or.inl (UInt8.toNat_inj.mp h)))))
      · exact Or.inr (Or.inr (Or.inr (Or.inr (Or.inr (UInt8.toNat_inj.mp h)))))
    have t0 : t ≠ 0 := by rcases ht with rfl | rfl | rfl | rfl | rfl | rfl <;> decide
    have tx : extension t = false := by rcases ht with rfl | rfl | rfl | rfl | rfl | rfl <;> decide
    have th : headerOnly t = true := by rcases ht with rfl | rfl | rfl | rfl | rfl | rfl <;> decide
    have hh := header_block H t0 tx
    rw [th] at hh
    rw [unpack_header e H.length (header_not_zero H t0) hh, if_pos rfl, show blockPadding 0 = 0 by decide,
      unpack_members e hms', unpack_end e hr]
    simp
  have main := C61_archive_reader (E := E) (goTar_delivers h ext (damaged := false) (by simpa using key)) sortSlice
  have hnil : NewComposite E [] = .ret Composite.zero (some .headerTooShort) := rfl
  rw [main]
  constructor
  · intro l h0
    obtain ⟨ps, -, h2, -⟩ := newComposites_ok.mp (by simpa using h0)
    obtain ⟨c, hc⟩ : ∃ c, ParsesTo E [] c := by
      have : ([] : Bytes) ∈ cs ++ [] :: cs' := by simp
      change List.Forall₂ (ParsesTo E) (cs ++ [] :: cs') ps at h2
      clear main h0 key
      generalize cs ++ [] :: cs' = l' at *
      induction h2 with
      | nil => simp at this
      | cons h _ ih =>
        rcases List.mem_cons.mp this with h0 | h0
        · exact ⟨_, h0 ▸ h⟩
        · exact ih h0
    unfold ParsesTo at hc
    rw [hnil] at hc
    simp at hc
  · intro hall
    congr 1
    exact (C29_all_or_nothing _).1 _ |>.mpr ⟨cs, [], cs', Composite.zero, rfl, hall, hnil⟩

/-- C101. What is no archive at all: a stream of fewer than 512 bytes (but not none) gives the error of the tar reader,
and an empty stream an empty result without error. -/
theorem C101_short_stream {b : Bytes} (h : DeliversThen S s b e) :
    (b ≠ [] → b.length < 512 →
      NewCompositesTar E sortSlice (goTar S ext) (newReader s) = some (some (.error .tar))) ∧
    (b = [] → e = .eof → sortSlice (fun x y => decide (x.forecastTime < y.forecastTime)) [] = [] →
      NewCompositesTar E sortSlice (goTar S ext) (newReader s) = some (some (.ok []))) := by
  constructor
  · intro h1 h2
    have key : unpack e 0 0 b = ([], .broken) := by
      rw [unpack, if_neg (by simp), if_neg (by simp)]
      simp only [Nat.zero_add, List.drop_zero]
      rw [if_neg h1, dif_pos h2]
    exact C61_archive_reader (E := E) (goTar_delivers h ext (damaged := true) (by simpa using key)) sortSlice
  · intro h1 h2 h3
    subst h1 h2
    rw [C101_archive (ms := []) (cs := []) (r := []) .nil (Or.inr ⟨Or.inl rfl, rfl⟩) h]
    simp [NewComposites, readEntries, h3]

theorem unpack_ext : ∀ (n : Nat) (b : Bytes) (nb pad : Nat), b.length = n → 512 ∣ nb + pad → (unpack e nb pad b).2 = .ext →
    ¬ NoExtensions b := by
  intro n
  induction n using Nat.strong_induction_on with
  | _ n ih =>
    intro b nb pad hn hdvd h hno
    rw [unpack] at h
    split at h
    · simp at h
    split at h
    · simp [endOf] at h; split at h <;> simp at h
    simp only at h
    split at h
    · simp [endOf] at h; split at h <;> simp at h
    split at h
    · simp at h
    rename_i hlen
    split at h
    · split at h
      · simp [endOf] at h; split at h <;> simp at h
      split at h
      · simp at h
      · dsimp only at h; split at h <;> cases h
    obtain ⟨q, hq⟩ := hdvd
    cases hh : header ((b.drop (nb + pad)).take 512) with
    | bad => rw [hh] at h; simp at h
    | extension =>
      obtain ⟨t, ht⟩ : ∃ t, (b.drop (nb + pad))[156]? = some t := by
        rw [List.getElem?_eq_getElem (by omega)]; exact ⟨_, rfl⟩
      have hty : typeflag ((b.drop (nb + pad)).take 512) = t := by
        unfold typeflag
        rw [List.getD_eq_getElem?_getD, List.getElem?_take_of_lt (by decide), ht]; rfl
      have hx : extension t = true := by
        rw [← hty]
        by_contra hc
        unfold header at hh
        simp only [hc] at hh
        (repeat' split at hh) <;> first | contradiction | (cases hh; done) | simp at hh
      have := hno q t (by rw [← ht, List.getElem?_drop, hq])
      simp [extension] at hx
      rcases hx with (((rfl | rfl) | rfl) | rfl) | rfl <;> simp at this
    | file m =>
      rw [hh] at h
      simp only at h
      refine ih _ ?_ _ m (blockPadding m) rfl ?_ h ?_
      · simp only [List.length_drop] at hlen ⊢; omega
      · unfold blockPadding; omega
      · intro k t hk
        rw [List.drop_drop, List.getElem?_drop] at hk
        exact hno (q + 1 + k) t (by rw [← hk]; congr 1; omega)

/-- C101. Every stream, whatever it contains: unless it has a block with the letters of an extension of the format at the
place of the type flag, NewComposites returns, and the result is that for a sequence of entries (and damage) determined by
the bytes and the final error of the stream alone, in whatever chunks the reader delivers them. -/
theorem C101_any_stream : ∃ archiveOf : Bytes → IOErr → Archive, ∀ (E : Env) (S : Source) (s : S.State) (b : Bytes)
    (e : IOErr) (ext : Bytes → TarReader.State S → Option (TarNext × TarReader.State S))
    (sortSlice : (Composite → Composite → Bool) → List Composite → List Composite),
    DeliversThen S s b e → NoExtensions b →
    NewCompositesTar E sortSlice (goTar S ext) (newReader s) = some (NewComposites E sortSlice (archiveOf b e)) := by
  refine ⟨fun b e => ⟨(unpack e 0 0 b).1, decide ((unpack e 0 0 b).2 = .broken)⟩, ?_⟩
  intro E S s b e ext sortSlice h hno
  apply C61_archive_reader
  apply goTar_delivers h
  have := fun hx => unpack_ext (e := e) _ b 0 0 rfl (by decide) hx hno
  generalize unpack e 0 0 b = x at *
  obtain ⟨l, k⟩ := x
  cases k with
  | clean => rfl
  | broken => rfl
  | ext => exact absurd rfl this

/-! ### concrete archives -/

/-- every scripted reader delivers its script and then its error -/
theorem script_deliversThen {e : IOErr} (he : e ≠ .bufferFull) (w : Bool) {cs : List Bytes} (h : Lively cs) :
    DeliversThen (script e w) cs cs.flatten e := by
  refine ⟨_, _, _, script_faithful he w, h, rfl, ?_⟩
  intro s n e' _ _ he'
  change (scriptRead e w s n).2.1 = some e' at he'
  match s with
  | [] => simp [scriptRead] at he'; exact he'.symm
  | [c] =>
    simp only [scriptRead] at he'
    split at he'
    · cases w
      · simp at he'
      · simp at he'; exact he'.symm
    · simp at he'
  | c :: d :: cs =>
    simp only [scriptRead] at he'
    split at he' <;> simp at he'

theorem octal_of_fold {ds : Bytes} {v : Nat} (h : ds.foldlM (fun n c =>
    if 48 ≤ c.toNat ∧ c.toNat ≤ 55 then some (8 * n + (c.toNat - 48)) else none) 0 = some v) : Octal ds v := by
  induction ds using List.reverseRecOn generalizing v with
  | nil => simp at h; subst h; exact .nil
  | append_singleton ds c ih =>
    rw [List.foldlM_append] at h
    obtain ⟨u, h1, h2⟩ := Option.bind_eq_some_iff.mp h
    rw [List.foldlM_cons] at h2
    by_cases hc : 48 ≤ c.toNat ∧ c.toNat ≤ 55
    · rw [if_pos hc] at h2
      have h3 : 8 * u + (c.toNat - 48) = v := by simpa using h2
      have h4 : c = 48 + UInt8.ofNat (c.toNat - 48) := by
        apply UInt8.toNat_inj.mp
        rw [UInt8.toNat_add]
        have := c.toNat_lt
        simp only [UInt8.reduceToNat, UInt8.toNat_ofNat']
        omega
      have h5 := Octal.snoc (d := c.toNat - 48) (ih h1) (by omega)
      rw [← h4, h3] at h5
      exact h5
    · rw [if_neg hc] at h2; simp at h2

/-- a numeric field, decided -/
theorem numField_of {f : Bytes} {v : Nat} (k : Nat) (h : (f.take k).foldlM (fun n c =>
    if 48 ≤ c.toNat ∧ c.toNat ≤ 55 then some (8 * n + (c.toNat - 48)) else none) 0 = some v)
    (h' : (f.drop k).all (fun c => c = 32 || c = 0) = true) : NumField f v :=
  ⟨[], f.take k, f.drop k, by simp, by simp [Tar.Blank], by
    intro c hc
    have := List.all_eq_true.mp h' c hc
    simpa using this, octal_of_fold h⟩

/-- the header that GNU tar writes (with --format=ustar) for a file FX.bin of 53 bytes, mode 0644, of root -/
def sampleTarHeader : Bytes :=
  [70, 88, 46, 98, 105, 110, 0, 0, 0, 0, 0, 0, 0, 0, 0, 0, 0, 0, 0, 0, 0, 0, 0, 0, 0, 0, 0, 0, 0, 0, 0, 0, 0, 0, 0, 0, 0, 0, 0, 0, 0, 0, 0, 0, 0, 0, 0, 0, 0, 0, 0, 0, 0, 0, 0, 0, 0, 0, 0, 0, 0, 0, 0, 0, 0, 0, 0, 0, 0, 0, 0, 0, 0, 0, 0, 0, 0, 0, 0, 0, 0, 0, 0, 0, 0, 0, 0, 0, 0, 0, 0, 0, 0, 0, 0, 0, 0, 0, 0, 0, 48, 48, 48, 48, 54, 52, 52, 0] ++
  [48, 48, 48, 48, 48, 48, 48, 0, 48, 48, 48, 48, 48, 48, 48, 0, 48, 48, 48, 48, 48, 48, 48, 48, 48, 54, 53, 0, 49, 51, 48, 52, 52, 52, 49, 54, 50, 48, 48, 0] ++
  [48, 49, 50, 48, 53, 54, 0, 32, 48] ++
  List.replicate 100 0 ++
  [117, 115, 116, 97, 114, 0, 48, 48, 114, 111, 111, 116, 0, 0, 0, 0, 0, 0, 0, 0, 0, 0, 0, 0, 0, 0, 0, 0, 0, 0, 0, 0, 0, 0, 0, 0, 0, 0, 0, 0, 114, 111, 111, 116, 0, 0, 0, 0] ++
  List.replicate 24 0 ++
  [48, 48, 48, 48, 48, 48, 48, 0, 48, 48, 48, 48, 48, 48, 48, 0] ++
  List.replicate 167 0

/-- it is well-formed -/
theorem sampleTarHeader_block : HeaderBlock sampleTarHeader 53 48 where
  length := by decide +kernel
  mode := ⟨_, numField_of 7 (v := 420) (by decide +kernel) (by decide +kernel)⟩
  uid := ⟨_, numField_of 7 (v := 0) (by decide +kernel) (by decide +kernel)⟩
  gid := ⟨_, numField_of 7 (v := 0) (by decide +kernel) (by decide +kernel)⟩
  size := numField_of 11 (by decide +kernel) (by decide +kernel)
  mtime := ⟨_, numField_of 11 (v := 1485970560) (by decide +kernel) (by decide +kernel)⟩
  sum := numField_of 6 (by decide +kernel) (by decide +kernel)
  type := by decide +kernel
  devmajor := ⟨_, numField_of 7 (v := 0) (by decide +kernel) (by decide +kernel)⟩
  devminor := ⟨_, numField_of 7 (v := 0) (by decide +kernel) (by decide +kernel)⟩
  noStar := by decide +kernel

/-- and the one for a directory FX/ -/
def sampleTarDir : Bytes :=
  [70, 88, 47] ++
  List.replicate 97 0 ++
  [48, 48, 48, 48, 55, 53, 53, 0, 48, 48, 48, 48, 48, 48, 48, 0, 48, 48, 48, 48, 48, 48, 48, 0, 48, 48, 48, 48, 48, 48, 48, 48, 48, 48, 48, 0, 49, 51, 48, 52, 52, 52, 49, 54, 50, 48, 48, 0, 48, 49, 49, 51, 54, 51, 0, 32, 53] ++
  List.replicate 100 0 ++
  [117, 115, 116, 97, 114, 0, 48, 48, 114, 111, 111, 116, 0, 0, 0, 0, 0, 0, 0, 0, 0, 0, 0, 0, 0, 0, 0, 0, 0, 0, 0, 0, 0, 0, 0, 0, 0, 0, 0, 0, 114, 111, 111, 116, 0, 0, 0, 0] ++
  List.replicate 24 0 ++
  [48, 48, 48, 48, 48, 48, 48, 0, 48, 48, 48, 48, 48, 48, 48, 0] ++
  List.replicate 167 0

theorem sampleTarDir_block : HeaderBlock sampleTarDir 0 53 where
  length := by decide +kernel
  mode := ⟨_, numField_of 7 (v := 493) (by decide +kernel) (by decide +kernel)⟩
  uid := ⟨_, numField_of 7 (v := 0) (by decide +kernel) (by decide +kernel)⟩
  gid := ⟨_, numField_of 7 (v := 0) (by decide +kernel) (by decide +kernel)⟩
  size := numField_of 11 (by decide +kernel) (by decide +kernel)
  mtime := ⟨_, numField_of 11 (v := 1485970560) (by decide +kernel) (by decide +kernel)⟩
  sum := numField_of 6 (by decide +kernel) (by decide +kernel)
  type := by decide +kernel
  devmajor := ⟨_, numField_of 7 (v := 0) (by decide +kernel) (by decide +kernel)⟩
  devminor := ⟨_, numField_of 7 (v := 0) (by decide +kernel) (by decide +kernel)⟩
  noStar := by decide +kernel

/-- the RX sample as a member -/
theorem sampleMember : Member (sampleTarHeader ++ sampleRX ++ List.replicate 459 0) sampleRX := by
  have hl : sampleRX.length = 53 := by decide +kernel
  refine ⟨_, _, rfl, Or.inl ?_, ?_, ?_⟩
  · rw [hl]; exact sampleTarHeader_block
  · rw [List.length_replicate]; decide
  · rw [List.length_replicate, hl]

theorem lively_bytes (b : Bytes) : Lively (b.map fun x => [x]) ∧ (b.map fun x => [x]).flatten = b := by
  constructor
  · intro q hq
    rcases q with _ | ⟨x, q⟩
    · simp
    · have : x ∈ b.map fun x => [x] := hq.subset (by simp)
      obtain ⟨y, _, rfl⟩ := List.mem_map.mp this
      rw [List.takeWhile_cons_of_neg (by simp)]
      simp
  · induction b with
    | nil => rfl
    | cons x xs ih => simp [ih]

theorem sample_delivers (b : Bytes) (e : IOErr) (he : e ≠ .bufferFull) :
    DeliversThen (script e true) (b.map fun x => [x]) b e := by
  have h := script_deliversThen (e := e) he true (lively_bytes b).1
  rwa [(lively_bytes b).2] at h

/-- the sample archive has no extensions (nor has any other with 0 and 7 there, whose contents do not look like it) -/
example : NoExtensions (sampleTarHeader ++ sampleRX ++ List.replicate 459 0) := by
  intro k t h
  have h1 : sampleTarHeader.length = 512 := sampleTarHeader_block.length
  have h2 : sampleRX.length = 53 := by decide +kernel
  have ht := sampleTarHeader_block.type
  generalize sampleTarHeader = hd at h1 ht h
  generalize sampleRX = rx at h2 h
  by_cases k0 : k = 0
  · subst k0
    rw [Nat.mul_zero, Nat.zero_add] at h
    rw [List.append_assoc, List.getElem?_append_left (by omega), ht] at h
    obtain rfl : (48 : UInt8) = t := by simpa using h
    decide
  by_cases k1 : k = 1
  · subst k1
    rw [List.getElem?_append_right (by rw [List.length_append, h1, h2]; decide), List.getElem?_replicate] at h
    split at h
    · obtain rfl : (0 : UInt8) = t := by simpa using h
      decide
    · cases h
  · rw [List.getElem?_eq_none (by rw [List.length_append, List.length_append, List.length_replicate]; omega)] at h
    cases h

/-- the sample archive, delivered byte by byte: complete, cut off in the content (after 540 bytes), with a wrong byte in
the name, and after a directory -/
example (ext : Bytes → TarReader.State (script .eof true) → Option (TarNext × TarReader.State (script .eof true))) :
    (∃ c, NewCompositesTar env0 insertionSort (goTar (script .eof true) ext) (newReader
      ((sampleTarHeader ++ sampleRX ++ List.replicate 459 0 ++ (zeroBlock ++ zeroBlock)).map fun x => [x])) =
        some (some (.ok [c]))) ∧
    (∀ cs, NewCompositesTar env0 insertionSort (goTar (script .eof true) ext) (newReader
      (((sampleTarHeader ++ sampleRX ++ List.replicate 459 0).take 540).map fun x => [x])) ≠ some (some (.ok cs))) ∧
    (∀ cs, NewCompositesTar env0 insertionSort (goTar (script .eof true) ext) (newReader
      ((sampleTarHeader.set 1 89 ++ sampleRX).map fun x => [x])) ≠ some (some (.ok cs))) ∧
    NewCompositesTar env0 insertionSort (goTar (script .eof true) ext) (newReader
      ((sampleTarDir ++ (sampleTarHeader ++ sampleRX ++ List.replicate 459 0) ++ (zeroBlock ++ zeroBlock)).map fun x => [x])) =
        some (some (.error (.composite .headerTooShort))) := by
  have one : Members (sampleTarHeader ++ sampleRX ++ List.replicate 459 0) [sampleRX] := by
    have := Members.cons sampleMember .nil
    rwa [List.append_nil] at this
  have fin : EndMark (zeroBlock ++ zeroBlock) := ⟨[], by rw [List.append_nil]⟩
  refine ⟨?_, ?_, ?_, ?_⟩
  · have h := sample_delivers (sampleTarHeader ++ sampleRX ++ List.replicate 459 0 ++ (zeroBlock ++ zeroBlock)) .eof (by simp)
    rw [C101_archive one (Or.inl fin) h]
    obtain ⟨c, hc, _⟩ := sampleRX_at
    exact ⟨c, by rw [newComposites_ok.mpr ⟨[c], rfl, .cons hc .nil, rfl⟩]; rfl⟩
  · intro cs
    have h := sample_delivers ([] ++ (sampleTarHeader ++ sampleRX ++ List.replicate 459 0).take 540) .eof (by simp)
    have hlen : (sampleTarHeader ++ sampleRX ++ List.replicate 459 0).length = 1024 := by
      rw [List.length_append, List.length_append, List.length_replicate, sampleTarHeader_block.length]; decide +kernel
    have := (C101_cut (E := env0) (sortSlice := insertionSort) (ext := ext) .nil sampleMember (k := 540) (by rw [hlen]; decide) h).2.1
      (by decide) (by decide +kernel)
    rw [List.nil_append] at this
    rw [this]
    intro h0
    exact damaged_never_ok rfl cs (by simpa using h0)
  · have h := sample_delivers ([] ++ sampleTarHeader.set 1 89 ++ sampleRX) .eof (by simp)
    exact (C101_header_corrupted (E := env0) (sortSlice := insertionSort) (ext := ext) .nil sampleTarHeader_block
      (by decide +kernel) (Or.inl (by decide)) (by decide +kernel) h).2
  · have h := sample_delivers ([] ++ sampleTarDir ++ (sampleTarHeader ++ sampleRX ++ List.replicate 459 0) ++
      (zeroBlock ++ zeroBlock)) .eof (by simp)
    have := (C101_directory (E := env0) (sortSlice := insertionSort) (ext := ext) .nil
      ⟨0, 53, sampleTarDir_block, by decide, by decide⟩ one fin h).2 (by simp)
    exact this

end Props
