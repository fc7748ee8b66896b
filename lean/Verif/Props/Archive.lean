/-
C28, C29, C30: archives.
-/
import Verif.Spec.Sort
import Verif.Props.Shape
import Mathlib.Data.List.Forall2
import Mathlib.Data.List.Sort

namespace Props
open Go Radolan Spec

/-! ### insertion sort meets the contract -/

theorem insertBy_perm (less : Composite → Composite → Bool) (a : Composite) (l : List Composite) :
    (insertBy less a l).Perm (a :: l) := by
  induction l with
  | nil => exact List.Perm.refl _
  | cons b l ih =>
    unfold insertBy
    split
    · exact (List.Perm.cons b ih).trans (List.Perm.swap a b l)
    · exact List.Perm.refl _

theorem insertionSort_contract : IsSortSlice insertionSort := by
  intro less l
  have hperm : ∀ l, (insertionSort less l).Perm l := by
    intro l
    induction l with
    | nil => exact List.Perm.refl _
    | cons a l ih => exact (insertBy_perm less a _).trans (List.Perm.cons a ih)
  refine ⟨hperm l, ?_⟩
  intro hirr htrans hneg
  induction l with
  | nil => exact List.Pairwise.nil
  | cons a l ih =>
    show (insertBy less a (insertionSort less l)).Pairwise _
    generalize insertionSort less l = s at ih
    induction s with
    | nil => simp [insertBy]
    | cons b s ihs =>
      have hb : ∀ x ∈ s, less x b = false := fun x hx => List.rel_of_pairwise_cons ih hx
      have hs := List.Pairwise.of_cons ih
      unfold insertBy
      split
      · rename_i hlt
        refine List.Pairwise.cons ?_ (ihs hs)
        intro x hx
        have hx := (insertBy_perm less a s).mem_iff.mp hx
        rcases List.mem_cons.mp hx with rfl | hx
        · cases hxb : less x b
          · rfl
          · have := htrans _ _ _ hlt hxb; rw [hirr] at this; simp at this
        · exact hb x hx
      · rename_i hlt
        have hlt : less b a = false := by simpa using hlt
        refine List.Pairwise.cons ?_ ih
        intro x hx
        rcases List.mem_cons.mp hx with rfl | hx
        · exact hlt
        · exact hneg _ _ _ (hb x hx) hlt

/-! ### reading the entries -/

theorem readEntries_ok {E : Env} {d : Bool} {bs : List Bytes} {cs : List Composite} :
    readEntries E d bs = some (.ok cs) ↔ d = false ∧ List.Forall₂ (ParsesTo E) bs cs := by
  induction bs generalizing cs with
  | nil => cases d <;> simp [readEntries, eq_comm]
  | cons b bs ih =>
    unfold readEntries
    constructor
    · intro h
      split at h
      · simp at h
      · simp at h
      · rename_i c hc
        split at h
        · simp at h
        · simp at h
        · rename_i cs' hcs
          simp at h; subst h
          obtain ⟨h1, h2⟩ := ih.mp hcs
          exact ⟨h1, .cons hc h2⟩
    · rintro ⟨h1, h2⟩
      cases h2 with
      | cons hc h2 =>
        rename_i c cs'
        unfold ParsesTo at hc
        rw [hc]
        simp only
        rw [ih.mpr ⟨h1, h2⟩]

theorem readEntries_composite {E : Env} {d : Bool} {bs : List Bytes} {e : Err} :
    readEntries E d bs = some (.error (.composite e)) ↔
      ∃ pre b post c, bs = pre ++ b :: post ∧ (∀ p ∈ pre, ∃ c', ParsesTo E p c') ∧
        NewComposite E b = .ret c (some e) := by
  induction bs with
  | nil => cases d <;> simp [readEntries]
  | cons b bs ih =>
    unfold readEntries
    constructor
    · intro h
      split at h
      · simp at h
      · rename_i c e' hc
        simp at h; subst h
        exact ⟨[], b, bs, c, rfl, by simp, hc⟩
      · rename_i c hc
        have h' : readEntries E d bs = some (.error (.composite e)) := by
          split at h <;> simp_all
        obtain ⟨pre, b', post, c', h1, h2, h3⟩ := ih.mp h'
        refine ⟨b :: pre, b', post, c', by rw [h1]; rfl, ?_, h3⟩
        intro p hp
        rcases List.mem_cons.mp hp with rfl | hp
        · exact ⟨c, hc⟩
        · exact h2 p hp
    · rintro ⟨pre, b', post, c', h1, h2, h3⟩
      cases pre with
      | nil =>
        simp at h1; obtain ⟨rfl, rfl⟩ := h1
        rw [h3]
      | cons p pre =>
        simp at h1; obtain ⟨rfl, rfl⟩ := h1
        obtain ⟨c, hc⟩ := h2 b (by simp)
        unfold ParsesTo at hc
        rw [hc]
        simp only
        rw [ih.mpr ⟨pre, b', post, c', rfl, fun p hp => h2 p (by simp [hp]), h3⟩]

theorem readEntries_tar {E : Env} {d : Bool} {bs : List Bytes} :
    readEntries E d bs = some (.error .tar) ↔ d = true ∧ ∀ p ∈ bs, ∃ c', ParsesTo E p c' := by
  induction bs with
  | nil => cases d <;> simp [readEntries]
  | cons b bs ih =>
    unfold readEntries
    constructor
    · intro h
      split at h
      · simp at h
      · simp at h
      · rename_i c hc
        have h' : readEntries E d bs = some (.error .tar) := by
          split at h <;> simp_all
        obtain ⟨h1, h2⟩ := ih.mp h'
        refine ⟨h1, ?_⟩
        intro p hp
        rcases List.mem_cons.mp hp with rfl | hp
        · exact ⟨c, hc⟩
        · exact h2 p hp
    · rintro ⟨h1, h2⟩
      obtain ⟨c, hc⟩ := h2 b (by simp)
      unfold ParsesTo at hc
      rw [hc]
      simp only
      rw [ih.mpr ⟨h1, fun p hp => h2 p (by simp [hp])⟩]

variable {E : Env} {sortSlice : (Composite → Composite → Bool) → List Composite → List Composite}

theorem newComposites_ok {a : Archive} {cs : List Composite} :
    NewComposites E sortSlice a = some (.ok cs) ↔ ∃ ps, a.damaged = false ∧
      List.Forall₂ (ParsesTo E) a.entries ps ∧
      cs = sortSlice (fun x y => decide (x.forecastTime < y.forecastTime)) ps := by
  unfold NewComposites
  constructor
  · intro h
    split at h
    · simp at h
    · simp at h
    · rename_i ps hp
      obtain ⟨h1, h2⟩ := readEntries_ok.mp hp
      simp at h
      exact ⟨ps, h1, h2, h.symm⟩
  · rintro ⟨ps, h1, h2, rfl⟩
    rw [readEntries_ok.mpr ⟨h1, h2⟩]

theorem sorted_of_contract (hs : IsSortSlice sortSlice) (ps : List Composite) :
    (sortSlice (fun x y => decide (x.forecastTime < y.forecastTime)) ps).Perm ps ∧
    (sortSlice (fun x y => decide (x.forecastTime < y.forecastTime)) ps).Pairwise
      fun x y => x.forecastTime ≤ y.forecastTime := by
  obtain ⟨h1, h2⟩ := hs (fun x y => decide (x.forecastTime < y.forecastTime)) ps
  refine ⟨h1, (h2 (by simp) ?_ ?_).imp ?_⟩
  · simp only [decide_eq_true_eq]; intro a b c; omega
  · simp only [decide_eq_false_iff_not]; intro a b c; omega
  · intro a b h
    simpa using h

/-- C28. NewComposites succeeds exactly if the archive is intact and every entry parses without an error, and then
it returns one composite per entry - a rearrangement of the composites NewComposite gives for the entries - in
ascending order of forecast time. -/
theorem C28_sorted_permutation (hs : IsSortSlice sortSlice) (a : Archive) :
    ((∃ cs, NewComposites E sortSlice a = some (.ok cs)) ↔
      a.damaged = false ∧ ∀ b ∈ a.entries, ∃ c, NewComposite E b = .ret c none) ∧
    ∀ cs, NewComposites E sortSlice a = some (.ok cs) →
      cs.length = a.entries.length ∧
      (∃ ps, List.Forall₂ (ParsesTo E) a.entries ps ∧ cs.Perm ps) ∧
      ∀ i j (hi : i < cs.length) (hj : j < cs.length), i < j → cs[i].forecastTime ≤ cs[j].forecastTime := by
  constructor
  · constructor
    · rintro ⟨cs, h⟩
      obtain ⟨ps, h1, h2, hcs⟩ := newComposites_ok.mp h
      refine ⟨h1, ?_⟩
      clear h h1 hcs
      generalize a.entries = l at h2 ⊢
      induction h2 with
      | nil => simp
      | cons hc _ ih =>
        intro b hb
        rcases List.mem_cons.mp hb with rfl | hb
        · exact ⟨_, hc⟩
        · exact ih b hb
    · rintro ⟨h1, h2⟩
      obtain ⟨ps, hp⟩ : ∃ ps, List.Forall₂ (ParsesTo E) a.entries ps := by
        clear h1
        generalize a.entries = l at h2
        induction l with
        | nil => exact ⟨[], .nil⟩
        | cons b l ih =>
          obtain ⟨c, hc⟩ := h2 b (by simp)
          obtain ⟨ps, hp⟩ := ih fun b hb => h2 b (by simp [hb])
          exact ⟨c :: ps, .cons hc hp⟩
      exact ⟨_, newComposites_ok.mpr ⟨ps, h1, hp, rfl⟩⟩
  · intro cs h
    obtain ⟨ps, h1, h2, rfl⟩ := newComposites_ok.mp h
    obtain ⟨hp, hq⟩ := sorted_of_contract hs ps
    refine ⟨?_, ⟨ps, h2, hp⟩, ?_⟩
    · rw [hp.length_eq, h2.length_eq]
    · intro i j hi hj hij
      exact List.pairwise_iff_getElem.mp hq i j hi hj hij

/-- C29. An entry that fails (with whatever error, ErrUnknownUnit included) after entries that all parse makes
NewComposites return that error and no composites, independent of what follows and of the integrity of the rest of
the archive; a damaged archive is an error even if all entries parse; and there is no other way to fail. -/
theorem C29_all_or_nothing (a : Archive) :
    (∀ e, NewComposites E sortSlice a = some (.error (.composite e)) ↔
      ∃ pre b post c, a.entries = pre ++ b :: post ∧ (∀ p ∈ pre, ∃ c', NewComposite E p = .ret c' none) ∧
        NewComposite E b = .ret c (some e)) ∧
    (NewComposites E sortSlice a = some (.error .tar) ↔
      a.damaged = true ∧ ∀ p ∈ a.entries, ∃ c', NewComposite E p = .ret c' none) := by
  have key : ∀ e, NewComposites E sortSlice a = some (.error e) ↔
      readEntries E a.damaged a.entries = some (.error e) := by
    intro e
    unfold NewComposites
    split <;> simp_all
  exact ⟨fun e => (key _).trans readEntries_composite, (key _).trans readEntries_tar⟩

theorem forall₂_perm {as bs : List Bytes} (h : as.Perm bs) {ps : List Composite}
    (hf : List.Forall₂ (ParsesTo E) as ps) : ∃ qs, List.Forall₂ (ParsesTo E) bs qs ∧ ps.Perm qs := by
  induction h generalizing ps with
  | nil => cases hf; exact ⟨[], .nil, .refl _⟩
  | cons b h ih =>
    cases hf with
    | cons hc hf =>
      obtain ⟨qs, h1, h2⟩ := ih hf
      exact ⟨_ :: qs, .cons hc h1, h2.cons _⟩
  | swap a b l =>
    cases hf with
    | cons hc hf =>
      cases hf with
      | cons hd hf => exact ⟨_ :: _ :: _, .cons hd (.cons hc hf), .swap ..⟩
  | trans _ _ ih1 ih2 =>
    obtain ⟨qs, h1, h2⟩ := ih1 hf
    obtain ⟨rs, h3, h4⟩ := ih2 h1
    exact ⟨rs, h3, h2.trans h4⟩

/-- two lists in strictly increasing order of forecast time with the same elements are equal -/
theorem strict_perm_eq {xs ys : List Composite} (h : xs.Perm ys)
    (hx : xs.Pairwise fun x y => x.forecastTime < y.forecastTime)
    (hy : ys.Pairwise fun x y => x.forecastTime < y.forecastTime) : xs = ys := by
  induction xs generalizing ys with
  | nil => exact (List.nil_perm.mp h).symm
  | cons x xs ih =>
    cases ys with
    | nil => simp at h
    | cons y ys =>
      have hxy : x = y := by
        by_contra hne
        have h1 : x ∈ ys := by
          have := h.mem_iff.mp (List.mem_cons_self (a := x) (l := xs))
          rcases List.mem_cons.mp this with e | e
          · exact absurd e hne
          · exact e
        have h2 : y ∈ xs := by
          have := h.mem_iff.mpr (List.mem_cons_self (a := y) (l := ys))
          rcases List.mem_cons.mp this with e | e
          · exact absurd e.symm hne
          · exact e
        have := List.rel_of_pairwise_cons hx h2
        have := List.rel_of_pairwise_cons hy h1
        omega
      subst hxy
      rw [ih h.cons_inv hx.of_cons hy.of_cons]

/-- C30. If the returned composites have pairwise distinct forecast times, then every rearrangement of the archive's
entries gives the same result, whatever (correct) sorting algorithm is used. -/
theorem C30_order_independent {sortSlice' : (Composite → Composite → Bool) → List Composite → List Composite}
    (hs : IsSortSlice sortSlice) (hs' : IsSortSlice sortSlice') {a a' : Archive}
    (hperm : a.entries.Perm a'.entries) (hd : a.damaged = a'.damaged) {cs : List Composite}
    (h : NewComposites E sortSlice a = some (.ok cs))
    (hdist : cs.Pairwise fun x y => x.forecastTime ≠ y.forecastTime) :
    NewComposites E sortSlice' a' = some (.ok cs) := by
  obtain ⟨ps, h1, h2, rfl⟩ := newComposites_ok.mp h
  obtain ⟨qs, h3, h4⟩ := forall₂_perm hperm h2
  refine newComposites_ok.mpr ⟨qs, hd ▸ h1, h3, ?_⟩
  obtain ⟨p1, p2⟩ := sorted_of_contract hs ps
  obtain ⟨q1, q2⟩ := sorted_of_contract hs' qs
  have hpq := (p1.trans h4).trans q1.symm
  apply strict_perm_eq hpq
  · exact (p2.and hdist).imp (by omega)
  · refine (q2.and ((hpq.pairwise_iff (fun {_ _} h => Ne.symm h)).mp hdist)).imp (by omega)

/-- a later composite of the same product -/
def sampleRX2 : Bytes := str "RX021320100000217BY 35VS 3GP 1x 1" ++ [3] ++ [10]

/-- an entry without a known unit -/
def sampleXX : Bytes := str "XX021320100000217BY 35VS 3GP 1x 1" ++ [3] ++ [10]

/-- a concrete parse with its forecast time (examples only) -/
theorem parsesAt {b : Bytes} {t : Int}
    (h : (match NewComposite env0 b with | .ret c none => c.forecastTime == t | _ => false) = true) :
    ∃ c, ParsesTo env0 b c ∧ c.forecastTime = t := by
  split at h
  · rename_i c hc; exact ⟨c, hc, by simpa using h⟩
  · simp at h

theorem sampleRX_at : ∃ c, ParsesTo env0 sampleRX c ∧ c.forecastTime = 1486041000000000000 :=
  parsesAt (by decide +kernel)

theorem sampleRX2_at : ∃ c, ParsesTo env0 sampleRX2 c ∧ c.forecastTime = 1486041600000000000 :=
  parsesAt (by decide +kernel)

theorem failsUnit {b : Bytes}
    (h : (match NewComposite env0 b with | .ret _ (some .unknownUnit) => true | _ => false) = true) :
    ∃ c, NewComposite env0 b = .ret c (some .unknownUnit) := by
  split at h
  · rename_i c hc; exact ⟨c, hc⟩
  · simp at h

theorem sampleXX_fails : ∃ c, NewComposite env0 sampleXX = .ret c (some .unknownUnit) :=
  failsUnit (by decide +kernel)

theorem sort_two {c1 c2 : Composite} (h : c1.forecastTime < c2.forecastTime) :
    [c1, c2] = insertionSort (fun x y => decide (x.forecastTime < y.forecastTime)) [c2, c1] := by
  simp [insertionSort, insertBy, h]

/-- an archive in the wrong order meets the hypotheses of C28 and C30 -/
example : ∃ c1 c2, NewComposites env0 insertionSort ⟨[sampleRX2, sampleRX], false⟩ = some (.ok [c1, c2]) ∧
    c1.forecastTime < c2.forecastTime := by
  obtain ⟨c1, h1, t1⟩ := sampleRX_at
  obtain ⟨c2, h2, t2⟩ := sampleRX2_at
  have h : c1.forecastTime < c2.forecastTime := by rw [t1, t2]; norm_num
  exact ⟨c1, c2, newComposites_ok.mpr ⟨[c2, c1], rfl, .cons h2 (.cons h1 .nil), sort_two h⟩, h⟩

/-- one entry of unknown unit spoils the archive -/
example : NewComposites env0 insertionSort ⟨[sampleRX, sampleXX, sampleRX2], false⟩ =
    some (.error (.composite .unknownUnit)) := by
  obtain ⟨c1, h1, t1⟩ := sampleRX_at
  obtain ⟨c2, h2⟩ := sampleXX_fails
  refine ((C29_all_or_nothing _).1 _).mpr ⟨[sampleRX], sampleXX, [sampleRX2], c2, rfl, ?_, h2⟩
  intro p hp
  rw [List.mem_singleton.mp hp]
  exact ⟨c1, h1⟩

end Props
