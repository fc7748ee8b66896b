/- splitHeader on any text. -/
import Verif.Spec.Reading
import Verif.Lemmas.Chars

namespace Radolan.Any
open Go
open _root_.Spec

/-- the bytes of characters -/
def bytes (cs : List (Nat × Bytes)) : Bytes := cs.flatMap Prod.snd

theorem bytes_append (a b : List (Nat × Bytes)) : bytes (a ++ b) = bytes a ++ bytes b := by simp [bytes]

theorem bytes_cons (c : Nat × Bytes) (b : List (Nat × Bytes)) : bytes (c :: b) = c.2 ++ bytes b := rfl

/-- the characters with their positions -/
def place (i : Nat) : List (Nat × Bytes) → List (Nat × Nat)
  | [] => []
  | c :: cs => (i, c.1) :: place (i + c.2.length) cs

theorem place_append (i : Nat) (a b : List (Nat × Bytes)) : place i (a ++ b) = place i a ++ place (i + (bytes a).length) b := by
  induction a generalizing i with
  | nil => rfl
  | cons c a ih =>
    rw [List.cons_append, place, place, ih, bytes_cons, List.length_append, Nat.add_assoc]
    rfl

theorem chars_nonempty {t : Bytes} {cs : List (Nat × Bytes)} (h : Chars t cs) : ∀ c ∈ cs, c.2 ≠ [] := by
  induction h with
  | nil => simp
  | char valid tail ih =>
    intro c hc
    rcases List.mem_cons.mp hc with rfl | hc
    · obtain ⟨b, t, e⟩ := utf8_cons (by assumption)
      rw [e]; simp
    · exact ih c hc
  | stray none tail ih =>
    intro c hc
    rcases List.mem_cons.mp hc with rfl | hc
    · simp
    · exact ih c hc

theorem chars_bytes {t : Bytes} {cs : List (Nat × Bytes)} (h : Chars t cs) : t = bytes cs := by
  induction h with
  | nil => rfl
  | char valid tail ih => rw [bytes_cons, ← ih]
  | stray none tail ih => rw [bytes_cons, ← ih]; rfl

theorem chars_runes {t : Bytes} {cs : List (Nat × Bytes)} (h : Chars t cs) (i : Nat) : runesFrom i 0 t = place i cs := by
  induction h generalizing i with
  | nil => rfl
  | char valid tail ih => rw [runesFrom_utf8 valid, place, ih]
  | @stray b rest l none tail ih =>
    rcases decode_first b rest with ⟨cp, t, h1, h2, _⟩ | ⟨_, h3⟩
    · exact absurd ⟨t, h2.symm⟩ (none cp h1)
    · rw [runesFrom, if_pos rfl, h3, place, ← ih]
      rfl

theorem chars_exist (t : Bytes) : ∃ cs, Chars t cs := by
  induction hn : t.length using Nat.strong_induction_on generalizing t with
  | _ n ih =>
    cases t with
    | nil => exact ⟨[], .nil⟩
    | cons b rest =>
      rcases decode_first b rest with ⟨cp, t, h1, h2, _⟩ | ⟨h, _⟩
      · obtain ⟨b', t', e⟩ := utf8_cons cp
        have : t.length < n := by
          have := congrArg List.length h2
          rw [e] at this
          simp at this hn
          omega
        obtain ⟨cs, hcs⟩ := ih _ this t rfl
        rw [h2]
        exact ⟨_, .char h1 hcs⟩
      · obtain ⟨cs, hcs⟩ := ih rest.length (by simp at hn; omega) rest rfl
        exact ⟨_, .stray h hcs⟩

theorem capital_iff (E : Env) (c : Nat × Bytes) : Capital E.isUpperNA c ↔ isUpper E c.1 = true := by
  unfold Capital isUpper
  split <;> simp

theorem seen_prefix (l : List (Nat × Bytes)) : ∃ r, bytes l = seen l ++ r := by
  induction l with
  | nil => exact ⟨[], rfl⟩
  | cons c l ih =>
    cases l with
    | nil => exact ⟨c.2.drop 1, by rw [bytes_cons, seen, List.take_append_drop]; exact List.append_nil _⟩
    | cons d l =>
      obtain ⟨r, hr⟩ := ih
      exact ⟨r, by rw [bytes_cons, hr, seen]; simp⟩

theorem seen_nonempty {l : List (Nat × Bytes)} (hl : l ≠ []) (h : ∀ c ∈ l, c.2 ≠ []) : seen l ≠ [] := by
  cases l with
  | nil => exact absurd rfl hl
  | cons c l =>
    have hc := h c (by simp)
    cases l with
    | nil =>
      rw [seen]
      cases e : c.2 with
      | nil => exact absurd e hc
      | cons b t => simp
    | cons d l => rw [seen]; simp [hc]

theorem seen_one {c : Nat × Bytes} (h : c.2 ≠ []) : (seen [c]).length = 1 := by
  rw [seen, List.length_take]
  have := List.length_pos_iff.mpr h
  omega

variable {E : Env} {hd : Bytes}

theorem loop_key {k : List (Nat × Bytes)} (hk : k ≠ []) (hn : ∀ c ∈ k, c.2 ≠ []) (hu : ∀ c ∈ k, Capital E.isUpperNA c)
    (rest : List (Nat × Nat)) (i : Nat) (s : SplitState) (hs : s.dispatch = false) :
    splitLoop E hd (place i k ++ rest) s = splitLoop E hd rest { s with endKey := i + (seen k).length } := by
  induction k generalizing i s with
  | nil => exact absurd rfl hk
  | cons c k ih =>
    have hc := (capital_iff E c).mp (hu c (by simp))
    rw [place, List.cons_append, splitLoop, if_pos hc, hs]
    simp only [Bool.false_eq_true, if_false]
    cases k with
    | nil =>
      rw [seen_one (hn c (by simp))]
      rfl
    | cons d k =>
      rw [ih (by simp) (fun x hx => hn x (by simp [hx])) (fun x hx => hu x (by simp [hx])) _ _ (by rfl), seen,
        List.length_append, Nat.add_assoc]

theorem loop_dispatch {k : List (Nat × Bytes)} (hk : k ≠ []) (hn : ∀ c ∈ k, c.2 ≠ []) (hu : ∀ c ∈ k, Capital E.isUpperNA c)
    (rest : List (Nat × Nat)) (i : Nat) (s : SplitState) (hs : s.dispatch = true) {k0 v0 : Bytes}
    (h1 : slice? hd s.beginKey s.endKey = some k0) (h2 : slice? hd s.beginValue s.endValue = some v0) :
    splitLoop E hd (place i k ++ rest) s = splitLoop E hd rest
      { s with m := (k0, v0) :: s.m, beginKey := i, dispatch := false, endKey := i + (seen k).length } := by
  cases k with
  | nil => exact absurd rfl hk
  | cons c k =>
    have hc := (capital_iff E c).mp (hu c (by simp))
    rw [place, List.cons_append, splitLoop, if_pos hc, hs]
    simp only [if_true]
    unfold SplitState.store
    rw [h1, h2]
    simp only [Option.bind_eq_bind, Option.bind_some]
    cases k with
    | nil =>
      rw [seen_one (hn c (by simp))]
      rfl
    | cons d k =>
      rw [loop_key (by simp) (fun x hx => hn x (by simp [hx])) (fun x hx => hu x (by simp [hx])) _ _ _ (by rfl), seen,
        List.length_append, Nat.add_assoc]

theorem loop_valTail {v : List (Nat × Bytes)} (hv : v ≠ []) (hn : ∀ c ∈ v, c.2 ≠ []) (hu : ∀ c ∈ v, ¬ Capital E.isUpperNA c)
    (rest : List (Nat × Nat)) (i : Nat) (hi : i ≠ 0) (s : SplitState) (hs : s.dispatch = true) :
    splitLoop E hd (place i v ++ rest) s = splitLoop E hd rest { s with endValue := i + (seen v).length } := by
  induction v generalizing i s with
  | nil => exact absurd rfl hv
  | cons c v ih =>
    have hc := hu c (by simp)
    rw [capital_iff] at hc
    rw [place, List.cons_append, splitLoop, if_neg hc, if_neg hi, hs]
    simp only [Bool.not_true, Bool.false_eq_true, if_false]
    cases v with
    | nil =>
      rw [seen_one (hn c (by simp))]
      rfl
    | cons d v =>
      rw [ih (by simp) (fun x hx => hn x (by simp [hx])) (fun x hx => hu x (by simp [hx])) _ (by omega) _ (by rfl), seen,
        List.length_append, Nat.add_assoc]

theorem loop_val {v : List (Nat × Bytes)} (hv : v ≠ []) (hn : ∀ c ∈ v, c.2 ≠ []) (hu : ∀ c ∈ v, ¬ Capital E.isUpperNA c)
    (rest : List (Nat × Nat)) (i : Nat) (hi : i ≠ 0) (s : SplitState) (hs : s.dispatch = false) :
    splitLoop E hd (place i v ++ rest) s = splitLoop E hd rest
      { s with beginValue := i, dispatch := true, endValue := i + (seen v).length } := by
  cases v with
  | nil => exact absurd rfl hv
  | cons c v =>
    have hc := hu c (by simp)
    rw [capital_iff] at hc
    rw [place, List.cons_append, splitLoop, if_neg hc, if_neg hi, hs]
    simp only [Bool.not_false, if_true]
    cases v with
    | nil =>
      rw [seen_one (hn c (by simp))]
      rfl
    | cons d v =>
      rw [loop_valTail (by simp) (fun x hx => hn x (by simp [hx])) (fun x hx => hu x (by simp [hx])) _ _ (by omega) _ (by rfl), seen,
        List.length_append, Nat.add_assoc]

theorem slice_seen {pre post : Bytes} {l : List (Nat × Bytes)} (h : hd = pre ++ (bytes l ++ post)) :
    slice? hd pre.length (pre.length + (seen l).length) = some (seen l) := by
  obtain ⟨r, hr⟩ := seen_prefix l
  rw [hr] at h
  rw [slice?_some (by omega) (by rw [h]; simp), h]
  congr 1
  rw [List.take_append, List.take_of_length_le (by omega), Nat.add_sub_cancel_left, List.append_assoc, List.take_left,
    List.drop_left]

/-- what has been read: stored fields and the one at hand -/
structure Pending (hd : Bytes) (s : SplitState) (m : Section) (v : Bytes) : Prop where
  dispatch : s.dispatch = true
  now : ∃ k, slice? hd s.beginKey s.endKey = some k ∧ slice? hd s.beginValue s.endValue = some v ∧ m = (k, v) :: s.m

abbrev itemChars (i : Item) : List (Nat × Bytes) := i.key ++ i.val

def itemPair (i : Item) : Bytes × Bytes := (seen i.key, seen i.val)

/-- one field after others -/
theorem loop_item {i : Item} (hw : i.WF E.isUpperNA) (hn : ∀ c ∈ itemChars i, c.2 ≠ []) {pre post : Bytes}
    (hh : hd = pre ++ (bytes (itemChars i) ++ post)) (rest : List (Nat × Nat)) {s : SplitState} {m : Section} {v : Bytes}
    (hs : Pending hd s m v) :
    ∃ s', splitLoop E hd (place pre.length (itemChars i) ++ rest) s = splitLoop E hd rest s' ∧
      Pending hd s' (itemPair i :: m) (seen i.val) := by
  obtain ⟨h0, k, h1, h2, rfl⟩ := hs
  have hnk : ∀ c ∈ i.key, c.2 ≠ [] := fun c hc => hn c (by simp [itemChars, hc])
  have hnv : ∀ c ∈ i.val, c.2 ≠ [] := fun c hc => hn c (by simp [itemChars, hc])
  obtain ⟨r, hr⟩ := seen_prefix i.key
  have hpos := List.length_pos_iff.mpr (seen_nonempty hw.key hnk)
  have hlen := congrArg List.length hr
  rw [List.length_append] at hlen
  rw [bytes_append] at hh
  have hk := slice_seen (hd := hd) (l := i.key) (pre := pre) (post := bytes i.val ++ post) (by rw [hh]; simp)
  have hv := slice_seen (hd := hd) (l := i.val) (pre := pre ++ bytes i.key) (post := post) (by rw [hh]; simp)
  rw [place_append, List.append_assoc, loop_dispatch hw.key hnk hw.up _ _ s h0 h1 h2,
    loop_val hw.val hnv hw.low _ _ (by omega) _ (by rfl)]
  rw [List.length_append] at hv
  exact ⟨_, rfl, rfl, seen i.key, hk, hv, rfl⟩

/-- the first field -/
theorem loop_first {i : Item} (hw : i.WF E.isUpperNA) (hn : ∀ c ∈ itemChars i, c.2 ≠ []) {post : Bytes}
    (hh : hd = bytes (itemChars i) ++ post) (rest : List (Nat × Nat)) :
    ∃ s', splitLoop E hd (place 0 (itemChars i) ++ rest) ⟨[], 0, 0, 0, 0, false⟩ = splitLoop E hd rest s' ∧
      Pending hd s' [itemPair i] (seen i.val) := by
  have hnk : ∀ c ∈ i.key, c.2 ≠ [] := fun c hc => hn c (by simp [itemChars, hc])
  have hnv : ∀ c ∈ i.val, c.2 ≠ [] := fun c hc => hn c (by simp [itemChars, hc])
  obtain ⟨r, hr⟩ := seen_prefix i.key
  have hpos := List.length_pos_iff.mpr (seen_nonempty hw.key hnk)
  have hlen := congrArg List.length hr
  rw [List.length_append] at hlen
  rw [bytes_append] at hh
  have hk := slice_seen (hd := hd) (l := i.key) (pre := []) (post := bytes i.val ++ post) (by rw [hh]; simp)
  have hv := slice_seen (hd := hd) (l := i.val) (pre := bytes i.key) (post := post) (by rw [hh]; simp)
  rw [place_append, List.append_assoc, loop_key hw.key hnk hw.up _ _ _ rfl,
    loop_val hw.val hnv hw.low _ _ (by omega) _ (by rfl)]
  refine ⟨_, rfl, rfl, seen i.key, ?_, ?_, rfl⟩
  · exact hk
  · simpa using hv

theorem loop_items {is : List Item} (hw : ∀ i ∈ is, i.WF E.isUpperNA) (hn : ∀ c ∈ is.flatMap itemChars, c.2 ≠ [])
    {pre post : Bytes} (hh : hd = pre ++ (bytes (is.flatMap itemChars) ++ post)) (rest : List (Nat × Nat)) {s : SplitState}
    {m : Section} {v : Bytes} (hs : Pending hd s m v) :
    ∃ s', splitLoop E hd (place pre.length (is.flatMap itemChars) ++ rest) s = splitLoop E hd rest s' ∧
      Pending hd s' ((is.map itemPair).reverse ++ m) (((is.getLast?.map fun i => seen i.val)).getD v) := by
  induction is generalizing pre s m v with
  | nil => exact ⟨s, rfl, by simpa using hs⟩
  | cons i is ih =>
    rw [List.flatMap_cons] at hh hn ⊢
    rw [bytes_append] at hh
    rw [place_append, List.append_assoc]
    obtain ⟨s1, e1, p1⟩ := loop_item (hw i (by simp)) (fun c hc => hn c (List.mem_append.mpr (Or.inl hc)))
      (pre := pre) (post := bytes (is.flatMap itemChars) ++ post) (by rw [hh]; simp)
      (place (pre.length + (bytes (itemChars i)).length) (is.flatMap itemChars) ++ rest) hs
    obtain ⟨s2, e2, p2⟩ := ih (fun j hj => hw j (by simp [hj])) (fun c hc => hn c (List.mem_append.mpr (Or.inr hc)))
      (pre := pre ++ bytes (itemChars i)) (by rw [hh]; simp) p1
    rw [List.length_append] at e2
    refine ⟨s2, by rw [e1, e2], ?_⟩
    have : ((i :: is).getLast?.map fun i => seen i.val).getD v = (is.getLast?.map fun i => seen i.val).getD (seen i.val) := by
      cases is with
      | nil => rfl
      | cons j is => simp [List.getLast?_cons]
    rw [this]
    simpa using p2

theorem loop_end {s : SplitState} {m : Section} {v : Bytes} (hs : Pending hd s m v) : splitLoop E hd [] s = some m := by
  obtain ⟨h0, k, h1, h2, rfl⟩ := hs
  unfold splitLoop SplitState.store
  rw [h1, h2]
  rfl

/-- fields -/
theorem split_items {is : List Item} (hne : is ≠ []) (hw : ∀ i ∈ is, i.WF E.isUpperNA) {t : Bytes}
    (h : Chars t (is.flatMap itemChars)) : splitHeader E t = some (is.map itemPair).reverse := by
  have hb := chars_bytes h
  have hn := chars_nonempty h
  unfold splitHeader
  rw [chars_runes h]
  cases is with
  | nil => exact absurd rfl hne
  | cons i is =>
    rw [List.flatMap_cons] at hb hn ⊢
    rw [bytes_append] at hb
    obtain ⟨s1, e1, p1⟩ := loop_first (hw i (by simp)) (fun c hc => hn c (List.mem_append.mpr (Or.inl hc))) hb
      (place (bytes (itemChars i)).length (is.flatMap itemChars) ++ [])
    obtain ⟨s2, e2, p2⟩ := loop_items (hd := t) (is := is) (fun j hj => hw j (by simp [hj]))
      (fun c hc => hn c (List.mem_append.mpr (Or.inr hc))) (pre := bytes (itemChars i)) (post := [])
      (by rw [hb]; simp) [] p1
    rw [place_append, Nat.zero_add, ← List.append_nil (place (bytes (itemChars i)).length _), e1, e2, loop_end p2]
    simp

/-- fields and a key at the end -/
theorem split_trailing {is : List Item} {g : Item} {k : List (Nat × Bytes)} (hw : ∀ i ∈ is ++ [g], i.WF E.isUpperNA)
    (hk : k ≠ []) (hu : ∀ c ∈ k, Capital E.isUpperNA c) {t : Bytes}
    (h : Chars t ((is ++ [g]).flatMap itemChars ++ k)) :
    splitHeader E t = some ((seen k, seen g.val) :: ((is ++ [g]).map itemPair).reverse) := by
  have hb := chars_bytes h
  have hn := chars_nonempty h
  unfold splitHeader
  rw [chars_runes h]
  have hkey : ∀ {s : SplitState} {m : Section}, Pending t s m (seen g.val) →
      splitLoop E t (place (bytes ((is ++ [g]).flatMap itemChars)).length k) s = some ((seen k, seen g.val) :: m) := by
    rintro s m ⟨h0, k0, h1, h2, rfl⟩
    rw [← List.append_nil (place _ k), loop_dispatch hk (fun c hc => hn c (List.mem_append.mpr (Or.inr hc))) hu _ _ s h0 h1 h2]
    unfold splitLoop SplitState.store
    rw [bytes_append] at hb
    have := slice_seen (hd := t) (l := k) (pre := bytes ((is ++ [g]).flatMap itemChars)) (post := []) (by rw [hb]; simp)
    simp only
    rw [this, h2]
    rfl
  generalize hj : is ++ [g] = js at *
  cases js with
  | nil => simp at hj
  | cons i js =>
    rw [place_append, Nat.zero_add]
    have e0 : place 0 ((i :: js).flatMap itemChars) = place 0 (itemChars i) ++ place (bytes (itemChars i)).length (js.flatMap itemChars) := by
      rw [List.flatMap_cons, place_append, Nat.zero_add]
    have hb' : t = bytes (itemChars i) ++ (bytes (js.flatMap itemChars) ++ bytes k) := by
      rw [hb, bytes_append, List.flatMap_cons, bytes_append, List.append_assoc]
    rw [e0, List.append_assoc]
    have hni : ∀ c ∈ itemChars i, c.2 ≠ [] := fun c hc => hn c (by
      simp only [List.flatMap_cons, List.mem_append]; exact Or.inl (Or.inl (by simpa [itemChars] using hc)))
    have hnj : ∀ c ∈ js.flatMap itemChars, c.2 ≠ [] := fun c hc => hn c (by
      rw [List.flatMap_cons, List.mem_append, List.mem_append]; exact Or.inl (Or.inr hc))
    obtain ⟨s1, e1, p1⟩ := loop_first (hw i (by simp)) hni hb'
      (place (bytes (itemChars i)).length (js.flatMap itemChars) ++ place (bytes ((i :: js).flatMap itemChars)).length k)
    obtain ⟨s2, e2, p2⟩ := loop_items (hd := t) (is := js) (fun j hj => hw j (by simp [hj])) hnj (pre := bytes (itemChars i))
      (post := bytes k) hb' (place (bytes ((i :: js).flatMap itemChars)).length k) p1
    have hg : (js.getLast?.map fun i => seen i.val).getD (seen i.val) = seen g.val := by
      have : (i :: js).getLast? = some g := by rw [← hj]; simp
      cases js with
      | nil => simp at this; rw [this]; rfl
      | cons j js => rw [List.getLast?_cons_cons] at this; rw [this]; rfl
    rw [hg] at p2
    rw [e1, e2, hkey p2]
    simp

theorem split_upper {k : List (Nat × Bytes)} (hu : ∀ c ∈ k, Capital E.isUpperNA c) {t : Bytes} (h : Chars t k) :
    splitHeader E t = some [(seen k, [])] := by
  have hb := chars_bytes h
  have hn := chars_nonempty h
  unfold splitHeader
  rw [chars_runes h]
  by_cases hk : k = []
  · subst hk
    subst hb
    rfl
  · have := slice_seen (hd := t) (l := k) (pre := []) (post := []) (by rw [hb]; simp)
    rw [← List.append_nil (place 0 k), loop_key hk hn hu _ _ _ rfl]
    unfold splitLoop SplitState.store
    simp only [List.length_nil] at this
    simp only
    rw [this]
    rfl

theorem split_low {c : Nat × Bytes} {rest : List (Nat × Bytes)} (hl : ¬ Capital E.isUpperNA c) {t : Bytes}
    (h : Chars t (c :: rest)) : splitHeader E t = some [] := by
  unfold splitHeader
  rw [chars_runes h, place, splitLoop, if_neg (by rw [← capital_iff]; exact hl), if_pos rfl]

end Radolan.Any
