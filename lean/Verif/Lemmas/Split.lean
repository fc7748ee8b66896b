/- splitHeader on well-formed headers. -/
import Verif.Lemmas.Header
import Verif.Spec.Header

namespace Radolan
open Go

theorem isUpper_ascii {E : Env} {b : UInt8} (h : b < 128) :
    isUpper E b.toNat = decide (Spec.upper b) := by
  have : b.toNat < 128 := by simpa using UInt8.lt_iff_toNat_lt.mp h
  unfold isUpper Spec.upper
  rw [if_pos this]
  simp [UInt8.le_iff_toNat_le]

theorem upper_lt {b : UInt8} (h : Spec.upper b) : b < 128 := by
  unfold Spec.upper at h
  have h2 := UInt8.le_iff_toNat_le.mp h.2
  rw [UInt8.lt_iff_toNat_lt]
  simp at h2 ⊢; omega

/-- one key -/
theorem splitLoop_key (E : Env) (hd : Bytes) (k : Bytes) (hk : k ≠ []) (hu : ∀ b ∈ k, Spec.upper b)
    (rest : Bytes) (i : Nat) (s : SplitState) (hs : s.dispatch = false) :
    splitLoop E hd (runesFrom i 0 (k ++ rest)) s
      = splitLoop E hd (runesFrom (i + k.length) 0 rest) { s with endKey := i + k.length } := by
  induction k generalizing i s with
  | nil => exact absurd rfl hk
  | cons b k ih =>
    have hb := hu b (by simp)
    rw [List.cons_append, runesFrom_ascii_cons (upper_lt hb)]
    conv_lhs => unfold splitLoop
    rw [isUpper_ascii (upper_lt hb)]
    simp only [hb, decide_true, if_true, hs, Bool.false_eq_true, if_false]
    by_cases hk' : k = []
    · subst hk'; simp
    · rw [ih hk' (fun x hx => hu x (by simp [hx])) (i + 1) _ (by simp)]
      have : i + 1 + k.length = i + (b :: k).length := by simp; omega
      rw [this]

/-- value, after its first character -/
theorem splitLoop_valTail (E : Env) (hd : Bytes) (v : Bytes) (hu : ∀ b ∈ v, b < 128 ∧ ¬ Spec.upper b)
    (rest : Bytes) (i : Nat) (hi : 0 < i) (s : SplitState) (hs : s.dispatch = true) (he : s.endValue = i) :
    splitLoop E hd (runesFrom i 0 (v ++ rest)) s
      = splitLoop E hd (runesFrom (i + v.length) 0 rest) { s with endValue := i + v.length } := by
  induction v generalizing i s with
  | nil => simp only [List.nil_append, List.length_nil, Nat.add_zero, ← he]
  | cons b v ih =>
    have hb := hu b (by simp)
    rw [List.cons_append, runesFrom_ascii_cons hb.1]
    conv_lhs => unfold splitLoop
    rw [isUpper_ascii hb.1]
    simp only [hb.2, decide_false, Bool.false_eq_true, if_false, hs, Bool.not_true, Nat.ne_of_gt hi]
    rw [ih (fun x hx => hu x (by simp [hx])) (i + 1) (by omega) _ (by simp) rfl]
    have : i + 1 + v.length = i + (b :: v).length := by simp; omega
    rw [this]

/-- one value -/
theorem splitLoop_val (E : Env) (hd : Bytes) (v : Bytes) (hv : v ≠ []) (hu : ∀ b ∈ v, b < 128 ∧ ¬ Spec.upper b)
    (rest : Bytes) (i : Nat) (hi : 0 < i) (s : SplitState) (hs : s.dispatch = false) :
    splitLoop E hd (runesFrom i 0 (v ++ rest)) s
      = splitLoop E hd (runesFrom (i + v.length) 0 rest)
          { s with beginValue := i, dispatch := true, endValue := i + v.length } := by
  cases v with
  | nil => exact absurd rfl hv
  | cons b v =>
    have hb := hu b (by simp)
    rw [List.cons_append, runesFrom_ascii_cons hb.1]
    conv_lhs => unfold splitLoop
    rw [isUpper_ascii hb.1]
    simp only [hb.2, decide_false, Bool.false_eq_true, if_false, hs, Bool.not_false, if_true, Nat.ne_of_gt hi]
    rw [splitLoop_valTail E hd v (fun x hx => hu x (by simp [hx])) rest (i + 1) (by omega) _ rfl rfl]
    have : i + 1 + v.length = i + (b :: v).length := by simp; omega
    rw [this]

/-- first character of a key after a value: the pending field is stored -/
theorem splitLoop_dispatch (E : Env) (hd : Bytes) (k : Bytes) (hk : k ≠ []) (hu : ∀ b ∈ k, Spec.upper b)
    (rest : Bytes) (i : Nat) (s : SplitState) (hs : s.dispatch = true)
    (h1 : s.beginKey ≤ s.endKey) (h2 : s.endKey ≤ hd.length)
    (h3 : s.beginValue ≤ s.endValue) (h4 : s.endValue ≤ hd.length) :
    splitLoop E hd (runesFrom i 0 (k ++ rest)) s
      = splitLoop E hd (runesFrom (i + k.length) 0 rest)
          { s with m := ((hd.take s.endKey).drop s.beginKey, (hd.take s.endValue).drop s.beginValue) :: s.m,
                   beginKey := i, dispatch := false, endKey := i + k.length } := by
  cases k with
  | nil => exact absurd rfl hk
  | cons b k =>
    have hb := hu b (by simp)
    rw [List.cons_append, runesFrom_ascii_cons (upper_lt hb)]
    conv_lhs => unfold splitLoop
    rw [isUpper_ascii (upper_lt hb), SplitState.store_some h1 h2 h3 h4]
    simp only [hb, decide_true, if_true, hs, Option.bind_eq_bind, Option.bind_some]
    by_cases hk' : k = []
    · subst hk'; simp
    · rw [splitLoop_key E hd k hk' (fun x hx => hu x (by simp [hx])) rest (i + 1) _ rfl]
      have : i + 1 + k.length = i + (b :: k).length := by simp; omega
      rw [this]

/-- the fields as key/value pairs -/
def pairs (fs : List Spec.Field) : Section := fs.map fun f => (f.key, f.val)

theorem WF.val {f : Spec.Field} (h : f.WF) : ∀ b ∈ f.val, b < 128 ∧ ¬ Spec.upper b :=
  fun b hb => ⟨(h.2.2.2 b hb).1, (h.2.2.2 b hb).2.1⟩

/-- the loop takes the bytes of `v` as one value -/
def SplitSteps (E : Env) (v : Bytes) : Prop :=
  ∀ (hd rest : Bytes) (i : Nat) (s : SplitState), 0 < i → s.dispatch = false →
    splitLoop E hd (runesFrom i 0 (v ++ rest)) s
      = splitLoop E hd (runesFrom (i + v.length) 0 rest)
          { s with beginValue := i, dispatch := true, endValue := i + v.length }

/-- a key of upper-case letters and a value taken in one -/
def FieldOK (E : Env) (f : Spec.Field) : Prop := f.key ≠ [] ∧ (∀ b ∈ f.key, Spec.upper b) ∧ SplitSteps E f.val

theorem WF.ok {f : Spec.Field} (E : Env) (h : f.WF) : FieldOK E f :=
  ⟨h.1, h.2.1, fun hd rest i s hi hs => splitLoop_val E hd f.val h.2.2.1 (WF.val h) rest i hi s hs⟩

/-- all further fields, one field pending -/
theorem splitLoop_fields (E : Env) (hd : Bytes) (fs : List Spec.Field) (hw : ∀ f ∈ fs, FieldOK E f) (tail : Bytes)
    (pre : Bytes) (s : SplitState) (hh : hd = pre ++ (Spec.header fs ++ tail)) (hp : 0 < pre.length)
    (hs : s.dispatch = true)
    (h1 : s.beginKey ≤ s.endKey) (h2 : s.endKey ≤ pre.length)
    (h3 : s.beginValue ≤ s.endValue) (h4 : s.endValue ≤ pre.length) :
    ∃ s', splitLoop E hd (runesFrom pre.length 0 (Spec.header fs ++ tail)) s
        = splitLoop E hd (runesFrom (pre ++ Spec.header fs).length 0 tail) s' ∧
      s'.dispatch = true ∧ s'.beginKey ≤ s'.endKey ∧ s'.endKey ≤ hd.length ∧
      s'.beginValue ≤ s'.endValue ∧ s'.endValue ≤ hd.length ∧
      ((hd.take s'.endKey).drop s'.beginKey, (hd.take s'.endValue).drop s'.beginValue) :: s'.m
        = (pairs fs).reverse ++
          (((hd.take s.endKey).drop s.beginKey, (hd.take s.endValue).drop s.beginValue) :: s.m) := by
  induction fs generalizing pre s with
  | nil =>
    have : pre.length ≤ hd.length := by rw [hh]; simp
    exact ⟨s, by simp [Spec.header], hs, h1, by omega, h3, by omega, by simp [pairs]⟩
  | cons f fs ih =>
    have hf := hw f (by simp)
    have hlen : hd.length = pre.length + f.key.length + f.val.length + (Spec.header fs ++ tail).length := by
      rw [hh]; simp [Spec.header]; omega
    rw [show Spec.header (f :: fs) ++ tail = f.key ++ (f.val ++ (Spec.header fs ++ tail)) by
      simp [Spec.header]]
    rw [splitLoop_dispatch E hd f.key hf.1 hf.2.1 _ pre.length s hs h1 (by omega) h3 (by omega)]
    rw [hf.2.2 hd _ (pre.length + f.key.length) _ (by omega) rfl]
    have e1 : pre.length + f.key.length + f.val.length = (pre ++ (f.key ++ f.val)).length := by simp; omega
    rw [e1]
    obtain ⟨s', g1, g2, g3, g4, g5, g6, g7⟩ := ih (fun g hg => hw g (by simp [hg])) (pre ++ (f.key ++ f.val))
      { s with m := ((hd.take s.endKey).drop s.beginKey, (hd.take s.endValue).drop s.beginValue) :: s.m,
               beginKey := pre.length, dispatch := true, endKey := pre.length + f.key.length,
               beginValue := pre.length + f.key.length, endValue := (pre ++ (f.key ++ f.val)).length }
      (by rw [hh]; simp [Spec.header]) (by simp; omega) rfl (by simp) (by simp) (by simp) (by simp)
    refine ⟨s', ?_, g2, g3, g4, g5, g6, ?_⟩
    · rw [g1]; simp [Spec.header]
    · rw [g7]
      have k1 : (hd.take (pre.length + f.key.length)).drop pre.length = f.key := by
        rw [List.drop_take, hh]; simp [Spec.header]
      have k2 : (hd.take (pre ++ (f.key ++ f.val)).length).drop (pre.length + f.key.length) = f.val := by
        rw [List.drop_take, hh]
        have e2 : (pre ++ (f.key ++ f.val)).length - (pre.length + f.key.length) = f.val.length := by simp; omega
        rw [e2]
        have e3 : pre ++ (Spec.header (f :: fs) ++ tail) = (pre ++ f.key) ++ (f.val ++ (Spec.header fs ++ tail)) := by
          simp [Spec.header]
        rw [e3, ← List.length_append, List.drop_left, List.take_left]
      simp only [k1, k2, pairs, List.map_cons, List.reverse_cons, List.append_assoc, List.cons_append,
        List.nil_append]

/-- the state after a non-empty well-formed header -/
theorem split_header_state (E : Env) (f : Spec.Field) (fs : List Spec.Field) (hw : ∀ g ∈ f :: fs, FieldOK E g)
    (tail : Bytes) :
    ∃ s', splitHeader E (Spec.header (f :: fs) ++ tail)
        = splitLoop E (Spec.header (f :: fs) ++ tail) (runesFrom (Spec.header (f :: fs)).length 0 tail) s' ∧
      s'.dispatch = true ∧ s'.beginKey ≤ s'.endKey ∧ s'.endKey ≤ (Spec.header (f :: fs) ++ tail).length ∧
      s'.beginValue ≤ s'.endValue ∧ s'.endValue ≤ (Spec.header (f :: fs) ++ tail).length ∧
      (((Spec.header (f :: fs) ++ tail).take s'.endKey).drop s'.beginKey,
        ((Spec.header (f :: fs) ++ tail).take s'.endValue).drop s'.beginValue) :: s'.m
        = (pairs (f :: fs)).reverse := by
  have hf := hw f (by simp)
  generalize hhd : Spec.header (f :: fs) ++ tail = hd
  have hhd2 : hd = f.key ++ (f.val ++ (Spec.header fs ++ tail)) := by rw [← hhd]; simp [Spec.header]
  have hlen : hd.length = f.key.length + f.val.length + (Spec.header fs ++ tail).length := by
    rw [hhd2]; simp; omega
  have hk0 : 0 < f.key.length := List.length_pos_iff.mpr hf.1
  unfold splitHeader
  conv => enter [1, s', 1, 1, 3]; rw [hhd2]
  rw [splitLoop_key E hd f.key hf.1 hf.2.1 _ 0 _ rfl]
  rw [Nat.zero_add]
  rw [hf.2.2 hd _ f.key.length _ hk0 rfl]
  rw [show f.key.length + f.val.length = (f.key ++ f.val).length by simp]
  obtain ⟨s', g1, g2, g3, g4, g5, g6, g7⟩ := splitLoop_fields E hd fs (fun g hg => hw g (by simp [hg])) tail
    (f.key ++ f.val)
    ⟨[], 0, f.key.length, f.key.length, (f.key ++ f.val).length, true⟩
    (by rw [hhd2]; simp) (by simp; omega) rfl (by simp) (by simp) (by simp) (by simp)
  refine ⟨s', ?_, g2, g3, g4, g5, g6, ?_⟩
  · rw [g1]; simp [Spec.header]
  · rw [g7]
    have k1 : (hd.take f.key.length).drop 0 = f.key := by rw [hhd2]; simp
    have k2 : (hd.take (f.key ++ f.val).length).drop f.key.length = f.val := by
      rw [List.drop_take, hhd2]; simp
    simp only [k1, k2, pairs, List.map_cons, List.reverse_cons]

/-- splitHeader of a well-formed header -/
theorem splitHeader_ok (E : Env) (fs : List Spec.Field) (hne : fs ≠ []) (hw : ∀ f ∈ fs, FieldOK E f) :
    splitHeader E (Spec.header fs) = some (pairs fs).reverse := by
  cases fs with
  | nil => exact absurd rfl hne
  | cons f fs =>
    obtain ⟨s', g1, g2, g3, g4, g5, g6, g7⟩ := split_header_state E f fs hw []
    simp only [List.append_nil] at g1 g4 g6 g7
    rw [g1]
    simp only [runesFrom, splitLoop]
    rw [SplitState.store_some g3 g4 g5 g6]
    simp [g7]

theorem splitHeader_wf (E : Env) (fs : List Spec.Field) (hne : fs ≠ []) (hw : ∀ f ∈ fs, f.WF) :
    splitHeader E (Spec.header fs) = some (pairs fs).reverse :=
  splitHeader_ok E fs hne fun f hf => WF.ok E (hw f hf)

/-- splitHeader of a well-formed header followed by a key without value -/
theorem splitHeader_trailing (E : Env) (fs : List Spec.Field) (g : Spec.Field) (hw : ∀ f ∈ fs ++ [g], f.WF)
    (k : Bytes) (hk : k ≠ []) (hu : ∀ b ∈ k, Spec.upper b) :
    splitHeader E (Spec.header (fs ++ [g]) ++ k) = some ((k, g.val) :: (pairs (fs ++ [g])).reverse) := by
  obtain ⟨f0, fs0, h0⟩ : ∃ f0 fs0, fs ++ [g] = f0 :: fs0 := by
    cases fs with
    | nil => exact ⟨g, [], rfl⟩
    | cons a t => exact ⟨a, t ++ [g], rfl⟩
  rw [h0] at hw
  obtain ⟨s', g1, g2, g3, g4, g5, g6, g7⟩ := split_header_state E f0 fs0 (fun f hf => WF.ok E (hw f hf)) k
  rw [← h0] at g1 g4 g6 g7
  rw [g1]
  have := splitLoop_dispatch E (Spec.header (fs ++ [g]) ++ k) k hk hu [] (Spec.header (fs ++ [g])).length s' g2 g3 g4 g5 g6
  rw [List.append_nil] at this
  rw [this]
  simp only [runesFrom, splitLoop]
  rw [SplitState.store_some]
  · simp only [Option.bind_eq_bind, Option.bind_some]
    rw [g7]
    have e1 : (Spec.header (fs ++ [g]) ++ k).take ((Spec.header (fs ++ [g])).length + k.length)
        = Spec.header (fs ++ [g]) ++ k := by
      rw [← List.length_append, List.take_length]
    rw [e1, List.drop_left]
    simp only [pairs, List.map_append, List.reverse_append, List.map_cons, List.map_nil, List.reverse_cons,
      List.reverse_nil, List.nil_append, List.cons_append, List.cons.injEq, Prod.mk.injEq] at g7
    rw [g7.1.2]
  · simp
  · simp
  · simpa using g5
  · simpa using g6

theorem find_pairs (fs : List Spec.Field) (k : Bytes) :
    Section.find (pairs fs).reverse k = Spec.value fs k := by
  unfold Section.find
  induction fs with
  | nil => rfl
  | cons f fs ih =>
    simp only [pairs, List.map_cons, List.reverse_cons, Spec.value] at ih ⊢
    rw [List.lookup_append, ih]
    cases Spec.value fs k with
    | some v => rfl
    | none =>
      simp only [Option.none_or, List.lookup_cons, List.lookup_nil]
      by_cases h : f.key = k
      · simp [h]
      · have : (k == f.key) = false := by simp [Ne.symm h]
        simp [this, h]

end Radolan
