/- The memory accesses of NewComposite compute what NewComposite returns. -/
import Verif.Lemmas.Conc

namespace Radolan

/-- the header stages leave the plain data alone -/
def Keeps (m : M α) : Prop := ∀ c, match m c with
  | .ok _ c' => c'.plainData = c.plainData
  | .err _ c' => c'.plainData = c.plainData
  | .panic => True

namespace Keeps

theorem pure (a : α) : Keeps (Pure.pure a : M α) := fun _ => rfl
theorem fail (e : Err) : Keeps (M.fail e : M α) := fun _ => rfl
theorem panic : Keeps (M.panic : M α) := fun _ => trivial
theorem get : Keeps M.get := fun _ => rfl
theorem modify {g : Composite → Composite} (h : ∀ c, (g c).plainData = c.plainData) : Keeps (M.modify g) := fun c => h c
theorem orErr (e : Err) (o : Option α) : Keeps (M.orErr e o) := by cases o <;> exact fun _ => rfl
theorem orPanic (o : Option α) : Keeps (M.orPanic o) := by
  cases o
  · exact fun _ => trivial
  · exact fun _ => rfl

theorem bind {m : M α} {k : α → M β} (hm : Keeps m) (hk : ∀ a, Keeps (k a)) : Keeps (m >>= k) := by
  intro c
  rw [M.bind_apply]
  have := hm c
  cases h : m c with
  | panic => trivial
  | err e c' => rw [h] at this; exact this
  | ok a c' =>
    rw [h] at this
    have h2 := hk a c'
    simp only at this ⊢
    cases h3 : k a c' with
    | panic => trivial
    | err e c2 => rw [h3] at h2; exact h2.trans this
    | ok b c2 => rw [h3] at h2; exact h2.trans this

theorem ite {p : Prop} [Decidable p] {m m' : M α} (h : Keeps m) (h' : Keeps m') : Keeps (if p then m else m') := by
  split <;> assumption

theorem levelLoop (E : Env) (lv : Go.Bytes) : ∀ todo i, Keeps (Radolan.levelLoop E lv todo i)
  | 0, _ => Keeps.pure _
  | todo + 1, i => by
    unfold Radolan.levelLoop
    exact (orPanic _).bind fun _ => (orErr _ _).bind fun _ => (modify (by intro _; rfl)).bind fun _ => levelLoop E lv todo (i + 1)

theorem assignDims (e : Err) (r : Option Int × Option Int) : Keeps (Radolan.assignDims e r) := by
  unfold Radolan.assignDims
  exact (modify (by intro _; rfl)).bind fun _ => (orErr _ _).bind fun _ => (modify (by intro _; rfl)).bind fun _ => modify (by intro _; rfl)

theorem parseHeader (E : Env) (input : Go.Bytes) : Keeps (Radolan.parseHeader E input) := by
  unfold Radolan.parseHeader
  refine (orErr _ _).bind fun q => ?_
  refine ite (fail _) ?_
  refine (orPanic _).bind fun _ => (orPanic _).bind fun sec => ?_
  refine bind ?_ fun _ => bind ?_ fun _ => bind ?_ fun _ => bind ?_ fun _ => bind ?_ fun _ => bind ?_ fun _ => bind ?_ fun _ =>
    bind ?_ fun _ => bind ?_ fun _ => pure _
  · unfold stageProduct
    exact (orPanic _).bind fun _ => modify (by intro _; rfl)
  · unfold stageLength
    exact (orErr _ _).bind fun _ => modify (by intro _; rfl)
  · unfold stageCapture
    refine (orPanic _).bind fun _ => (orPanic _).bind fun _ => ?_
    split
    · exact modify (by intro _; rfl)
    · exact (modify (by intro _; rfl)).bind fun _ => fail _
  · unfold stageForecast
    refine (modify (by intro _; rfl)).bind fun _ => ?_
    split
    · exact (orErr _ _).bind fun _ => modify (by intro _; rfl)
    · exact pure _
  · unfold stageInterval
    split
    · exact (orErr _ _).bind fun _ => modify (by intro c; simp only; split <;> rfl)
    · exact pure _
  · unfold stageDims
    split
    · exact assignDims _ _
    · split
      · exact assignDims _ _
      · exact get.bind fun _ => (orErr _ _).bind fun _ => modify (by intro _; rfl)
  · unfold stagePrecision
    split
    · exact (orErr _ _).bind fun _ => modify (by intro _; rfl)
    · exact pure _
  · unfold stageLevel
    split
    · refine ite (fail _) ((orPanic _).bind fun _ => (orErr _ _).bind fun _ => ite (fail _) (ite panic ?_))
      exact (modify (by intro _; rfl)).bind fun _ => levelLoop _ _ _ _
    · exact pure _
  · unfold stageFormat
    split
    · exact (orErr _ _).bind fun _ => modify (by intro _; rfl)
    · exact pure _

end Keeps

namespace Conc
open Go
open Radolan.Heap (Win View)

/-! ### stores into one row -/

variable {R : Mem}

/-- values written at consecutive indices -/
def overwrite : List F32 → Nat → List F32 → List F32
  | l, _, [] => l
  | l, i, v :: vs => overwrite (l.set i v) (i + 1) vs

theorem overwrite_eq (vs : List F32) : ∀ (l : List F32) (i : Nat), i + vs.length = l.length →
    overwrite l i vs = l.take i ++ vs := by
  induction vs with
  | nil => intro l i h; simp only [overwrite]; simp at h; rw [h]; simp
  | cons v vs ih =>
    intro l i h
    simp only [List.length_cons] at h
    simp only [overwrite]
    rw [ih _ _ (by rw [List.length_set]; omega), List.take_set, List.take_add_one,
      List.getElem?_eq_getElem (by omega)]
    rw [List.set_append_right _ _ (by rw [List.length_take]; omega)]
    simp [List.length_take, show min i l.length = i by omega]

theorem overwrite_length (vs : List F32) : ∀ (l : List F32) (i : Nat), (overwrite l i vs).length = l.length := by
  induction vs with
  | nil => intro l i; rfl
  | cons v vs ih => intro l i; simp only [overwrite, ih, List.length_set]

theorem update_self_eq {f : Mem} {a : Addr} {o : Obj} (h : f a = some o) : Function.update f a (some o) = f := by
  rw [← h]; exact Function.update_eq_self a f

theorem safe_storeAll {Q : Option Unit → Mem → Prop} {a : Addr} {n : Nat} (vals : List F32) :
    ∀ (i : Nat) (l : List F32) (f : Mem), f a = some (.floats l) → l.length = n → i + vals.length ≤ n →
      Q (some ()) (Function.update f a (some (.floats (overwrite l i vals)))) → Safe R Q (storeAll ⟨a, n⟩ i vals) f := by
  induction vals with
  | nil =>
    intro i l f hf hl hi hQ
    simp only [overwrite] at hQ
    rw [update_self_eq hf] at hQ
    exact hQ
  | cons v vs ih =>
    intro i l f hf hl hi hQ
    simp only [List.length_cons] at hi
    simp only [storeAll, storeAt]
    rw [if_pos (show i < n by omega)]
    refine ⟨l, hf, fun _ => ?_, fun h => absurd (show i < l.length by omega) h⟩
    refine ih (i + 1) (l.set i v) _ (by rw [Function.update_self]) (by rw [List.length_set, hl]) (by omega) ?_
    rw [Function.update_idem]
    exact hQ

theorem safe_writeRun {Q : Option (Except Err Nat) → Mem → Prop} {a : Addr} {n : Nat} {v : F32} (k : Nat) :
    ∀ (pos : Nat) (l : List F32) (f : Mem), f a = some (.floats l) → l.length = n →
      (match Radolan.writeRun v k l pos with
      | .ok (l', pos') => Q (some (.ok pos')) (Function.update f a (some (.floats l')))
      | .error l' => Q (some (.error .destinationExceeded)) (Function.update f a (some (.floats l')))) →
      Safe R Q (writeRun ⟨a, n⟩ v k pos) f := by
  induction k with
  | zero =>
    intro pos l f hf hl hQ
    simp only [Radolan.writeRun] at hQ
    rw [update_self_eq hf] at hQ
    exact hQ
  | succ k ih =>
    intro pos l f hf hl hQ
    simp only [Radolan.writeRun] at hQ
    simp only [writeRun]
    by_cases h : n ≤ pos
    · rw [if_pos h]
      rw [if_pos (by omega)] at hQ
      simp only at hQ
      rw [update_self_eq hf] at hQ
      exact hQ
    · rw [if_neg h]
      rw [if_neg (by omega)] at hQ
      simp only [storeAt]
      rw [if_pos (show pos < n by omega)]
      refine ⟨l, hf, fun _ => ?_, fun h => absurd (show pos < l.length by omega) h⟩
      refine ih (pos + 1) (l.set pos v) _ (by rw [Function.update_self]) (by rw [List.length_set, hl]) ?_
      simp only [Function.update_idem]
      exact hQ

theorem writeRun_length {v : F32} (k : Nat) : ∀ (l : List F32) (pos : Nat), match Radolan.writeRun v k l pos with
    | .ok (l', _) => l'.length = l.length
    | .error l' => l'.length = l.length := by
  induction k with
  | zero => intro l pos; simp only [Radolan.writeRun]
  | succ k ih =>
    intro l pos
    simp only [Radolan.writeRun]
    split
    · rename_i h; split at h
      · simp at h
      · have := ih (l.set pos v) (pos + 1); rw [h] at this; simpa using this
    · rename_i h; split at h
      · simp at h; rw [← h]
      · have := ih (l.set pos v) (pos + 1); rw [h] at this; simpa using this

/-- an error value as a result -/
def asResult : Option Err → Except Err Unit
  | none => .ok ()
  | some e => .error e

theorem safe_rlLoop {Q : Option (Except Err Unit) → Mem → Prop} {a : Addr} {n : Nat} {level : List F32} (line : Bytes) :
    ∀ (i pos : Nat) (offset : Bool) (l : List F32) (f : Mem), f a = some (.floats l) → l.length = n →
      Q (some (asResult (Radolan.rlLoop level i l pos offset line).2))
        (Function.update f a (some (.floats (Radolan.rlLoop level i l pos offset line).1))) →
      Safe R Q (rlLoop level ⟨a, n⟩ i pos offset line) f := by
  induction line with
  | nil =>
    intro i pos offset l f hf hl hQ
    simp only [Radolan.rlLoop] at hQ
    rw [update_self_eq hf] at hQ
    exact hQ
  | cons value rest ih =>
    intro i pos offset l f hf hl hQ
    unfold Radolan.rlLoop at hQ
    unfold rlLoop
    by_cases h0 : i = 0
    · rw [if_pos h0] at hQ ⊢
      exact ih _ _ _ _ _ hf hl hQ
    · rw [if_neg h0] at hQ ⊢
      cases offset with
      | true =>
        simp only [if_true] at hQ ⊢
        by_cases h16 : value < 16
        · rw [if_pos h16] at hQ ⊢
          simp only at hQ
          rw [update_self_eq hf] at hQ
          exact hQ
        · rw [if_neg h16] at hQ ⊢
          exact ih _ _ _ _ _ hf hl hQ
      | false =>
        simp only [Bool.false_eq_true, if_false] at hQ ⊢
        refine Safe.bind _ _ (safe_writeRun _ _ _ _ hf hl ?_)
        have hlen := writeRun_length (v := rvp6Runlength level (value &&& 0x0F)) (value >>> 4).toNat l pos
        cases hw : Radolan.writeRun (rvp6Runlength level (value &&& 0x0F)) (value >>> 4).toNat l pos with
        | ok q =>
          obtain ⟨l', pos'⟩ := q
          rw [hw] at hQ hlen
          simp only at hQ hlen ⊢
          refine ih _ _ _ l' _ (by rw [Function.update_self]) (by omega) ?_
          rw [Function.update_idem]
          exact hQ
        | error l' =>
          rw [hw] at hQ
          exact hQ

theorem safe_decodeRunlength {Q : Option (Except Err Unit) → Mem → Prop} {a : Addr} {n : Nat} {level l : List F32}
    {line : Bytes} {f : Mem} (hf : f a = some (.floats l)) (hl : l.length = n)
    (hQ : Q (some (asResult (Radolan.decodeRunlength level l line).2))
      (Function.update f a (some (.floats (Radolan.decodeRunlength level l line).1)))) :
    Safe R Q (decodeRunlength level ⟨a, n⟩ line) f := by
  unfold decodeRunlength
  refine Safe.bind _ _ (safe_storeAll _ 0 l f hf hl (by simp) ?_)
  simp only
  rw [overwrite_eq _ _ _ (by simp [hl])]
  simp only [List.take_zero, List.nil_append]
  refine safe_rlLoop _ _ _ _ _ _ (by rw [Function.update_self]) (by simp) ?_
  unfold Radolan.decodeRunlength at hQ
  rw [hl] at hQ
  rw [Function.update_idem]
  exact hQ

theorem safe_decodeSingleByte {Q : Option (Except Err Unit) → Mem → Prop} {a : Addr} {n : Nat} {unit precision : Int}
    {l : List F32} {line : Bytes} {f : Mem} (hf : f a = some (.floats l)) (hl : l.length = n)
    (hQ : match Radolan.decodeSingleByte unit precision l line with
      | some row => Q (some (.ok ())) (Function.update f a (some (.floats row)))
      | none => Q (some (.error .decodeSingleByte)) f) :
    Safe R Q (decodeSingleByte unit precision ⟨a, n⟩ line) f := by
  unfold decodeSingleByte
  unfold Radolan.decodeSingleByte at hQ
  simp only
  by_cases h : n ≠ line.length
  · rw [if_pos h]
    rw [if_pos (by rw [hl]; exact h)] at hQ
    exact hQ
  · rw [if_neg h]
    rw [if_neg (by rw [hl]; exact h)] at hQ
    refine Safe.bind _ _ (safe_storeAll _ 0 l f hf hl (by simp; omega) ?_)
    rw [overwrite_eq _ _ _ (by simp; omega)]
    exact hQ

theorem decodePairs_length {unit precision : Int} : ∀ (line : Bytes), (decodePairs unit precision line).length = line.length / 2
  | [] => rfl
  | [_] => by simp [decodePairs]
  | a :: b :: rest => by
    simp only [decodePairs, List.length_cons, decodePairs_length rest]; omega

theorem safe_decodeLittleEndian {Q : Option (Except Err Unit) → Mem → Prop} {a : Addr} {n : Nat} {unit precision : Int}
    {l : List F32} {line : Bytes} {f : Mem} (hf : f a = some (.floats l)) (hl : l.length = n)
    (hQ : match Radolan.decodeLittleEndian unit precision l line with
      | some row => Q (some (.ok ())) (Function.update f a (some (.floats row)))
      | none => Q (some (.error .decodeLittleEndian)) f) :
    Safe R Q (decodeLittleEndian unit precision ⟨a, n⟩ line) f := by
  unfold decodeLittleEndian
  unfold Radolan.decodeLittleEndian at hQ
  simp only
  by_cases h : line.length % 2 ≠ 0 ∨ n * 2 ≠ line.length
  · rw [if_pos h]
    rw [if_pos (by rw [hl]; exact h)] at hQ
    exact hQ
  · rw [if_neg h]
    rw [if_neg (by rw [hl]; exact h)] at hQ
    have : (decodePairs unit precision line).length = n := by rw [decodePairs_length]; omega
    refine Safe.bind _ _ (safe_storeAll _ 0 l f hf hl (by omega) ?_)
    rw [overwrite_eq _ _ _ (by omega)]
    exact hQ

/-! ### the rows of one composite -/

/-- rows of width `w` at the addresses `addrs`, their headers at `base` -/
structure Lay (f : Mem) (base : Addr) (addrs : List Addr) (w : Nat) (rows : List (List F32)) : Prop where
  len : addrs.length = rows.length
  nodup : addrs.Nodup
  heads : f base = some (.heads (addrs.map fun a => ⟨a, w⟩))
  width : ∀ r ∈ rows, r.length = w
  arr : ∀ (i : Nat) a r, addrs[i]? = some a → rows[i]? = some r → f a = some (.floats r)

theorem Lay.mono {f g : Mem} {base : Addr} {addrs : List Addr} {w : Nat} {rows : List (List F32)}
    (h : Lay f base addrs w rows) (hfg : ∀ a o, f a = some o → g a = some o) : Lay g base addrs w rows :=
  ⟨h.len, h.nodup, hfg _ _ h.heads, h.width, fun i a r h1 h2 => hfg _ _ (h.arr i a r h1 h2)⟩

theorem Lay.set {f : Mem} {base : Addr} {addrs : List Addr} {w : Nat} {rows : List (List F32)}
    (h : Lay f base addrs w rows) {i : Nat} {a : Addr} {r : List F32} (ha : addrs[i]? = some a) (hr : r.length = w) :
    Lay (Function.update f a (some (.floats r))) base addrs w (rows.set i r) := by
  have hi : i < rows.length := by
    rw [← h.len]; exact (List.getElem?_eq_some_iff.mp ha).1
  have hold := h.arr i a _ ha (List.getElem?_eq_getElem hi)
  have hb : base ≠ a := by
    intro e
    have h1 := h.heads
    rw [e, hold] at h1
    simp at h1
  refine ⟨by rw [List.length_set]; exact h.len, h.nodup, by rw [Function.update_of_ne hb]; exact h.heads, ?_, ?_⟩
  · intro x hx
    rcases List.mem_or_eq_of_mem_set hx with h1 | h1
    · exact h.width x h1
    · rw [h1]; exact hr
  · intro j b r' hj hr'
    rw [List.getElem?_set] at hr'
    by_cases hij : i = j
    · subst hij
      rw [if_pos rfl, if_pos hi] at hr'
      rw [ha] at hj
      simp only [Option.some.injEq] at hj hr'
      rw [← hj, ← hr', Function.update_self]
    · rw [if_neg hij] at hr'
      have hne : b ≠ a := by
        rintro rfl
        obtain ⟨l1, e1⟩ := List.getElem?_eq_some_iff.mp ha
        obtain ⟨l2, e2⟩ := List.getElem?_eq_some_iff.mp hj
        exact hij (h.nodup.getElem_inj_iff.mp (e1.trans e2.symm))
      rw [Function.update_of_ne hne]
      exact h.arr j b r' hj hr'

/-- the composite with other plain data -/
def withPlain (c : Composite) (rows : List (List F32)) : Composite := { c with plainData := rows }

/-- `p` does in memory what `m` does to the plain data of the composite -/
def Refines (R : Mem) (base : Addr) (addrs : List Addr) (w : Nat) (c : Composite) (m : M Bytes)
    (p : Prog (Except Err Bytes)) : Prop :=
  ∀ rows f, Lay f base addrs w rows → Safe R (fun r f' => match m (withPlain c rows) with
    | .ok rest c' => r = some (.ok rest) ∧ ∃ rows', c' = withPlain c rows' ∧ Lay f' base addrs w rows'
    | .err e c' => r = some (.error e) ∧ ∃ rows', c' = withPlain c rows' ∧ Lay f' base addrs w rows'
    | .panic => r = none) p f

theorem refines_rowLoop {base : Addr} {addrs : List Addr} {w : Nat} {c : Composite} {body : Nat → Bytes → M Bytes}
    {bodyP : Nat → Bytes → Prog (Except Err Bytes)} (h : ∀ i b, Refines R base addrs w c (body i b) (bodyP i b)) :
    ∀ n i b, Refines R base addrs w c (Radolan.rowLoop body n i b) (rowLoop bodyP n i b) := by
  intro n
  induction n with
  | zero => exact fun i b rows f hf => ⟨rfl, rows, rfl, hf⟩
  | succ n ih =>
    intro i b rows f hf
    refine Safe.bind _ _ (Safe.mono ?_ _ _ (h i b rows f hf))
    intro r f' hr
    have hunf : Radolan.rowLoop body (n + 1) i b = (body i b >>= fun b' => Radolan.rowLoop body n (i + 1) b') := rfl
    cases hm : body i b (withPlain c rows) with
    | panic =>
      rw [hm] at hr
      simp only at hr
      rw [hr, hunf, M.bind_panic hm]
    | err e c' =>
      rw [hm] at hr
      obtain ⟨rfl, rows', rfl, hl⟩ := hr
      rw [hunf, M.bind_err hm]
      exact ⟨rfl, rows', rfl, hl⟩
    | ok b' c' =>
      rw [hm] at hr
      obtain ⟨rfl, rows', rfl, hl⟩ := hr
      rw [hunf, M.bind_ok hm]
      exact ih (i + 1) b' rows' f' hl

/-- access to a row -/
theorem safe_rowAt {Q : Option α → Mem → Prop} {base : Addr} {addrs : List Addr} {w n : Nat} {rows : List (List F32)} {f : Mem}
    {i : Int} {k : Row → Prog α} (hf : Lay f base addrs w rows) (hn : rows.length = n)
    (h1 : ∀ a dst, addrs[i.toNat]? = some a → index? rows i = some dst → f a = some (.floats dst) → dst.length = w →
      Safe R Q (k ⟨a, w⟩) f)
    (h2 : index? rows i = none → Q none f) : Safe R Q (rowAt base ⟨0, n, n⟩ i k) f := by
  unfold rowAt
  unfold index? at h1 h2
  by_cases hi : 0 ≤ i ∧ i < n
  · rw [if_pos hi]
    have hlt : i.toNat < rows.length := by omega
    have hlt' : i.toNat < addrs.length := by rw [hf.len]; exact hlt
    refine ⟨_, Or.inl hf.heads, ?_, ?_⟩
    · intro r hr
      simp only [Nat.zero_add, List.getElem?_map, List.getElem?_eq_getElem hlt', Option.map_some, Option.some.injEq] at hr
      rw [← hr]
      exact h1 _ rows[i.toNat] (List.getElem?_eq_getElem hlt') (by rw [if_pos hi.1, List.getElem?_eq_getElem hlt])
        (hf.arr _ _ _ (List.getElem?_eq_getElem hlt') (List.getElem?_eq_getElem hlt)) (hf.width _ (List.getElem_mem hlt))
    · intro hr
      simp [List.getElem?_map, List.getElem?_eq_getElem hlt'] at hr
  · rw [if_neg hi]
    refine h2 ?_
    split
    · rw [List.getElem?_eq_none]; omega
    · rfl

theorem refines_rowSingleByte {base : Addr} {addrs : List Addr} {w : Nat} {c : Composite} (i : Nat) (b : Bytes) :
    Refines R base addrs w c (Radolan.rowSingleByte (addrs.length - 1) i b)
      (rowSingleByte c base ⟨0, addrs.length, addrs.length⟩ i b) := by
  intro rows f hf
  unfold Radolan.rowSingleByte rowSingleByte
  simp only [M.get_bind]
  have e1 : (withPlain c rows).dx = c.dx := rfl
  have e2 : (withPlain c rows).dataUnit = c.dataUnit := rfl
  have e3 : (withPlain c rows).precision = c.precision := rfl
  have e4 : (withPlain c rows).plainData = rows := rfl
  rw [e1, e2, e3, e4]
  by_cases hm : (!makeOK 1 c.dx) = true
  · simp only [if_pos hm]; rfl
  · simp only [if_neg hm]
    cases hr : readFull c.dx.toNat b with
    | none => exact ⟨rfl, rows, rfl, hf⟩
    | some q =>
      obtain ⟨line, rest⟩ := q
      simp only [M.orErr_some_bind]
      refine safe_rowAt hf hf.len.symm ?_ ?_
      · intro a dst ha hd hfa hw
        simp only [hd, M.orPanic_some_bind]
        refine Safe.bind _ _ (safe_decodeSingleByte hfa hw ?_)
        cases hdec : Radolan.decodeSingleByte c.dataUnit c.precision dst line with
        | none => exact ⟨rfl, rows, rfl, hf⟩
        | some row =>
          have hlen : row.length = w := by
            unfold Radolan.decodeSingleByte at hdec
            split at hdec
            · simp at hdec
            · simp only [Option.some.injEq] at hdec
              rw [← hdec, List.length_map]; omega
          refine ⟨rfl, rows.set (addrs.length - 1 - i) row, rfl, ?_⟩
          have := hf.set (i := addrs.length - 1 - i) (a := a) (by
            rw [show (((addrs.length - 1 : Nat) : Int) - i).toNat = addrs.length - 1 - i by omega] at ha; exact ha) hlen
          exact this
      · intro hd
        rw [hd]; rfl

theorem refines_rowLittleEndian {base : Addr} {addrs : List Addr} {w : Nat} {c : Composite} (i : Nat) (b : Bytes) :
    Refines R base addrs w c (Radolan.rowLittleEndian (addrs.length - 1) i b)
      (rowLittleEndian c base ⟨0, addrs.length, addrs.length⟩ i b) := by
  intro rows f hf
  unfold Radolan.rowLittleEndian rowLittleEndian
  simp only [M.get_bind]
  have e1 : (withPlain c rows).dx = c.dx := rfl
  have e2 : (withPlain c rows).dataUnit = c.dataUnit := rfl
  have e3 : (withPlain c rows).precision = c.precision := rfl
  have e4 : (withPlain c rows).plainData = rows := rfl
  rw [e1, e2, e3, e4]
  by_cases hm : (!makeOK 1 (wrap64 (c.dx * 2))) = true
  · simp only [if_pos hm]; rfl
  · simp only [if_neg hm]
    cases hr : readFull (wrap64 (c.dx * 2)).toNat b with
    | none => exact ⟨rfl, rows, rfl, hf⟩
    | some q =>
      obtain ⟨line, rest⟩ := q
      simp only [M.orErr_some_bind]
      refine safe_rowAt hf hf.len.symm ?_ ?_
      · intro a dst ha hd hfa hw
        simp only [hd, M.orPanic_some_bind]
        refine Safe.bind _ _ (safe_decodeLittleEndian hfa hw ?_)
        cases hdec : Radolan.decodeLittleEndian c.dataUnit c.precision dst line with
        | none => exact ⟨rfl, rows, rfl, hf⟩
        | some row =>
          have hlen : row.length = w := by
            unfold Radolan.decodeLittleEndian at hdec
            split at hdec
            · simp at hdec
            · simp only [Option.some.injEq] at hdec
              rw [← hdec, decodePairs_length]; omega
          refine ⟨rfl, rows.set (addrs.length - 1 - i) row, rfl, ?_⟩
          have := hf.set (i := addrs.length - 1 - i) (a := a) (by
            rw [show (((addrs.length - 1 : Nat) : Int) - i).toNat = addrs.length - 1 - i by omega] at ha; exact ha) hlen
          exact this
      · intro hd
        rw [hd]; rfl

theorem rlLoop_length {level : List F32} (line : Bytes) : ∀ (i : Nat) (l : List F32) (pos : Nat) (offset : Bool),
    (Radolan.rlLoop level i l pos offset line).1.length = l.length := by
  induction line with
  | nil => intro i l pos offset; rfl
  | cons value rest ih =>
    intro i l pos offset
    unfold Radolan.rlLoop
    split
    · exact ih _ _ _ _
    · split
      · split
        · rfl
        · exact ih _ _ _ _
      · have hlen := writeRun_length (v := rvp6Runlength level (value &&& 0x0F)) (value >>> 4).toNat l pos
        cases hw : Radolan.writeRun (rvp6Runlength level (value &&& 0x0F)) (value >>> 4).toNat l pos with
        | ok q => obtain ⟨l', pos'⟩ := q; rw [hw] at hlen; simp only; rw [ih]; exact hlen
        | error l' => rw [hw] at hlen; exact hlen

theorem refines_rowRunlength {base : Addr} {addrs : List Addr} {w : Nat} {c : Composite} (i : Nat) (b : Bytes) :
    Refines R base addrs w c (Radolan.rowRunlength i b) (rowRunlength c base ⟨0, addrs.length, addrs.length⟩ i b) := by
  intro rows f hf
  unfold Radolan.rowRunlength rowRunlength
  simp only [M.get_bind]
  have e1 : (withPlain c rows).level = c.level := rfl
  have e4 : (withPlain c rows).plainData = rows := rfl
  rw [e1, e4]
  cases hr : readDelim 10 b with
  | none => exact ⟨rfl, rows, rfl, hf⟩
  | some q =>
    obtain ⟨line, rest⟩ := q
    simp only [M.orErr_some_bind]
    refine safe_rowAt hf hf.len.symm ?_ ?_
    · intro a dst ha hd hfa hw
      simp only [hd, M.orPanic_some_bind, M.modify_bind]
      refine Safe.bind _ _ (safe_decodeRunlength hfa hw ?_)
      have hlen : (Radolan.decodeRunlength (c.level.getD []) dst line.dropLast).1.length = w := by
        unfold Radolan.decodeRunlength; rw [rlLoop_length, List.length_replicate, hw]
      have hl := hf.set (i := i) (a := a) (by simpa using ha) hlen
      cases he : (Radolan.decodeRunlength (c.level.getD []) dst line.dropLast).2 with
      | none => exact ⟨rfl, _, rfl, hl⟩
      | some e => exact ⟨rfl, _, rfl, hl⟩
    · intro hd
      rw [hd]; rfl

theorem refines_parseWith {base : Addr} {addrs : List Addr} {w : Nat} {c : Composite} (e : Encoding) (b : Bytes)
    (rows : List (List F32)) (f : Mem) (hf : Lay f base addrs w rows) :
    Safe R (fun r f' => match Radolan.parseWith e b (withPlain c rows) with
    | .ok rest c' => r = some (.ok rest) ∧ ∃ rows', c' = withPlain c rows' ∧ Lay f' base addrs w rows'
    | .err e c' => r = some (.error e) ∧ ∃ rows', c' = withPlain c rows' ∧ Lay f' base addrs w rows'
    | .panic => r = none) (parseWith c base ⟨0, addrs.length, addrs.length⟩ b e) f := by
  have hl : (withPlain c rows).plainData.length = addrs.length := hf.len.symm
  cases e with
  | runlength =>
    have := refines_rowLoop (fun i b => refines_rowRunlength (R := R) (base := base) (addrs := addrs) (w := w) (c := c) i b)
      addrs.length 0 b rows f hf
    simp only [Radolan.parseWith, parseRunlength, M.get_bind, hl]
    exact this
  | littleEndian =>
    have := refines_rowLoop (fun i b => refines_rowLittleEndian (R := R) (base := base) (addrs := addrs) (w := w) (c := c) i b)
      addrs.length 0 b rows f hf
    simp only [Radolan.parseWith, parseLittleEndian, M.get_bind, hl]
    exact this
  | singleByte =>
    have := refines_rowLoop (fun i b => refines_rowSingleByte (R := R) (base := base) (addrs := addrs) (w := w) (c := c) i b)
      addrs.length 0 b rows f hf
    simp only [Radolan.parseWith, parseSingleByte, M.get_bind, hl]
    exact this
  | unknown => exact ⟨rfl, rows, rfl, hf⟩

/-- allocation of the rows -/
theorem safe_allocRows {Q : Option Unit → Mem → Prop} {base : Addr} {w : Nat} (todo : Nat) :
    ∀ (addrs : List Addr) (f : Mem), addrs.Nodup →
      f base = some (.heads (addrs.map (fun a => ⟨a, w⟩) ++ List.replicate todo Row.nil)) →
      (∀ a ∈ addrs, f a = some (.floats (List.replicate w Fl.zero))) →
      (∀ f' addrs', addrs'.length = addrs.length + todo →
        Lay f' base addrs' w (List.replicate (addrs.length + todo) (List.replicate w Fl.zero)) → Q (some ()) f') →
      Safe R Q (allocRows w base todo addrs.length) f := by
  induction todo with
  | zero =>
    intro addrs f hnd hb ha hQ
    refine hQ f addrs rfl ⟨by simp, hnd, by simpa using hb, ?_, ?_⟩
    · intro r hr; rw [List.eq_of_mem_replicate hr]; simp
    · intro i a r h1 h2
      rw [List.getElem?_replicate] at h2
      split at h2
      · simp only [Option.some.injEq] at h2
        rw [← h2]; exact ha a (List.mem_of_getElem? h1)
      · simp at h2
  | succ todo ih =>
    intro addrs f hnd hb ha hQ a hfa _
    have hne : base ≠ a := by intro e; rw [e, hfa] at hb; simp at hb
    refine ⟨_, by rw [Function.update_of_ne hne]; exact hb, fun _ => ?_, fun h => absurd (by simp) h⟩
    have hna : a ∉ addrs := by intro hm; rw [ha a hm] at hfa; simp at hfa
    have := ih (addrs ++ [a]) (Function.update (Function.update f a (some (.floats (List.replicate w Fl.zero)))) base
        (some (.heads ((addrs.map (fun a => Row.mk a w) ++ List.replicate (todo + 1) Row.nil).set addrs.length (Row.mk a w)))))
      (by rw [List.nodup_append]; exact ⟨hnd, by simp, by simp; intro x hx e; rw [e] at hx; exact hna hx⟩)
      (by
        rw [Function.update_self]
        rw [List.set_append_right _ _ (by simp)]
        simp [List.replicate_succ])
      (by
        intro x hx
        have hxb : x ≠ base := by
          rintro rfl
          rcases List.mem_append.mp hx with h | h
          · rw [ha _ h] at hb; simp at hb
          · simp at h; exact hne h
        rw [Function.update_of_ne hxb]
        rcases List.mem_append.mp hx with h | h
        · rw [Function.update_of_ne (by intro e; rw [e] at h; exact hna h)]; exact ha x h
        · simp at h; rw [h, Function.update_self])
      (by
        intro f' addrs' hl hlay
        simp only [List.length_append, List.length_singleton] at hl hlay
        rw [show addrs.length + 1 + todo = addrs.length + (todo + 1) by omega] at hl hlay
        exact hQ f' addrs' hl hlay)
    rw [List.length_append, List.length_singleton] at this
    exact this

end Conc
end Radolan
