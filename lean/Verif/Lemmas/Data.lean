/- Lemmas about the data parser: equal to a pure function of the composite header and the bytes. -/
import Verif.Lemmas.Header

namespace Radolan
open Go

def GoodRes (x : PRes α) (r : Option (α × Composite)) : Prop :=
  match r with
  | some (a, c') => x = .ok a c' ∧ Blank c'
  | none => ∃ e c', x = .err e c' ∧ Blank c' ∧ e ≠ .unknownUnit

/-- Like `Stage` for a method returning a value. -/
def StageV (m : M α) (c : Composite) (r : Option (α × Composite)) : Prop := GoodRes (m c) r

/-! ### pure versions -/

/-- read `n` rows one after another -/
def rowsFrom (f : Bytes → Option (List F32 × Bytes)) : Nat → Bytes → Option (List (List F32) × Bytes)
  | 0, b => some ([], b)
  | n + 1, b =>
    match f b with
    | none => none
    | some (r, b') =>
      match rowsFrom f n b' with
      | none => none
      | some (rs, b'') => some (r :: rs, b'')

def rowSB (unit prec : Int) (w : Nat) (b : Bytes) : Option (List F32 × Bytes) :=
  (readFull w b).map fun q => (q.1.map (rvp6SingleByte unit prec), q.2)

def rowLE (unit prec : Int) (w : Nat) (b : Bytes) : Option (List F32 × Bytes) :=
  (readFull (w * 2) b).map fun q => (decodePairs unit prec q.1, q.2)

def rowRL (level : List F32) (w : Nat) (b : Bytes) : Option (List F32 × Bytes) :=
  match readDelim 10 b with
  | none => none
  | some (line, rest) =>
    match decodeRunlength level (List.replicate w Fl.zero) line.dropLast with
    | (row, none) => some (row, rest)
    | (_, some _) => none

/-- the plain data encoded in `b` -/
def dataOf (c : Composite) (b : Bytes) : Option (List (List F32) × Bytes) :=
  match identifyEncoding c with
  | .runlength => rowsFrom (rowRL (c.level.getD []) c.px.toNat) c.py.toNat b
  | .littleEndian =>
    (rowsFrom (rowLE c.dataUnit c.precision c.px.toNat) c.py.toNat b).map fun q => (q.1.reverse, q.2)
  | .singleByte =>
    (rowsFrom (rowSB c.dataUnit c.precision c.px.toNat) c.py.toNat b).map fun q => (q.1.reverse, q.2)
  | .unknown => none

theorem rowsFrom_length {f : Bytes → Option (List F32 × Bytes)} {n : Nat} {b b' : Bytes}
    {rs : List (List F32)} (h : rowsFrom f n b = some (rs, b')) : rs.length = n := by
  induction n generalizing b rs with
  | zero => simp [rowsFrom] at h; simp [h.1]
  | succ n ih =>
    unfold rowsFrom at h
    split at h
    · simp at h
    · split at h
      · simp at h
      · rename_i rs' b'' hrs
        simp only [Option.some.injEq, Prod.mk.injEq] at h
        obtain ⟨rfl, rfl⟩ := h
        simp [ih hrs]

theorem rowsFrom_all {f : Bytes → Option (List F32 × Bytes)} {P : List F32 → Prop}
    (hP : ∀ b r b', f b = some (r, b') → P r) {n : Nat} {b b' : Bytes}
    {rs : List (List F32)} (h : rowsFrom f n b = some (rs, b')) : ∀ r ∈ rs, P r := by
  induction n generalizing b rs with
  | zero => simp [rowsFrom] at h; simp [h.1]
  | succ n ih =>
    unfold rowsFrom at h
    split at h
    · simp at h
    · rename_i r b1 hr
      split at h
      · simp at h
      · rename_i rs' b'' hrs
        simp only [Option.some.injEq, Prod.mk.injEq] at h
        obtain ⟨rfl, rfl⟩ := h
        intro x hx
        rcases List.mem_cons.mp hx with rfl | hx
        · exact hP _ _ _ hr
        · exact ih hrs x hx

theorem decodePairs_length (unit prec : Int) (n : Nat) (l : Bytes) (h : l.length = n * 2) :
    (decodePairs unit prec l).length = n := by
  induction n generalizing l with
  | zero =>
    have : l = [] := List.eq_nil_of_length_eq_zero (by omega)
    subst this; rfl
  | succ n ih =>
    match l, h with
    | a :: b :: t, h =>
      simp only [decodePairs, List.length_cons]
      rw [ih t (by simp at h; omega)]
    | [a], h => simp at h; omega

theorem writeRun_length {v : F32} {n : Nat} {dst : List F32} {pos : Nat} :
    match writeRun v n dst pos with
    | .ok (d, _) => d.length = dst.length
    | .error d => d.length = dst.length := by
  induction n generalizing dst pos with
  | zero => simp [writeRun]
  | succ n ih =>
    unfold writeRun
    by_cases h : dst.length ≤ pos
    · simp [h]
    · rw [if_neg h]
      have := ih (dst := dst.set pos v) (pos := pos + 1)
      revert this
      cases writeRun v n (dst.set pos v) (pos + 1) <;> simp

theorem rlLoop_length (level : List F32) (i : Nat) (dst : List F32) (pos : Nat) (off : Bool) (l : Bytes) :
    (rlLoop level i dst pos off l).1.length = dst.length := by
  induction l generalizing i dst pos off with
  | nil => simp [rlLoop]
  | cons b rest ih =>
    unfold rlLoop
    split
    · exact ih _ _ _ _
    · split
      · split
        · rfl
        · exact ih _ _ _ _
      · have := writeRun_length (v := rvp6Runlength level (b &&& 0x0F)) (n := (b >>> 4).toNat)
          (dst := dst) (pos := pos)
        cases h : writeRun (rvp6Runlength level (b &&& 0x0F)) (b >>> 4).toNat dst pos with
        | ok q =>
          obtain ⟨d, p⟩ := q
          rw [h] at this
          simp only at this ⊢
          rw [ih]; exact this
        | error d => rw [h] at this; exact this

theorem decodeRunlength_length (level dst : List F32) (l : Bytes) :
    (decodeRunlength level dst l).1.length = dst.length := by
  unfold decodeRunlength; rw [rlLoop_length]; simp

theorem decodeRunlength_dst (level dst dst' : List F32) (l : Bytes) (h : dst.length = dst'.length) :
    decodeRunlength level dst l = decodeRunlength level dst' l := by
  unfold decodeRunlength; rw [h]

/-! ### the row loops -/

theorem Blank.withPlain {c : Composite} (hb : Blank c) (p : List (List F32)) :
    Blank { c with plainData := p } :=
  ⟨hb.dz, hb.dataZ, hb.data, hb.proj, hb.unit⟩

/-- rows written bottom-up -/
theorem rowLoop_flip (body : Nat → Nat → Bytes → M Bytes) (f : Bytes → Option (List F32 × Bytes))
    (P : Composite → Prop) (w : Nat)
    (hP : ∀ c p, P c → P { c with plainData := p })
    (hbody : ∀ last i b c, P c → Blank c → i ≤ last → c.plainData.length = last + 1 →
      (∀ r ∈ c.plainData, r.length = w) →
      StageV (body last i b) c
        ((f b).map fun q => (q.2, { c with plainData := c.plainData.set (last - i) q.1 })))
    (hw : ∀ b r b', f b = some (r, b') → r.length = w)
    (n i : Nat) (last : Nat) (b : Bytes) (c : Composite) (front done : List (List F32))
    (hPc : P c) (hb : Blank c) (hl : i + n = last + 1) (hf : front.length = n) (hd : done.length = i)
    (hfw : ∀ r ∈ front, r.length = w) (hdw : ∀ r ∈ done, r.length = w)
    (hc : c.plainData = front ++ done) :
    StageV (rowLoop (body last) n i b) c
      ((rowsFrom f n b).map fun q => (q.2, { c with plainData := q.1.reverse ++ done })) := by
  induction n generalizing i b c front done with
  | zero =>
    have : front = [] := List.eq_nil_of_length_eq_zero hf
    subst this
    simp only [List.nil_append] at hc
    refine ⟨?_, hb.withPlain _⟩
    show PRes.ok b c = PRes.ok b { c with plainData := [].reverse ++ done }
    rw [List.reverse_nil, List.nil_append, ← hc]
  | succ n ih =>
    unfold rowLoop rowsFrom
    have hlen : c.plainData.length = last + 1 := by rw [hc]; simp; omega
    have h1 := hbody last i b c hPc hb (by omega) hlen (by
      intro r hr; rw [hc] at hr
      rcases List.mem_append.mp hr with h | h
      · exact hfw r h
      · exact hdw r h)
    cases hfb : f b with
    | none =>
      rw [hfb] at h1
      obtain ⟨e, c', he, hb', hu⟩ := h1
      exact ⟨e, c', by rw [M.bind_err he], hb', hu⟩
    | some q =>
      obtain ⟨r, b'⟩ := q
      rw [hfb] at h1
      obtain ⟨he, hb'⟩ := h1
      simp only at he hb' ⊢
      have hset : c.plainData.set (last - i) r = front.take n ++ (r :: done) := by
        rw [hc]
        have : last - i = n := by omega
        rw [this, List.set_append_left (h := by omega)]
        have hft : front = front.take n ++ [front[n]] := by
          rw [← List.take_succ_eq_append_getElem (by omega)]
          rw [List.take_of_length_le (by omega)]
        conv_lhs => rw [hft]
        rw [List.set_append_right (h := by simp)]
        simp [hf]
      have hrw := hw _ _ _ hfb
      have h2 := ih (i + 1) b' { c with plainData := c.plainData.set (last - i) r } (front.take n) (r :: done)
        (hP _ _ hPc) hb' (by omega) (by simp; omega) (by simp [hd])
        (fun x hx => hfw x (List.mem_of_mem_take hx))
        (by intro x hx; rcases List.mem_cons.mp hx with rfl | hx; exact hrw; exact hdw x hx) hset
      cases hr2 : rowsFrom f n b' with
      | none =>
        rw [hr2] at h2
        obtain ⟨e, c', he2, hb2, hu⟩ := h2
        exact ⟨e, c', by rw [M.bind_ok he]; exact he2, hb2, hu⟩
      | some q2 =>
        obtain ⟨rs, b2⟩ := q2
        rw [hr2] at h2
        obtain ⟨he2, hb2⟩ := h2
        refine ⟨?_, hb.withPlain _⟩
        rw [M.bind_ok he, he2]
        simp

/-- rows written top-down -/
theorem rowLoop_straight (body : Nat → Bytes → M Bytes) (f : Bytes → Option (List F32 × Bytes))
    (P : Composite → Prop) (w : Nat)
    (hP : ∀ c p, P c → P { c with plainData := p })
    (hbody : ∀ i b c, P c → Blank c → i < c.plainData.length →
      (∀ r ∈ c.plainData, r.length = w) →
      StageV (body i b) c
        ((f b).map fun q => (q.2, { c with plainData := c.plainData.set i q.1 })))
    (hw : ∀ b r b', f b = some (r, b') → r.length = w)
    (n i : Nat) (b : Bytes) (c : Composite) (back done : List (List F32))
    (hPc : P c) (hb : Blank c) (hf : back.length = n) (hd : done.length = i)
    (hfw : ∀ r ∈ back, r.length = w) (hdw : ∀ r ∈ done, r.length = w)
    (hc : c.plainData = done ++ back) :
    StageV (rowLoop body n i b) c
      ((rowsFrom f n b).map fun q => (q.2, { c with plainData := done ++ q.1 })) := by
  induction n generalizing i b c back done with
  | zero =>
    have : back = [] := List.eq_nil_of_length_eq_zero hf
    subst this
    refine ⟨?_, hb.withPlain _⟩
    show PRes.ok b c = PRes.ok b { c with plainData := done ++ [] }
    rw [← hc]
  | succ n ih =>
    unfold rowLoop rowsFrom
    have hlen : i < c.plainData.length := by rw [hc]; simp; omega
    have h1 := hbody i b c hPc hb hlen (by
      intro r hr; rw [hc] at hr
      rcases List.mem_append.mp hr with h | h
      · exact hdw r h
      · exact hfw r h)
    cases hfb : f b with
    | none =>
      rw [hfb] at h1
      obtain ⟨e, c', he, hb', hu⟩ := h1
      exact ⟨e, c', by rw [M.bind_err he], hb', hu⟩
    | some q =>
      obtain ⟨r, b'⟩ := q
      rw [hfb] at h1
      obtain ⟨he, hb'⟩ := h1
      simp only at he hb' ⊢
      match back, hf, hfw, hc with
      | x :: back', hf, hfw, hc =>
      have hset : c.plainData.set i r = (done ++ [r]) ++ back' := by
        rw [hc, List.set_append_right (h := by omega)]
        simp [hd]
      have hrw := hw _ _ _ hfb
      have h2 := ih (i + 1) b' { c with plainData := c.plainData.set i r } back' (done ++ [r])
        (hP _ _ hPc) hb' (by simpa using hf) (by simp [hd])
        (fun x hx => hfw x (by simp [hx]))
        (by intro x hx; rcases List.mem_append.mp hx with hx | hx
            · exact hdw x hx
            · simp at hx; rw [hx]; exact hrw) hset
      cases hr2 : rowsFrom f n b' with
      | none =>
        rw [hr2] at h2
        obtain ⟨e, c', he2, hb2, hu⟩ := h2
        exact ⟨e, c', by rw [M.bind_ok he]; exact he2, hb2, hu⟩
      | some q2 =>
        obtain ⟨rs, b2⟩ := q2
        rw [hr2] at h2
        obtain ⟨he2, hb2⟩ := h2
        refine ⟨?_, hb.withPlain _⟩
        rw [M.bind_ok he, he2]
        simp

/-! ### row bodies -/

theorem rowSB_width {unit prec : Int} {w : Nat} : ∀ b r b', rowSB unit prec w b = some (r, b') → r.length = w := by
  intro b r b' h
  unfold rowSB at h
  simp only [Option.map_eq_some_iff, Prod.mk.injEq] at h
  obtain ⟨⟨l, rest⟩, hr, rfl, _⟩ := h
  simp [(readFull_some.mp hr).2]

theorem rowLE_width {unit prec : Int} {w : Nat} : ∀ b r b', rowLE unit prec w b = some (r, b') → r.length = w := by
  intro b r b' h
  unfold rowLE at h
  simp only [Option.map_eq_some_iff, Prod.mk.injEq] at h
  obtain ⟨⟨l, rest⟩, hr, rfl, _⟩ := h
  exact decodePairs_length _ _ _ _ (readFull_some.mp hr).2

theorem rowRL_width {level : List F32} {w : Nat} : ∀ b r b', rowRL level w b = some (r, b') → r.length = w := by
  intro b r b' h
  unfold rowRL at h
  split at h
  · simp at h
  · rename_i line rest _
    have hl := decodeRunlength_length level (List.replicate w Fl.zero) line.dropLast
    split at h
    · rename_i row hrow
      simp only [Option.some.injEq, Prod.mk.injEq] at h
      rw [hrow] at hl
      rw [← h.1]; simpa using hl
    · simp at h

theorem index?_last {l : List α} {last i : Nat} (h : i ≤ last) (hl : l.length = last + 1) :
    index? l ((last : Int) - i) = some (l[last - i]'(by omega)) := by
  unfold index?
  rw [if_pos (by omega)]
  have : ((last : Int) - i).toNat = last - i := by omega
  rw [this, List.getElem?_eq_getElem]

theorem rowSingleByte_eq (unit prec dx : Int) (h1 : makeOK 1 dx = true) (last i : Nat) (b : Bytes) (c : Composite)
    (hc : c.dx = dx ∧ c.dataUnit = unit ∧ c.precision = prec) (hb : Blank c) (hi : i ≤ last)
    (hl : c.plainData.length = last + 1) (hw : ∀ r ∈ c.plainData, r.length = dx.toNat) :
    StageV (rowSingleByte last i b) c
      ((rowSB unit prec dx.toNat b).map fun q => (q.2, { c with plainData := c.plainData.set (last - i) q.1 })) := by
  obtain ⟨rfl, rfl, rfl⟩ := hc
  unfold StageV rowSingleByte rowSB
  simp only [M.get_bind, h1, Bool.not_true, Bool.false_eq_true, if_false]
  cases hr : readFull c.dx.toNat b with
  | none => exact ⟨_, _, rfl, hb, by decide⟩
  | some q =>
    obtain ⟨line, rest⟩ := q
    simp only [M.orErr_some_bind, index?_last hi hl, M.orPanic_some_bind]
    have hll := (readFull_some.mp hr).2
    have hdw := hw _ (List.getElem_mem (l := c.plainData) (n := last - i) (by omega))
    have : decodeSingleByte c.dataUnit c.precision (c.plainData[last - i]'(by omega)) line
        = some (line.map (rvp6SingleByte c.dataUnit c.precision)) := by
      unfold decodeSingleByte
      rw [if_neg (by omega)]
    rw [this]
    exact ⟨rfl, hb.withPlain _⟩

theorem rowLittleEndian_eq (unit prec dx : Int) (h0 : 0 ≤ dx) (h1 : dx * 2 ≤ 2 ^ 48) (last i : Nat) (b : Bytes)
    (c : Composite)
    (hc : c.dx = dx ∧ c.dataUnit = unit ∧ c.precision = prec) (hb : Blank c) (hi : i ≤ last)
    (hl : c.plainData.length = last + 1) (hw : ∀ r ∈ c.plainData, r.length = dx.toNat) :
    StageV (rowLittleEndian last i b) c
      ((rowLE unit prec dx.toNat b).map fun q => (q.2, { c with plainData := c.plainData.set (last - i) q.1 })) := by
  obtain ⟨rfl, rfl, rfl⟩ := hc
  unfold StageV rowLittleEndian rowLE
  have hwr : wrap64 (c.dx * 2) = c.dx * 2 := wrap64_id (by omega) (by omega)
  have hmk : makeOK 1 (c.dx * 2) = true := makeOK_iff.mpr ⟨by omega, by omega⟩
  have htn : (c.dx * 2).toNat = c.dx.toNat * 2 := by omega
  simp only [M.get_bind, hwr, hmk, Bool.not_true, Bool.false_eq_true, if_false, htn]
  cases hr : readFull (c.dx.toNat * 2) b with
  | none => exact ⟨_, _, rfl, hb, by decide⟩
  | some q =>
    obtain ⟨line, rest⟩ := q
    simp only [M.orErr_some_bind, index?_last hi hl, M.orPanic_some_bind]
    have hll := (readFull_some.mp hr).2
    have hdw := hw _ (List.getElem_mem (l := c.plainData) (n := last - i) (by omega))
    have : decodeLittleEndian c.dataUnit c.precision (c.plainData[last - i]'(by omega)) line
        = some (decodePairs c.dataUnit c.precision line) := by
      unfold decodeLittleEndian
      rw [if_neg (by omega)]
    rw [this]
    exact ⟨rfl, hb.withPlain _⟩

theorem rlLoop_err (level : List F32) (i : Nat) (dst : List F32) (pos : Nat) (off : Bool) (l : Bytes) :
    (rlLoop level i dst pos off l).2 ≠ some .unknownUnit := by
  induction l generalizing i dst pos off with
  | nil => simp [rlLoop]
  | cons b rest ih =>
    unfold rlLoop
    split
    · exact ih _ _ _ _
    · split
      · split
        · simp
        · exact ih _ _ _ _
      · split
        · exact ih _ _ _ _
        · simp

theorem rowRunlength_eq (level : List F32) (w : Nat) (i : Nat) (b : Bytes)
    (c : Composite)
    (hc : c.level.getD [] = level) (hb : Blank c)
    (hi : i < c.plainData.length) (hw : ∀ r ∈ c.plainData, r.length = w) :
    StageV (rowRunlength i b) c
      ((rowRL level w b).map fun q => (q.2, { c with plainData := c.plainData.set i q.1 })) := by
  subst hc
  unfold StageV rowRunlength rowRL
  simp only [M.get_bind]
  cases hr : readDelim 10 b with
  | none => exact ⟨_, _, rfl, hb, by decide⟩
  | some q =>
    obtain ⟨line, rest⟩ := q
    simp only [M.orErr_some_bind, index?_nat, List.getElem?_eq_getElem hi, M.orPanic_some_bind]
    have hdw := hw _ (List.getElem_mem hi)
    rw [decodeRunlength_dst (c.level.getD []) c.plainData[i] (List.replicate w Fl.zero) _ (by simp [hdw])]
    cases hd : decodeRunlength (c.level.getD []) (List.replicate w Fl.zero) line.dropLast with
    | mk row eo =>
      cases eo with
      | none => exact ⟨rfl, hb.withPlain _⟩
      | some e =>
        refine ⟨e, _, rfl, hb.withPlain _, ?_⟩
        have := rlLoop_err (c.level.getD []) 0 (List.replicate (List.replicate w (Fl.zero : F32)).length .nan) 0 true line.dropLast
        rw [← decodeRunlength, hd] at this
        intro h; apply this; rw [h]

/-! ### parseData -/

/-- the dimensions can be allocated and the data width is the plain width -/
structure DimsOK (c : Composite) : Prop where
  px : 0 < c.px ∧ c.px * 4 ≤ 2 ^ 48
  py : 0 < c.py ∧ c.py * 24 ≤ 2 ^ 48
  dx : c.dx = c.px

theorem parseData_eq (c : Composite) (b : Bytes) (hb : Blank c) (hd : DimsOK c) :
    StageV (parseData b) c ((dataOf c b).map fun q => (q.2, { c with plainData := q.1 })) := by
  obtain ⟨⟨hx0, hx⟩, ⟨hy0, hy⟩, hdx⟩ := hd
  unfold StageV parseData
  have m1 : makeOK 24 c.py = true := makeOK_iff.mpr ⟨by omega, hy⟩
  have m2 : makeOK 4 c.px = true := makeOK_iff.mpr ⟨by omega, hx⟩
  simp only [M.get_bind]
  rw [if_neg (by omega), m1, m2]
  simp only [Bool.not_true, Bool.false_eq_true, if_false, M.modify_bind, M.get_bind]
  generalize hc' : ({ c with
      plainData := List.replicate c.py.toNat (List.replicate c.px.toNat Fl.zero) } : Composite) = c'
  have hid : identifyEncoding c' = identifyEncoding c := by subst hc'; rfl
  have hb' : Blank c' := by subst hc'; exact hb.withPlain _
  have hpl : c'.plainData = List.replicate c.py.toNat (List.replicate c.px.toNat Fl.zero) := by subst hc'; rfl
  have hll : c'.plainData.length = c.py.toNat := by rw [hpl]; simp
  have hww : ∀ r ∈ c'.plainData, r.length = c.px.toNat := by
    intro r hr; rw [hpl] at hr; rw [List.eq_of_mem_replicate hr]; simp
  have hcc : ∀ p, ({ c' with plainData := p } : Composite) = { c with plainData := p } := by
    intro p; subst hc'; rfl
  rw [hid]
  unfold dataOf parseWith
  cases hen : identifyEncoding c with
  | unknown => exact ⟨_, _, rfl, hb', by decide⟩
  | runlength =>
    simp only
    have := rowLoop_straight rowRunlength (rowRL (c.level.getD []) c.px.toNat)
      (fun x => x.level.getD [] = c.level.getD []) c.px.toNat (fun _ _ h => h)
      (fun i b x hx hbx hi hw => rowRunlength_eq _ _ i b x hx hbx hi hw) rowRL_width
      c.py.toNat 0 b c' c'.plainData [] (by subst hc'; rfl) hb' hll rfl hww (by simp) (by simp)
    unfold parseRunlength
    simp only [M.get_bind]
    rw [hll]
    unfold StageV at this
    simpa [hcc] using this
  | littleEndian =>
    simp only
    have := rowLoop_flip rowLittleEndian (rowLE c.dataUnit c.precision c.px.toNat)
      (fun x => x.dx = c.dx ∧ x.dataUnit = c.dataUnit ∧ x.precision = c.precision) c.px.toNat (fun _ _ h => h)
      (fun last i b x hx hbx hi hl hw => by
        have := rowLittleEndian_eq c.dataUnit c.precision c.dx (by omega) (by omega) last i b x hx hbx hi hl
          (by rw [hdx]; exact hw)
        rwa [hdx] at this) rowLE_width
      c.py.toNat 0 (c.py.toNat - 1) b c' c'.plainData [] (by subst hc'; exact ⟨rfl, rfl, rfl⟩) hb' (by omega)
      hll rfl hww (by simp) (by simp)
    unfold parseLittleEndian
    simp only [M.get_bind]
    rw [hll]
    unfold StageV at this
    simpa [hcc, Option.map_map, Function.comp_def] using this
  | singleByte =>
    simp only
    have := rowLoop_flip rowSingleByte (rowSB c.dataUnit c.precision c.px.toNat)
      (fun x => x.dx = c.dx ∧ x.dataUnit = c.dataUnit ∧ x.precision = c.precision) c.px.toNat (fun _ _ h => h)
      (fun last i b x hx hbx hi hl hw => by
        have := rowSingleByte_eq c.dataUnit c.precision c.dx (makeOK_iff.mpr ⟨by omega, by omega⟩) last i b x hx hbx hi hl
          (by rw [hdx]; exact hw)
        rwa [hdx] at this) rowSB_width
      c.py.toNat 0 (c.py.toNat - 1) b c' c'.plainData [] (by subst hc'; exact ⟨rfl, rfl, rfl⟩) hb' (by omega)
      hll rfl hww (by simp) (by simp)
    unfold parseSingleByte
    simp only [M.get_bind]
    rw [hll]
    unfold StageV at this
    simpa [hcc, Option.map_map, Function.comp_def] using this

/-- parseData when the dimensions are zero -/
theorem parseData_zero (c : Composite) (b : Bytes) (h : c.px = 0 ∨ c.py = 0) :
    parseData b c = .err .headerRequired c := by
  unfold parseData
  simp only [M.get_bind]
  rw [if_pos h]; rfl

/-- parseData when a dimension is negative or too large -/
theorem parseData_panic (c : Composite) (b : Bytes) (h : ¬ (c.px = 0 ∨ c.py = 0))
    (h2 : ¬ (0 < c.px ∧ c.px * 4 ≤ 2 ^ 48 ∧ 0 < c.py ∧ c.py * 24 ≤ 2 ^ 48)) :
    parseData b c = .panic := by
  unfold parseData
  simp only [M.get_bind]
  rw [if_neg h]
  by_cases m1 : makeOK 24 c.py = true
  · rw [m1]
    simp only [Bool.not_true, Bool.false_eq_true, if_false]
    have : makeOK 4 c.px = false := by
      rw [← Bool.not_eq_true, makeOK_iff]
      rw [makeOK_iff] at m1
      omega
    rw [this]; rfl
  · rw [Bool.not_eq_true] at m1
    rw [m1]; rfl

theorem dataOf_shape {c : Composite} {b b' : Bytes} {rows : List (List F32)}
    (h : dataOf c b = some (rows, b')) :
    rows.length = c.py.toNat ∧ ∀ r ∈ rows, r.length = c.px.toNat := by
  unfold dataOf at h
  split at h
  · exact ⟨rowsFrom_length h, rowsFrom_all rowRL_width h⟩
  · simp only [Option.map_eq_some_iff, Prod.mk.injEq] at h
    obtain ⟨⟨rs, b2⟩, h, rfl, _⟩ := h
    refine ⟨by simp [rowsFrom_length h], ?_⟩
    intro r hr; exact rowsFrom_all rowLE_width h r (by simpa using hr)
  · simp only [Option.map_eq_some_iff, Prod.mk.injEq] at h
    obtain ⟨⟨rs, b2⟩, h, rfl, _⟩ := h
    refine ⟨by simp [rowsFrom_length h], ?_⟩
    intro r hr; exact rowsFrom_all rowSB_width h r (by simpa using hr)
  · simp at h

/-! ### arrangeData -/

/-- the layers of the plain data -/
def layersOf (py dy : Nat) (plain : List (List F32)) : List (List (List F32)) :=
  if py % dy = 0 then (List.range (py / dy)).map fun i => (plain.drop (dy * i)).take dy
  else [plain.drop (py - dy)]

theorem layerLoop_eq (plain : List (List F32)) (dy n i : Nat) (hlen : dy * (i + n) ≤ plain.length)
    (hb : plain.length < 2 ^ 63) :
    layerLoop plain dy n i
      = some ((List.range' i n).map fun i => (plain.drop (dy * i)).take dy) := by
  induction n generalizing i with
  | zero => simp [layerLoop]
  | succ n ih =>
    unfold layerLoop
    have e1 : dy * (i + 1) ≤ plain.length := le_trans (Nat.mul_le_mul_left _ (by omega)) hlen
    have e0 : dy * i ≤ dy * (i + 1) := Nat.mul_le_mul_left _ (by omega)
    have w1 : wrap64 ((dy : Int) * i) = ((dy * i : Nat) : Int) := by
      rw [← Int.natCast_mul]
      generalize dy * i = x at *
      exact wrap64_id (by omega) (by omega)
    have w2 : wrap64 ((dy : Int) * (i + 1)) = ((dy * (i + 1) : Nat) : Int) := by
      rw [← Int.natCast_succ, ← Int.natCast_mul]
      generalize hx : dy * (i + 1) = x at *
      exact wrap64_id (by omega) (by omega)
    rw [ih (i + 1) (by rw [show i + 1 + n = i + (n + 1) by omega]; exact hlen), w1, w2]
    unfold sliceI?
    have hcond : (0 : Int) ≤ ((dy * i : Nat) : Int) ∧ ((dy * i : Nat) : Int) ≤ ((dy * (i + 1) : Nat) : Int) := by
      generalize dy * i = x at *
      generalize dy * (i + 1) = y at *
      omega
    rw [if_pos hcond]
    simp only [Int.toNat_natCast]
    rw [slice?_some e0 e1]
    have : (plain.take (dy * (i + 1))).drop (dy * i) = (plain.drop (dy * i)).take dy := by
      rw [List.drop_take, Nat.mul_add, Nat.mul_one, Nat.add_sub_cancel_left]
    simp [this, List.range'_succ]

theorem arrangeData_eq (c : Composite) (h1 : 0 < c.dy) (h2 : c.dy ≤ c.py) (h3 : c.py * 24 ≤ 2 ^ 48)
    (hl : c.plainData.length = c.py.toNat) :
    arrangeData c = .ok () { c with
      dataZ := layersOf c.py.toNat c.dy.toNat c.plainData,
      dz := (layersOf c.py.toNat c.dy.toNat c.plainData).length,
      data := ((layersOf c.py.toNat c.dy.toNat c.plainData)[0]?).getD [] } ∧
    1 ≤ (layersOf c.py.toNat c.dy.toNat c.plainData).length := by
  obtain ⟨dy, hdy⟩ : ∃ n : Nat, c.dy = n := ⟨c.dy.toNat, by omega⟩
  obtain ⟨py, hpy⟩ : ∃ n : Nat, c.py = n := ⟨c.py.toNat, by omega⟩
  rw [hpy] at hl h3 h2; rw [hdy] at h1 h2
  unfold arrangeData layersOf
  simp only [M.get_bind]
  rw [hdy, hpy]
  simp only [Int.toNat_natCast] at hl ⊢
  rw [if_neg (by omega)]
  have htm : (py : Int).tmod (dy : Int) = ((py % dy : Nat) : Int) := by
    rw [Int.tmod_eq_emod_of_nonneg (by omega)]; simp
  have htd : (py : Int).tdiv (dy : Int) = ((py / dy : Nat) : Int) := by
    rw [Int.tdiv_eq_ediv_of_nonneg (by omega)]; simp
  rw [htm, htd]
  by_cases hm : py % dy = 0
  · rw [if_pos (by exact_mod_cast hm), if_pos hm]
    have hdv : py / dy ≤ py := Nat.div_le_self _ _
    have hmk : makeOK 24 ((py / dy : Nat) : Int) = true := makeOK_iff.mpr ⟨by positivity, by omega⟩
    have hpos : 1 ≤ py / dy := (Nat.one_le_div_iff (by omega)).mpr (by omega)
    rw [hmk]
    simp only [Bool.not_true, Bool.false_eq_true, if_false, Int.toNat_natCast]
    rw [layerLoop_eq _ _ _ _ (by rw [Nat.zero_add, hl]; exact Nat.mul_div_le _ _) (by omega)]
    rw [← List.range_eq_range']
    refine ⟨?_, by rw [List.length_map, List.length_range]; exact hpos⟩
    rw [M.bind_apply]
    simp only [M.orPanic_some]
    have h0 : index? ((List.range (py / dy)).map fun i => (c.plainData.drop (dy * i)).take dy) 0
        = some (((List.range (py / dy)).map fun i => (c.plainData.drop (dy * i)).take dy)[0]'(by rw [List.length_map, List.length_range]; exact hpos)) := by
      have := index?_nat ((List.range (py / dy)).map fun i => (c.plainData.drop (dy * i)).take dy) 0
      rw [List.getElem?_eq_getElem (by rw [List.length_map, List.length_range]; exact hpos)] at this
      exact this
    rw [h0]
    simp only [M.orPanic_some_bind, M.modify_apply]
    rw [List.getElem?_eq_getElem (by rw [List.length_map, List.length_range]; exact hpos)]
    rw [← hpy, ← hdy]
    rfl
  · rw [if_neg (by exact_mod_cast hm), if_neg hm]
    have hw : wrap64 ((py : Int) - dy) = ((py - dy : Nat) : Int) := by
      rw [wrap64_id] <;> omega
    rw [hw]
    unfold sliceI?
    rw [if_pos (by omega)]
    simp only [Int.toNat_natCast]
    rw [slice?_some (by omega) (by omega)]
    refine ⟨?_, by simp⟩
    simp [M.bind_apply, index?, ← hpy, ← hdy]

end Radolan
