/-
C48, C51: PlainData, DataZ and Data share memory.
-/
import Verif.Lemmas.Heap
import Verif.Props.EndToEnd

namespace Props
open Go Radolan Spec
open Radolan.Heap (Mem View Win build)

/-- the plain row a voxel row lies in -/
def plainRow (c : Composite) (z y : Nat) : Nat :=
  if c.py % c.dy = 0 then (c.dy * z + y).toNat else (c.py - c.dy + y).toNat

/-- an assignment through one of the exported fields: PlainData[r][x] = v, DataZ[z][y][x] = v or Data[y][x] = v -/
inductive Write where
  | plain (r x : Nat) (v : F32)
  | voxel (z y x : Nat) (v : F32)
  | data (y x : Nat) (v : F32)

/-- perform an assignment; `none` is an index panic -/
def Write.exec (w : View) (m : Mem) : Write → Option Mem
  | .plain r x v => m.store w.plain r x v
  | .voxel z y x v => (w.dataZ[z]?).bind fun s => m.store s y x v
  | .data y x v => m.store w.data y x v

/-- perform assignments one after the other -/
def execAll (w : View) : List Write → Mem → Option Mem
  | [], m => some m
  | a :: as, m => (a.exec w m).bind (execAll w as)

/-- the plain row and column an assignment goes to, and the value -/
def Write.target (c : Composite) : Write → Nat × Nat × F32
  | .plain r x v => (r, x, v)
  | .voxel z y x v => (plainRow c z y, x, v)
  | .data y x v => (plainRow c 0 y, x, v)

/-- the element at plain row r, column x after assignments: the last value written there, or the original one -/
def after (c : Composite) (as : List Write) (r x : Nat) : Option F32 :=
  match (as.reverse.map (Write.target c)).find? fun t => t.1 == r && t.2.1 == x with
  | some t => some t.2.2
  | none => plain c r x

/-- the assignment addresses an existing element -/
def Write.InRange (c : Composite) : Write → Prop
  | .plain r x _ => (r : Int) < c.py ∧ (x : Int) < c.px
  | .voxel z y x _ => (z : Int) < c.dz ∧ (y : Int) < c.dy ∧ (x : Int) < c.dx
  | .data y x _ => (y : Int) < c.dy ∧ (x : Int) < c.dx

/-! ### layout of a parsed composite -/

theorem layout_of_success {E : Env} {input : Bytes} {c : Composite} (hS : Success E input c) :
    (∃ m w, build c = some (m, w) ∧ Heap.Layout c.py.toNat c.dy.toNat c.px.toNat c.plainData m w) ∧
    0 < c.dy ∧ c.dy ≤ c.py ∧ c.dz = ((if c.py.toNat % c.dy.toNat = 0 then c.py.toNat / c.dy.toNat else 1 : Nat) : Int) ∧
    (∀ z y, plainRow c z y = Heap.start c.py.toNat c.dy.toNat z + y) := by
  have hsh := C05_shape hS
  have h6 := C06_layers hS
  obtain ⟨s1, s2, s3, s4, s5, s6, s7, s8, s9, s10⟩ := hsh
  have hle : c.dy ≤ c.py := by nlinarith
  have h24 : c.py * 24 ≤ 2 ^ 48 := by
    obtain ⟨h, rest, rows, rest', hh, ⟨ha1, ha2, ha3, ha4⟩, hd, rfl⟩ := parsed_iff.mp hS
    exact ha4
  obtain ⟨dy, hdy⟩ : ∃ n : Nat, c.dy = n := ⟨c.dy.toNat, by omega⟩
  obtain ⟨py, hpy⟩ : ∃ n : Nat, c.py = n := ⟨c.py.toNat, by omega⟩
  have hmod : (c.py % c.dy = 0) ↔ py % dy = 0 := by
    rw [hpy, hdy, ← Int.natCast_emod]; exact_mod_cast Iff.rfl
  refine ⟨Heap.build_layout (by omega) hle h24 (by omega), by omega, hle, ?_, ?_⟩
  · by_cases hm : c.py % c.dy = 0
    · rw [(h6.1 hm).1, hpy, hdy]
      simp only [Int.toNat_natCast]
      rw [if_pos (hmod.mp hm)]; simp
    · rw [(h6.2 hm).1, hpy, hdy]
      simp only [Int.toNat_natCast]
      rw [if_neg (fun h => hm (hmod.mpr h))]; rfl
  · intro z y
    unfold plainRow Heap.start
    have hle' : dy ≤ py := by omega
    rw [hpy, hdy] at hmod ⊢
    simp only [Int.toNat_natCast]
    by_cases hm : py % dy = 0
    · rw [if_pos (hmod.mpr hm), if_pos hm, ← Int.natCast_mul]; omega
    · rw [if_neg (fun h => hm (hmod.mp h)), if_neg hm]; omega

/-- any memory with the row headers of the layout, and `rows` as row arrays -/
structure Now (c : Composite) (rows : List (List F32)) (m : Mem) (w : View) : Prop where
  lay : Heap.Layout c.py.toNat c.dy.toNat c.px.toNat rows m w
  len : rows.length = c.py.toNat
  width : ∀ r ∈ rows, r.length = c.px.toNat

theorem Now.load {c : Composite} {rows : List (List F32)} {m : Mem} {w : View} (h : Now c rows m w)
    (s : Win) (hs : s.off + s.len ≤ c.py.toNat) (i x : Nat) :
    m.load s i x = if i < s.len then (rows[s.off + i]?).bind (·[x]?) else none := by
  rw [Heap.load_range h.lay.hdr s i x hs, h.lay.arr]

theorem Now.store {c : Composite} {rows : List (List F32)} {m : Mem} {w : View} (h : Now c rows m w)
    (s : Win) (hs : s.off + s.len ≤ c.py.toNat) {i x : Nat} (hi : i < s.len) (v : F32) :
    (x < c.px.toNat → ∃ m', m.store s i x v = some m') ∧
    ∀ m', m.store s i x v = some m' → x < c.px.toNat ∧ ∃ rows', Now c rows' m' w ∧
      ∀ r x', (rows'[r]?).bind (·[x']?) = if r = s.off + i ∧ x' = x then some v else (rows[r]?).bind (·[x']?) := by
  have hlt : s.off + i < rows.length := by rw [h.len]; omega
  have hrow := Heap.row_range h.lay.hdr s i hs
  rw [if_pos hi] at hrow
  have hw : (rows[s.off + i]).length = c.px.toNat := h.width _ (List.getElem_mem hlt)
  have hst : m.store s i x v = if x < c.px.toNat then
      some { m with arr := rows.set (s.off + i) ((rows[s.off + i]).set x v) } else none := by
    unfold Mem.store
    rw [hrow, h.lay.arr]
    simp only [Option.bind_some, List.getElem?_eq_getElem hlt, hw]
  rw [hst]
  constructor
  · intro hx; rw [if_pos hx]; exact ⟨_, rfl⟩
  · intro m' hm'
    split at hm'
    · rename_i hx
      simp only [Option.some.injEq] at hm'
      subst hm'
      refine ⟨hx, rows.set (s.off + i) ((rows[s.off + i]).set x v), ⟨⟨h.lay.hdr, rfl, h.lay.plain, h.lay.dataZ, h.lay.data⟩,
        by simpa using h.len, ?_⟩, ?_⟩
      · intro r hr
        rcases List.mem_or_eq_of_mem_set hr with hr | rfl
        · exact h.width r hr
        · simp [hw]
      · intro r x'
        rw [List.getElem?_set]
        by_cases hr : s.off + i = r
        · subst hr
          simp only [if_pos hlt, if_true, Option.bind_some, true_and, List.getElem?_set, List.getElem?_eq_getElem hlt]
          by_cases hxx : x = x'
          · subst hxx; simp [hw, hx]
          · rw [if_neg hxx, if_neg (fun h => hxx h.symm)]
        · rw [if_neg hr, if_neg (fun h => hr h.1.symm)]
    · simp at hm'

theorem Now.voxelWin {c : Composite} {rows : List (List F32)} {m : Mem} {w : View} (h : Now c rows m w)
    (hle : c.dy ≤ c.py) (hdy : 0 < c.dy)
    (hdz : c.dz = ((if c.py.toNat % c.dy.toNat = 0 then c.py.toNat / c.dy.toNat else 1 : Nat) : Int)) (z : Nat) :
    ((z : Int) < c.dz → ∃ s, w.dataZ[z]? = some s ∧ s.off = Heap.start c.py.toNat c.dy.toNat z ∧ s.len = c.dy.toNat ∧
      s.off + s.len ≤ c.py.toNat) ∧ (¬ (z : Int) < c.dz → w.dataZ[z]? = none) := by
  rw [h.lay.dataZ, hdz]
  constructor
  · intro hz
    have hz' : z < if c.py.toNat % c.dy.toNat = 0 then c.py.toNat / c.dy.toNat else 1 := by exact_mod_cast hz
    rw [List.getElem?_map, List.getElem?_range hz']
    exact ⟨_, rfl, rfl, rfl, Heap.start_le (by omega) hz'⟩
  · intro hz
    rw [List.getElem?_eq_none]
    simp only [List.length_map, List.length_range]
    exact_mod_cast not_lt.mp hz

/-- C48 (a). The memory behind a parsed composite: reading PlainData, DataZ and Data yields the values of the
composite. -/
theorem C48_views {E : Env} {input : Bytes} {c : Composite} (hS : Success E input c) :
    ∃ m w, build c = some (m, w) ∧ (∀ r x, m.load w.plain r x = plain c r x) ∧
      (∀ z y x, m.loadZ w z y x = voxel c z y x) ∧ (∀ y x, m.load w.data y x = pixel c y x) := by
  obtain ⟨⟨m, w, hb, hlay⟩, hdy, hle, hdz, hrow⟩ := layout_of_success hS
  obtain ⟨s1, s2, s3, s4, s5, s6, s7, s8, s9, s10⟩ := C05_shape hS
  have hnow : Now c c.plainData m w := ⟨hlay, by omega, fun r hr => by have := s7 r hr; omega⟩
  have hZ : ∀ z y x, m.loadZ w z y x = voxel c z y x := by
    intro z y x
    have h6 := C06_layers hS
    unfold Mem.loadZ
    by_cases hz : (z : Int) < c.dz
    · obtain ⟨s, e1, e2, e3, e4⟩ := (hnow.voxelWin hle hdy hdz z).1 hz
      rw [e1, Option.bind_some, hnow.load s e4, e2, e3, ← hrow]
      by_cases hy : y < c.dy.toNat
      · rw [if_pos hy]
        have hy' : (y : Int) < c.dy := by omega
        unfold plainRow
        by_cases hm : c.py % c.dy = 0
        · rw [if_pos hm, (h6.1 hm).2 x y z hy']; rfl
        · rw [if_neg hm]
          have : z = 0 := by have := (h6.2 hm).1; omega
          subst this
          rw [(h6.2 hm).2 x y hy']; rfl
      · rw [if_neg hy]
        unfold voxel
        have hzl : z < c.dataZ.length := by omega
        rw [List.getElem?_eq_getElem hzl, Option.bind_some, List.getElem?_eq_none]
        · rfl
        · have := (s9 _ (List.getElem_mem hzl)).1; omega
    · rw [(hnow.voxelWin hle hdy hdz z).2 hz]
      unfold voxel
      rw [List.getElem?_eq_none (by omega)]; rfl
  refine ⟨m, w, hb, ?_, hZ, ?_⟩
  · intro r x
    rw [hlay.plain, hnow.load _ (by simp), Nat.zero_add]
    unfold plain
    split
    · rfl
    · rw [List.getElem?_eq_none (by simp at *; omega)]; rfl
  · intro y x
    have h0 := hZ 0 y x
    unfold Mem.loadZ at h0
    have : w.dataZ[0]? = some w.data := by
      rw [hlay.dataZ, hlay.data, List.getElem?_map, List.getElem?_range]
      · rfl
      · have : (1 : Int) ≤ ((if c.py.toNat % c.dy.toNat = 0 then c.py.toNat / c.dy.toNat else 1 : Nat) : Int) := by
          rw [← hdz]; exact s3
        have : 1 ≤ (if c.py.toNat % c.dy.toNat = 0 then c.py.toNat / c.dy.toNat else 1 : Nat) := by exact_mod_cast this
        omega
    rw [this, Option.bind_some] at h0
    rw [h0]
    unfold voxel pixel
    rw [s10]; rfl

theorem write_step {c : Composite} {rows : List (List F32)} {m : Mem} {w : View} (h : Now c rows m w)
    (hle : c.dy ≤ c.py) (hdy : 0 < c.dy) (hpx : c.dx = c.px)
    (hdz : c.dz = ((if c.py.toNat % c.dy.toNat = 0 then c.py.toNat / c.dy.toNat else 1 : Nat) : Int)) (hz1 : 1 ≤ c.dz)
    (hrow : ∀ z y, plainRow c z y = Heap.start c.py.toNat c.dy.toNat z + y) (a : Write) :
    (a.InRange c → ∃ m', a.exec w m = some m') ∧
    ∀ m', a.exec w m = some m' → a.InRange c ∧ ∃ rows', Now c rows' m' w ∧
      ∀ r x, (rows'[r]?).bind (·[x]?) =
        if r = (a.target c).1 ∧ x = (a.target c).2.1 then some (a.target c).2.2 else (rows[r]?).bind (·[x]?) := by
  have gen : ∀ (s : Win) (i x : Nat) (v : F32), s.off + s.len ≤ c.py.toNat →
      ((i < s.len ∧ (x : Int) < c.px) → ∃ m', m.store s i x v = some m') ∧
      ∀ m', m.store s i x v = some m' → (i < s.len ∧ (x : Int) < c.px) ∧ ∃ rows', Now c rows' m' w ∧
        ∀ r x', (rows'[r]?).bind (·[x']?) = if r = s.off + i ∧ x' = x then some v else (rows[r]?).bind (·[x']?) := by
    intro s i x v hs
    by_cases hi : i < s.len
    · obtain ⟨g1, g2⟩ := h.store s hs (x := x) hi v
      exact ⟨fun hx => g1 (by omega), fun m' hm => ⟨⟨hi, by have := (g2 m' hm).1; omega⟩, (g2 m' hm).2⟩⟩
    · refine ⟨fun hx => absurd hx.1 hi, fun m' hm => ?_⟩
      unfold Mem.store at hm
      rw [Heap.row_range h.lay.hdr s i hs, if_neg hi] at hm
      simp at hm
  cases a with
  | plain r x v =>
    have := gen w.plain r x v (by rw [h.lay.plain]; simp)
    rw [h.lay.plain] at this
    simp only [Nat.zero_add] at this
    refine ⟨fun hr => ?_, fun m' hm => ?_⟩
    · have hr' : (r : Int) < c.py ∧ (x : Int) < c.px := hr
      have := this.1 ⟨by omega, hr'.2⟩
      show ∃ m', m.store w.plain r x v = some m'
      rw [h.lay.plain]; exact this
    · have hm' : m.store w.plain r x v = some m' := hm
      rw [h.lay.plain] at hm'
      obtain ⟨q1, q2⟩ := this.2 m' hm'
      exact ⟨show (r : Int) < c.py ∧ (x : Int) < c.px by omega, q2⟩
  | data y x v =>
    have h0 : 0 < if c.py.toNat % c.dy.toNat = 0 then c.py.toNat / c.dy.toNat else 1 := by
      have : (1 : Int) ≤ ((if c.py.toNat % c.dy.toNat = 0 then c.py.toNat / c.dy.toNat else 1 : Nat) : Int) := by
        rw [← hdz]; exact hz1
      have : 1 ≤ (if c.py.toNat % c.dy.toNat = 0 then c.py.toNat / c.dy.toNat else 1 : Nat) := by exact_mod_cast this
      omega
    have := gen w.data y x v (by rw [h.lay.data]; exact Heap.start_le (by omega) h0)
    rw [h.lay.data] at this
    simp only [← hrow] at this
    refine ⟨fun hr => ?_, fun m' hm => ?_⟩
    · have hr' : (y : Int) < c.dy ∧ (x : Int) < c.dx := hr
      have := this.1 ⟨by omega, by omega⟩
      show ∃ m', m.store w.data y x v = some m'
      rw [h.lay.data]; exact this
    · have hm' : m.store w.data y x v = some m' := hm
      rw [h.lay.data] at hm'
      obtain ⟨q1, q2⟩ := this.2 m' hm'
      exact ⟨show (y : Int) < c.dy ∧ (x : Int) < c.dx by omega, q2⟩
  | voxel z y x v =>
    obtain ⟨w1, w2⟩ := h.voxelWin hle hdy hdz z
    by_cases hz : (z : Int) < c.dz
    · obtain ⟨s, e1, e2, e3, e4⟩ := w1 hz
      have := gen s y x v e4
      rw [e2, e3] at this
      simp only [← hrow] at this
      have hex : Write.exec w m (.voxel z y x v) = m.store s y x v := by
        show (w.dataZ[z]?).bind _ = _
        rw [e1]; rfl
      rw [hex]
      refine ⟨fun hr => ?_, fun m' hm => ?_⟩
      · have hr' : (z : Int) < c.dz ∧ (y : Int) < c.dy ∧ (x : Int) < c.dx := hr
        exact this.1 ⟨by omega, by omega⟩
      · obtain ⟨q1, q2⟩ := this.2 m' hm
        exact ⟨show (z : Int) < c.dz ∧ (y : Int) < c.dy ∧ (x : Int) < c.dx by omega, q2⟩
    · have hex : Write.exec w m (.voxel z y x v) = none := by
        show (w.dataZ[z]?).bind _ = _
        rw [w2 hz]; rfl
      rw [hex]
      exact ⟨fun hr => absurd hr.1 hz, by simp⟩

/-- C48 (b). For every sequence of assignments through PlainData, DataZ and Data, in any order: it panics exactly if
one of them is out of range; otherwise an element of PlainData is the last value assigned to it through any of the
three fields (or the original value), DataZ[z][y][x] is the element of PlainData in row `plainRow z y`, and Data is
DataZ[0]. So each assignment is observed at the corresponding places and nowhere else. -/
theorem C48_aliasing {E : Env} {input : Bytes} {c : Composite} (hS : Success E input c) {m : Mem} {w : View}
    (hb : build c = some (m, w)) (as : List Write) :
    ((∃ m', execAll w as m = some m') ↔ ∀ a ∈ as, a.InRange c) ∧
    ∀ m', execAll w as m = some m' →
      (∀ r x, m'.load w.plain r x = if (r : Int) < c.py ∧ (x : Int) < c.px then after c as r x else none) ∧
      (∀ z y x : Nat, (z : Int) < c.dz → (y : Int) < c.dy → m'.loadZ w z y x = m'.load w.plain (plainRow c z y) x) ∧
      (∀ y x, m'.load w.data y x = m'.loadZ w 0 y x) := by
  obtain ⟨⟨m0, w0, hb0, hlay⟩, hdy, hle, hdz, hrow⟩ := layout_of_success hS
  rw [hb] at hb0
  simp only [Option.some.injEq, Prod.mk.injEq] at hb0
  obtain ⟨rfl, rfl⟩ := hb0
  obtain ⟨s1, s2, s3, s4, s5, s6, s7, s8, s9, s10⟩ := C05_shape hS
  have hnow : Now c c.plainData m w := ⟨hlay, by omega, fun r hr => by have := s7 r hr; omega⟩
  have key : ∀ (as : List Write) (rows : List (List F32)) (m : Mem), Now c rows m w →
      ((∃ m', execAll w as m = some m') ↔ ∀ a ∈ as, a.InRange c) ∧
      ∀ m', execAll w as m = some m' → ∃ rows', Now c rows' m' w ∧ ∀ r x, (rows'[r]?).bind (·[x]?) =
        match (as.reverse.map (Write.target c)).find? fun t => t.1 == r && t.2.1 == x with
        | some t => some t.2.2
        | none => (rows[r]?).bind (·[x]?) := by
    intro as
    induction as with
    | nil =>
      intro rows m hn
      refine ⟨by simp [execAll], ?_⟩
      intro m' hm
      simp only [execAll, Option.some.injEq] at hm
      subst hm
      exact ⟨rows, hn, fun r x => by simp⟩
    | cons a as ih =>
      intro rows m hn
      obtain ⟨g1, g2⟩ := write_step hn hle hdy s4 hdz s3 hrow a
      cases he : a.exec w m with
      | none =>
        refine ⟨?_, by simp [execAll, he]⟩
        constructor
        · simp [execAll, he]
        · intro hall
          obtain ⟨m', hm'⟩ := g1 (hall a (by simp))
          rw [he] at hm'; simp at hm'
      | some m1 =>
        obtain ⟨r1, rows1, hn1, hv1⟩ := g2 m1 he
        obtain ⟨i1, i2⟩ := ih rows1 m1 hn1
        have hex : execAll w (a :: as) m = execAll w as m1 := by simp [execAll, he]
        rw [hex]
        refine ⟨by rw [i1]; simp [r1], ?_⟩
        intro m' hm'
        obtain ⟨rows', hn', hv'⟩ := i2 m' hm'
        refine ⟨rows', hn', ?_⟩
        intro r x
        rw [hv' r x]
        simp only [List.reverse_cons, List.map_append, List.map_cons, List.map_nil, List.find?_append]
        cases hf : (as.reverse.map (Write.target c)).find? fun t => t.1 == r && t.2.1 == x with
        | some t => simp
        | none =>
          simp only [Option.none_or, hv1 r x, List.find?_cons, List.find?_nil]
          by_cases hc : r = (a.target c).1 ∧ x = (a.target c).2.1
          · rw [if_pos hc]
            simp [hc]
          · rw [if_neg hc]
            have : ((a.target c).1 == r && (a.target c).2.1 == x) = false := by
              rw [Bool.eq_false_iff]
              intro hh
              simp only [Bool.and_eq_true, beq_iff_eq] at hh
              exact hc ⟨hh.1.symm, hh.2.symm⟩
            rw [this]
  obtain ⟨k1, k2⟩ := key as _ m hnow
  refine ⟨k1, ?_⟩
  intro m' hm'
  obtain ⟨rows', hn', hv'⟩ := k2 m' hm'
  have hall := k1.mp ⟨m', hm'⟩
  have hplain : ∀ r x, m'.load w.plain r x = if r < c.py.toNat then (rows'[r]?).bind (·[x]?) else none := by
    intro r x
    have := hn'.load w.plain (by rw [hlay.plain]; simp) r x
    rw [hlay.plain] at this ⊢
    simpa using this
  have h0 : 0 < if c.py.toNat % c.dy.toNat = 0 then c.py.toNat / c.dy.toNat else 1 := by
    have : (1 : Int) ≤ ((if c.py.toNat % c.dy.toNat = 0 then c.py.toNat / c.dy.toNat else 1 : Nat) : Int) := by
      rw [← hdz]; exact s3
    have : 1 ≤ (if c.py.toNat % c.dy.toNat = 0 then c.py.toNat / c.dy.toNat else 1 : Nat) := by exact_mod_cast this
    omega
  refine ⟨?_, ?_, ?_⟩
  · intro r x
    rw [hplain]
    by_cases hr : r < c.py.toNat
    · rw [if_pos hr]
      by_cases hx : (x : Int) < c.px
      · rw [if_pos ⟨by omega, hx⟩, hv' r x]; rfl
      · rw [if_neg (fun h => hx h.2)]
        have hlt : r < rows'.length := by rw [hn'.len]; exact hr
        rw [List.getElem?_eq_getElem hlt, Option.bind_some, List.getElem?_eq_none]
        have := hn'.width _ (List.getElem_mem hlt)
        omega
    · rw [if_neg hr, if_neg (fun h => hr (by omega))]
  · intro z y x hz hy
    obtain ⟨s, e1, e2, e3, e4⟩ := (hn'.voxelWin hle hdy hdz z).1 hz
    unfold Mem.loadZ
    rw [e1, Option.bind_some, hn'.load s e4, e2, e3, if_pos (by omega), hplain, hrow, if_pos (by omega)]
  · intro y x
    unfold Mem.loadZ
    rw [hlay.dataZ, hlay.data, List.getElem?_map, List.getElem?_range h0]
    rfl

/-- C51. Data is a slice with spare capacity: appending a row to Data of a composite with several layers overwrites
the first row of DataZ[1] (and the corresponding row of PlainData). -/
theorem C51_append_overwrites {E : Env} {input : Bytes} {c : Composite} (hS : Success E input c) {m : Mem} {w : View}
    (hb : build c = some (m, w)) (hz : 2 ≤ c.dz) (row : List F32) :
    ∃ m' d, m.append w.data row = some (m', d) ∧
      (∀ x, m'.loadZ w 1 0 x = row[x]?) ∧ (∀ x, m'.load w.plain c.dy.toNat x = row[x]?) ∧
      (∀ z y x : Nat, (z : Int) < c.dz → (y : Int) < c.dy → ¬ (z = 1 ∧ y = 0) → m'.loadZ w z y x = voxel c z y x) := by
  obtain ⟨⟨m0, w0, hb0, hlay⟩, hdy, hle, hdz, hrow⟩ := layout_of_success hS
  rw [hb] at hb0
  simp only [Option.some.injEq, Prod.mk.injEq] at hb0
  obtain ⟨rfl, rfl⟩ := hb0
  obtain ⟨s1, s2, s3, s4, s5, s6, s7, s8, s9, s10⟩ := C05_shape hS
  have hnow : Now c c.plainData m w := ⟨hlay, by omega, fun r hr => by have := s7 r hr; omega⟩
  obtain ⟨m1, w1, hb1, _, hvox, _⟩ := C48_views hS
  rw [hb] at hb1
  simp only [Option.some.injEq, Prod.mk.injEq] at hb1
  obtain ⟨rfl, rfl⟩ := hb1
  have hm : c.py.toNat % c.dy.toNat = 0 := by
    by_contra hne
    rw [if_neg hne] at hdz
    simp at hdz; omega
  have hst : ∀ z, Heap.start c.py.toNat c.dy.toNat z = c.dy.toNat * z := by
    intro z; unfold Heap.start; rw [if_pos hm]
  have hdz' : 2 ≤ c.py.toNat / c.dy.toNat := by
    rw [if_pos hm] at hdz
    have : (2 : Int) ≤ ((c.py.toNat / c.dy.toNat : Nat) : Int) := by rw [← hdz]; exact hz
    exact_mod_cast this
  have h2dy : c.dy.toNat * 2 ≤ c.py.toNat :=
    le_trans (Nat.mul_le_mul_left _ hdz') (Nat.mul_div_le _ _)
  have happ : m.append w.data row = some (⟨m.hdr.set c.dy.toNat (some m.arr.length), m.arr ++ [row]⟩,
      { w.data with len := w.data.len + 1 }) := by
    unfold Mem.append
    rw [hlay.data, hst]
    simp only [Nat.mul_zero, Nat.zero_add]
    rw [if_pos (by omega)]
  have hlen : m.arr.length = c.py.toNat := by rw [hlay.arr]; exact hnow.len
  have hload : ∀ (s : Win) (i x : Nat), s.off + s.len ≤ c.py.toNat →
      (⟨m.hdr.set c.dy.toNat (some m.arr.length), m.arr ++ [row]⟩ : Mem).load s i x
        = if i < s.len ∧ s.off + i = c.dy.toNat then row[x]? else m.load s i x := by
    intro s i x hs
    unfold Mem.load Mem.row
    by_cases hi : i < s.len
    · rw [if_pos hi, if_pos hi, List.getElem?_set]
      by_cases he : c.dy.toNat = s.off + i
      · rw [if_pos he, if_pos (by rw [hlay.hdr]; simp; omega), if_pos ⟨hi, he.symm⟩]
        simp
      · rw [if_neg he, if_neg (fun h => he h.2.symm)]
        rw [hlay.hdr, List.getElem?_map, List.getElem?_range (by omega)]
        simp only [Option.map_some, Option.join_some, Option.bind_some]
        rw [List.getElem?_append_left (by omega)]
    · rw [if_neg hi, if_neg hi, if_neg (fun h => hi h.1)]
      rfl
  refine ⟨_, _, happ, ?_, ?_, ?_⟩
  · intro x
    obtain ⟨s, e1, e2, e3, e4⟩ := (hnow.voxelWin hle hdy hdz 1).1 (by omega)
    unfold Mem.loadZ
    rw [e1, Option.bind_some, hload s 0 x e4, if_pos]
    rw [e2, e3, hst]; omega
  · intro x
    rw [hload w.plain _ x (by rw [hlay.plain]; simp), if_pos]
    rw [hlay.plain]; simp; omega
  · intro z y x hz' hy hne
    obtain ⟨s, e1, e2, e3, e4⟩ := (hnow.voxelWin hle hdy hdz z).1 hz'
    rw [← hvox]
    unfold Mem.loadZ
    rw [e1, Option.bind_some, Option.bind_some, hload s y x e4, if_neg]
    rintro ⟨_, h2⟩
    rw [e2, hst] at h2
    apply hne
    rcases z with _ | _ | z
    · omega
    · omega
    · have : c.dy.toNat * 2 ≤ c.dy.toNat * (z + 1 + 1) := Nat.mul_le_mul_left _ (by omega)
      omega

/-- the assignments may come in any number and order: here through all three fields of the sample -/
example : ∃ c m w m', Success env0 sampleRX c ∧ build c = some (m, w) ∧
    execAll w [.plain 1 2 .nan, .data 0 0 (Fl.lit f32 7), .voxel 0 0 0 (Fl.lit f32 5)] m = some m' ∧
    m'.load w.plain 0 0 = some (Fl.lit f32 5) := by
  obtain ⟨c, hS, h⟩ := sampleRX_ok
  simp only [Bool.and_eq_true, beq_iff_eq] at h
  obtain ⟨⟨⟨h1, h2⟩, h3⟩, h4⟩ := h
  obtain ⟨m, w, hb, _⟩ := C48_views hS
  obtain ⟨s1, s2, s3, s4, s5, s6, s7, s8, s9, s10⟩ := C05_shape hS
  have hpy : c.py = 2 := by rw [← s6, h4]; rfl
  have hrow : plainRow c 0 0 = 0 := by unfold plainRow; rw [hpy, h2]; rfl
  obtain ⟨g1, g2⟩ := C48_aliasing hS hb [.plain 1 2 .nan, .data 0 0 (Fl.lit f32 7), .voxel 0 0 0 (Fl.lit f32 5)]
  obtain ⟨m', hm'⟩ := g1.mpr (by
    intro a ha
    simp only [List.mem_cons, List.not_mem_nil, or_false] at ha
    rcases ha with rfl | rfl | rfl <;> simp only [Write.InRange] <;> omega)
  refine ⟨c, m, w, m', hS, hb, hm', ?_⟩
  rw [(g2 m' hm').1, if_pos ⟨by omega, by omega⟩]
  unfold after
  simp [Write.target, hrow]

/-- a volume product: 12 layers of 200 x 200 pixels -/
def fieldsPU : List Field := [⟨str "PU", str "021310100000217"⟩, ⟨str "BY", str "480030"⟩, ⟨str "VS", str " 0"⟩]

theorem volume_ok : ∃ c, Success env0 (file fieldsPU (List.replicate 480000 0)) c ∧ c.product = str "PU" := by
  obtain ⟨c, h, _, _, _, h2⟩ := accepts_of_dims (E := env0) (f := ⟨str "PU", str "021310100000217"⟩)
    (fs := [⟨str "BY", str "480030"⟩, ⟨str "VS", str " 0"⟩]) (data := List.replicate 480000 0) (label := str "PU")
    (wmo := str "10000") (t := ⟨2017, 2, 2, 13, 10⟩) (vBY := str "480030") (n := 480030) (m := 0) (i := 0) (p := 0) (v := 0)
    (d := ⟨200, 2400, 200, 200⟩) (k := 1) (by decide) (by decide) (by decide) (by decide) (by decide) (by decide) (by decide)
    (by decide) ⟨0, .none, [4, 8, 0, 0, 3, 0], [], by decide, by decide, by decide, by decide, by decide, by decide,
      by decide, by decide⟩
    (by decide) (show (0 : Int) = 0 from rfl) (show (0 : Int) = 0 from rfl) (show (0 : Int) = 0 from rfl)
    (show IsInt (str " 0") 0 from ⟨1, .none, [0], [], by decide, by decide, by decide, by decide, by decide, by decide,
      by decide, by decide⟩) (by decide) (by decide) (by decide) (by decide) (by decide) (by rw [List.length_replicate]; decide)
  exact ⟨c, h, h2⟩

example : ∃ c m w m' d, Success env0 (file fieldsPU (List.replicate 480000 0)) c ∧ build c = some (m, w) ∧
    m.append w.data [.nan] = some (m', d) ∧ m'.loadZ w 1 0 0 = some .nan := by
  obtain ⟨c, hS, hp⟩ := volume_ok
  obtain ⟨m, w, hb, _⟩ := C48_views hS
  have hdz : c.dz = 12 := by
    rcases (C24_dimensions (by decide) hS).2.2 (by decide) (by decide) with ⟨h, _⟩ | ⟨_, h1, h2, h3, h4⟩
    · rw [hp] at h; exact absurd h (by decide)
    · rw [((C06_layers hS).1 (by rw [h4, h2]; decide)).1, h4, h2]; decide
  obtain ⟨m', d, h1, h2, _⟩ := C51_append_overwrites hS hb (by omega) [.nan]
  exact ⟨c, m, w, m', d, hS, hb, h1, by rw [h2]; rfl⟩

end Props
