/- Composites in memory. -/
import Verif.Lemmas.ConcParse
import Verif.Props.ConcSpec

namespace Radolan.Conc
open Go
open Radolan.Heap (Win View)
open Props (plainRow Write put)

/-! ### framing -/

/-- memory extended by other memory -/
def union (f g : Mem) : Mem := fun a => match f a with
  | some o => some o
  | none => g a

theorem union_left {f g : Mem} {a : Addr} {o : Obj} (h : f a = some o) : union f g a = some o := by
  unfold union; rw [h]

theorem union_right {f g : Mem} {a : Addr} (h : f a = none) : union f g a = g a := by
  unfold union; rw [h]

theorem union_update (f g : Mem) (a : Addr) (o : Obj) :
    Function.update (union f g) a (some o) = union (Function.update f a (some o)) g := by
  funext b
  by_cases h : b = a
  · subst h; rw [Function.update_self]; unfold union; rw [Function.update_self]
  · rw [Function.update_of_ne h]; unfold union; rw [Function.update_of_ne h]

theorem union_empty (g : Mem) : union (fun _ => none) g = g := rfl

theorem Safe.frame {R : Mem} {Q : Option α → Mem → Prop} {g : Mem} : ∀ (p : Prog α) (f : Mem), Safe R Q p f →
    (∀ a, f a ≠ none → g a = none) →
    Safe R (fun r h => ∃ f', Q r f' ∧ (∀ a, f' a ≠ none → g a = none) ∧ h = union f' g) p (union f g) := by
  intro p
  induction p with
  | ret a => exact fun f h hd => ⟨f, h, hd, rfl⟩
  | panic => exact fun f h hd => ⟨f, h, hd, rfl⟩
  | alloc o k ih =>
    intro f h hd a h1 h2
    have hfa : f a = none := by
      cases hf : f a with
      | none => rfl
      | some o' => rw [union_left hf] at h1; simp at h1
    rw [union_right hfa] at h1
    rw [union_update]
    refine ih a _ (h a hfa h2) fun b hb => ?_
    by_cases hba : b = a
    · rw [hba]; exact h1
    · rw [Function.update_of_ne hba] at hb; exact hd b hb
  | head a i k ih =>
    intro f ⟨l, h1, h2, h3⟩ hd
    exact ⟨l, h1.imp_left union_left, fun r hr => ih r f (h2 r hr) hd, fun hr => ⟨f, h3 hr, hd, rfl⟩⟩
  | setHead a i r k ih =>
    intro f ⟨l, h1, h2, h3⟩ hd
    refine ⟨l, union_left h1, fun hr => ?_, fun hr => ⟨f, h3 hr, hd, rfl⟩⟩
    rw [union_update]
    refine ih _ (h2 hr) fun b hb => ?_
    by_cases hba : b = a
    · rw [hba]; exact hd a (by rw [h1]; simp)
    · rw [Function.update_of_ne hba] at hb; exact hd b hb
  | load a i k ih =>
    intro f ⟨l, h1, h2, h3⟩ hd
    exact ⟨l, h1.imp_left union_left, fun r hr => ih r f (h2 r hr) hd, fun hr => ⟨f, h3 hr, hd, rfl⟩⟩
  | store a i v k ih =>
    intro f ⟨l, h1, h2, h3⟩ hd
    refine ⟨l, union_left h1, fun hr => ?_, fun hr => ⟨f, h3 hr, hd, rfl⟩⟩
    rw [union_update]
    refine ih _ (h2 hr) fun b hb => ?_
    by_cases hba : b = a
    · rw [hba]; exact hd a (by rw [h1]; simp)
    · rw [Function.update_of_ne hba] at hb; exact hd b hb

/-! ### composites -/

/-- the rows of a slice of the plain data -/
def part (rows : List (List F32)) (s : Win) : List (List F32) := (rows.drop s.off).take s.len

theorem part_get (rows : List (List F32)) (s : Win) (y : Nat) :
    (part rows s)[y]? = if y < s.len then rows[s.off + y]? else none := by
  unfold part
  rw [List.getElem?_take]
  split
  · rw [List.getElem?_drop]
  · rfl

/-- in memory `f`, the handle `h` stands for the composite `c`; its rows are at `addrs` -/
structure Rep (f : Mem) (h : Handle) (addrs : List Addr) (c : Composite) : Prop where
  fields : h.c = { c with plainData := [], dataZ := [], data := [] }
  off : h.plain.off = 0
  len : c.plainData.length = h.plain.len
  dataZ : c.dataZ = h.dataZ.map (part c.plainData)
  data : c.data = part c.plainData h.data
  wins : ∀ (z : Nat) s, h.dataZ[z]? = some s → s.off + s.len ≤ h.plain.len ∧ ∀ y, y < s.len → s.off + y = plainRow c z y
  win : h.data.off + h.data.len ≤ h.plain.len ∧ ∀ y, y < h.data.len → h.data.off + y = plainRow c 0 y
  lay : (h.plain.len = 0 ∧ addrs = []) ∨ ∃ w, Lay f h.base addrs w c.plainData

theorem Lay.rowOf {f : Mem} {base : Addr} {addrs : List Addr} {w : Nat} {rows : List (List F32)}
    (h : Lay f base addrs w rows) {i : Nat} {r : List F32} (hi : rows[i]? = some r) : rowOf f base i = r := by
  have hlt := (List.getElem?_eq_some_iff.mp hi).1
  have hlt' : i < addrs.length := by rw [h.len]; exact hlt
  have ha := List.getElem?_eq_getElem hlt'
  have hw := h.width r (List.mem_of_getElem? hi)
  unfold Conc.rowOf
  rw [h.heads]
  simp only [List.getElem?_map, ha, Option.map_some]
  rw [h.arr i _ r ha hi]
  simp only
  rw [List.take_of_length_le (by omega)]

theorem rowsOf_eq {f : Mem} {base : Addr} {rows : List (List F32)} {s : Win} (hs : s.off + s.len ≤ rows.length)
    (h : ∀ (i : Nat) r, rows[i]? = some r → rowOf f base i = r) : rowsOf f base s = part rows s := by
  apply List.ext_getElem?
  intro y
  rw [part_get]
  unfold rowsOf
  rw [List.getElem?_map]
  by_cases hy : y < s.len
  · rw [if_pos hy, List.getElem?_range hy, Option.map_some]
    have hlt : s.off + y < rows.length := by omega
    rw [List.getElem?_eq_getElem hlt, h _ _ (List.getElem?_eq_getElem hlt)]
  · rw [if_neg hy, List.getElem?_eq_none (by simpa using hy)]; rfl

theorem Rep.rowOf {f : Mem} {h : Handle} {addrs : List Addr} {c : Composite} (hr : Rep f h addrs c) (i : Nat) (r : List F32)
    (hi : c.plainData[i]? = some r) : Conc.rowOf f h.base i = r := by
  rcases hr.lay with ⟨h0, _⟩ | ⟨w, hl⟩
  · have := (List.getElem?_eq_some_iff.mp hi).1
    rw [hr.len, h0] at this; omega
  · exact hl.rowOf hi

theorem Rep.view {f : Mem} {h : Handle} {addrs : List Addr} {c : Composite} (hr : Rep f h addrs c) : h.view f = c := by
  have hp : rowsOf f h.base h.plain = c.plainData := by
    rw [rowsOf_eq (by rw [hr.off, hr.len]; omega) hr.rowOf]
    unfold part
    rw [hr.off, List.drop_zero, ← hr.len, List.take_length]
  have hz : h.dataZ.map (rowsOf f h.base) = c.dataZ := by
    rw [hr.dataZ]
    refine List.map_congr_left fun s hs => ?_
    obtain ⟨z, hz⟩ := List.getElem?_of_mem hs
    exact rowsOf_eq (by rw [hr.len]; exact (hr.wins z s hz).1) hr.rowOf
  have hd : rowsOf f h.base h.data = c.data := by
    rw [hr.data]
    exact rowsOf_eq (by rw [hr.len]; exact hr.win.1) hr.rowOf
  unfold Handle.view
  rw [hp, hz, hd, hr.fields]

theorem Rep.mono {f g : Mem} {h : Handle} {addrs : List Addr} {c : Composite} (hr : Rep f h addrs c)
    (hfg : ∀ a o, f a = some o → g a = some o) : Rep g h addrs c :=
  { hr with lay := hr.lay.imp_right fun ⟨w, hl⟩ => ⟨w, hl.mono hfg⟩ }

theorem Rep.floats {f : Mem} {h : Handle} {addrs : List Addr} {c : Composite} (hr : Rep f h addrs c) {a : Addr}
    (ha : a ∈ addrs) : ∃ l, f a = some (.floats l) := by
  rcases hr.lay with ⟨_, h0⟩ | ⟨w, hl⟩
  · rw [h0] at ha; simp at ha
  · obtain ⟨i, hi⟩ := List.getElem?_of_mem ha
    have hlt := (List.getElem?_eq_some_iff.mp hi).1
    exact ⟨_, hl.arr i a _ hi (List.getElem?_eq_getElem (by rw [← hl.len]; exact hlt))⟩

/-- changing the array of a row of another composite -/
theorem Rep.other {f : Mem} {h : Handle} {addrs : List Addr} {c : Composite} (hr : Rep f h addrs c) {a : Addr} {l l' : List F32}
    (ha : a ∉ addrs) (hf : f a = some (.floats l)) : Rep (Function.update f a (some (.floats l'))) h addrs c := by
  refine { hr with lay := hr.lay.imp_right fun ⟨w, hl⟩ => ⟨w, hl.len, hl.nodup, ?_, hl.width, ?_⟩ }
  · have : h.base ≠ a := by intro e; have := hl.heads; rw [e, hf] at this; simp at this
    rw [Function.update_of_ne this]; exact hl.heads
  · intro i b r h1 h2
    have : b ≠ a := by rintro rfl; exact ha (List.mem_of_getElem? h1)
    rw [Function.update_of_ne this]; exact hl.arr i b r h1 h2

/-! ### reading -/

/-- `s[y]` for a window, owned or frozen -/
theorem safe_rowWin {R : Mem} {Q : Option α → Mem → Prop} {f g : Mem} {h : Handle} {addrs : List Addr} {c : Composite}
    {s : Win} {y : Int} {k : Row → Prog α} (hr : Rep g h addrs c) (hs : s.off + s.len ≤ h.plain.len)
    (hg : ∀ a o, g a = some o → f a = some o ∨ R a = some o)
    (h1 : ∀ a row, a ∈ addrs → addrs[s.off + y.toNat]? = some a → c.plainData[s.off + y.toNat]? = some row → 0 ≤ y → y < s.len →
      index? (part c.plainData s) y = some row → g a = some (.floats row) → Safe R Q (k ⟨a, row.length⟩) f)
    (h2 : index? (part c.plainData s) y = none → Q none f) : Safe R Q (rowAt h.base s y k) f := by
  unfold rowAt
  by_cases hy : 0 ≤ y ∧ y < s.len
  · rw [if_pos hy]
    rcases hr.lay with ⟨h0, _⟩ | ⟨w, hl⟩
    · omega
    · have hlt : s.off + y.toNat < c.plainData.length := by rw [hr.len]; omega
      have hlt' : s.off + y.toNat < addrs.length := by rw [hl.len]; exact hlt
      have hw := hl.width _ (List.getElem_mem hlt)
      refine ⟨_, hg _ _ hl.heads, ?_, ?_⟩
      · intro r hr'
        simp only [List.getElem?_map, List.getElem?_eq_getElem hlt', Option.map_some, Option.some.injEq] at hr'
        rw [← hr', ← hw]
        refine h1 _ _ (List.getElem_mem hlt') (List.getElem?_eq_getElem hlt') (List.getElem?_eq_getElem hlt) hy.1 hy.2 ?_
          (hl.arr _ _ _ (List.getElem?_eq_getElem hlt') (List.getElem?_eq_getElem hlt))
        unfold index?
        rw [if_pos hy.1, part_get, if_pos (by omega), List.getElem?_eq_getElem hlt]
      · intro hr'
        simp [List.getElem?_map, List.getElem?_eq_getElem hlt'] at hr'
  · rw [if_neg hy]
    refine h2 ?_
    unfold index?
    split
    · rw [part_get, if_neg (by omega)]
    · rfl

theorem safe_AtZ {R : Mem} {Q : Option F32 → Mem → Prop} {f g : Mem} {h : Handle} {addrs : List Addr} {c : Composite}
    (hr : Rep g h addrs c) (hg : ∀ a o, g a = some o → f a = some o ∨ R a = some o) (x y z : Int)
    (hQ : Q (c.AtZ x y z) f) : Safe R Q (h.AtZ x y z) f := by
  unfold Handle.AtZ
  unfold Composite.AtZ at hQ
  have e1 : h.c.dx = c.dx := by rw [hr.fields]
  have e2 : h.c.dy = c.dy := by rw [hr.fields]
  have e3 : h.c.dz = c.dz := by rw [hr.fields]
  rw [e1, e2, e3]
  split at hQ
  · rename_i hc
    rw [if_pos hc]; exact hQ
  · rename_i hc
    rw [if_neg hc]
    have hz : index? c.dataZ z = (h.dataZ[z.toNat]?).map (part c.plainData) := by
      unfold index?
      rw [if_pos (by omega), hr.dataZ, List.getElem?_map]
    rw [hz] at hQ
    cases hd : h.dataZ[z.toNat]? with
    | none => rw [hd] at hQ; exact hQ
    | some s =>
      rw [hd] at hQ
      simp only [Option.map_some, Option.bind_eq_bind, Option.bind_some] at hQ
      refine safe_rowWin hr (hr.wins _ _ hd).1 hg ?_ ?_
      · intro a row _ _ _ _ _ hi ha
        rw [hi] at hQ
        simp only [Option.bind_some] at hQ
        by_cases hx : x < row.length
        · rw [if_pos hx]
          have hlt : x.toNat < row.length := by omega
          unfold index? at hQ
          rw [if_pos (by omega), List.getElem?_eq_getElem hlt] at hQ
          refine ⟨row, hg _ _ ha, fun v hv => ?_, fun hv => ?_⟩
          · rw [List.getElem?_eq_getElem hlt] at hv
            show Q (some v) f
            rw [← hv]; exact hQ
          · rw [List.getElem?_eq_getElem hlt] at hv; simp at hv
        · rw [if_neg hx]
          unfold index? at hQ
          rw [if_pos (by omega), List.getElem?_eq_none (by omega)] at hQ
          exact hQ
      · intro hi
        rw [hi] at hQ; exact hQ

/-! ### writing -/

theorem part_modify (rows : List (List F32)) (s : Win) (r : Nat) (g : List F32 → List F32) :
    part (rows.modify r g) s = (part rows s).mapIdx fun y row => if s.off + y = r then g row else row := by
  apply List.ext_getElem?
  intro y
  rw [part_get, List.getElem?_mapIdx, part_get]
  split
  · rw [List.getElem?_modify]
    cases rows[s.off + y]? with
    | none => rfl
    | some row =>
      simp only [Option.map_eq_map, Option.map_some]
      by_cases he : r = s.off + y
      · rw [if_pos he, if_pos he.symm]
      · rw [if_neg he, if_neg (Ne.symm he)]
  · rfl

theorem part_length {rows : List (List F32)} {s : Win} (h : s.off + s.len ≤ rows.length) : (part rows s).length = s.len := by
  unfold part; rw [List.length_take, List.length_drop]; omega

theorem mapIdx_rows {rows : List (List F32)} {s : Win} {r : Nat} {g : List F32 → List F32} {n : Nat → Nat}
    (h : s.off + s.len ≤ rows.length) (hn : ∀ y, y < s.len → s.off + y = n y) :
    part (rows.modify r g) s = (part rows s).mapIdx fun y row => if n y = r then g row else row := by
  rw [part_modify]
  apply List.ext_getElem?
  intro y
  rw [List.getElem?_mapIdx, List.getElem?_mapIdx]
  by_cases hy : y < s.len
  · rw [hn y hy]
  · rw [List.getElem?_eq_none (by rw [part_length h]; omega)]; rfl

theorem Rep.put {f : Mem} {h : Handle} {addrs : List Addr} {c : Composite} (hr : Rep f h addrs c) {r x : Nat} {v : F32}
    {row : List F32} {a : Addr} (ha : addrs[r]? = some a) (hrow : c.plainData[r]? = some row) :
    Rep (Function.update f a (some (.floats (row.set x v)))) h addrs (Props.put c r x v) := by
  have hmod : c.plainData.modify r (·.set x v) = c.plainData.set r (row.set x v) := by
    apply List.ext_getElem?
    intro i
    rw [List.getElem?_modify, List.getElem?_set]
    by_cases hi : r = i
    · subst hi; rw [if_pos rfl, if_pos (List.getElem?_eq_some_iff.mp hrow).1, hrow]; simp
    · rw [if_neg hi]; simp [hi]
  refine ⟨?_, hr.off, ?_, ?_, ?_, hr.wins, hr.win, ?_⟩
  · rw [hr.fields]; rfl
  · show (c.plainData.modify r (·.set x v)).length = _
    rw [List.length_modify]; exact hr.len
  · show (c.dataZ.mapIdx fun z layer => layer.mapIdx fun y row => if plainRow c z y = r then row.set x v else row) =
      h.dataZ.map (part (c.plainData.modify r (·.set x v)))
    rw [hr.dataZ]
    apply List.ext_getElem?
    intro z
    rw [List.getElem?_mapIdx, List.getElem?_map, List.getElem?_map]
    cases hz : h.dataZ[z]? with
    | none => rfl
    | some s =>
      simp only [Option.map_some]
      have := hr.wins z s hz
      rw [mapIdx_rows (by rw [hr.len]; exact this.1) this.2]
  · show (c.data.mapIdx fun y row => if plainRow c 0 y = r then row.set x v else row) =
      part (c.plainData.modify r (·.set x v)) h.data
    rw [mapIdx_rows (by rw [hr.len]; exact hr.win.1) hr.win.2, ← hr.data]
  · rcases hr.lay with ⟨_, h0⟩ | ⟨w, hl⟩
    · rw [h0] at ha; simp at ha
    · refine Or.inr ⟨w, ?_⟩
      show Lay _ _ _ _ (c.plainData.modify r (·.set x v))
      rw [hmod]
      exact hl.set ha (by rw [List.length_set]; exact hl.width _ (List.mem_of_getElem? hrow))

theorem safe_assign {R : Mem} {Q : Option Unit → Mem → Prop} {f : Mem} {h : Handle} {addrs : List Addr} {c : Composite}
    {s : Win} {i x : Nat} {v : F32} (hr : Rep f h addrs c) (hs : s.off + s.len ≤ h.plain.len)
    (h1 : ∀ a row l, i < s.len → a ∈ addrs → f a = some (.floats l) → (part c.plainData s)[i]? = some row → x < row.length →
      Rep (Function.update f a (some (.floats (row.set x v)))) h addrs (Props.put c (s.off + i) x v) →
      Q (some ()) (Function.update f a (some (.floats (row.set x v)))))
    (h2 : (∀ row, (part c.plainData s)[i]? = some row → ¬ x < row.length) → Q none f) :
    Safe R Q (Props.assign h.base s i x v) f := by
  unfold Props.assign
  have hi0 : index? (part c.plainData s) (i : Int) = (part c.plainData s)[i]? := by
    unfold index?; rw [if_pos (by omega), Int.toNat_natCast]
  refine safe_rowWin hr hs (fun _ _ h => Or.inl h) ?_ ?_
  · intro a row ham ha hrow _ hy hi hfa
    rw [hi0] at hi
    rw [Int.toNat_natCast] at ha hrow
    unfold storeAt
    simp only
    by_cases hx : x < row.length
    · rw [if_pos hx]
      exact ⟨row, hfa, fun _ => h1 a row row (by omega) ham hfa hi hx (hr.put ha hrow), fun h => absurd hx h⟩
    · rw [if_neg hx]
      refine h2 fun row' hr' => ?_
      rw [hi] at hr'
      simp only [Option.some.injEq] at hr'
      rw [← hr']; exact hx
  · intro hi
    rw [hi0] at hi
    exact h2 fun row hrow => by rw [hi] at hrow; simp at hrow

/-- an assignment changes one array of the composite -/
theorem safe_write {R : Mem} {Q : Option Unit → Mem → Prop} {f : Mem} {h : Handle} {addrs : List Addr} {c : Composite}
    (hr : Rep f h addrs c) (w : Write)
    (h1 : ∀ c' a l l', w.apply c = some c' → a ∈ addrs → f a = some (.floats l) →
      Rep (Function.update f a (some (.floats l'))) h addrs c' → Q (some ()) (Function.update f a (some (.floats l'))))
    (h2 : w.apply c = none → Q none f) : Safe R Q (w.prog h) f := by
  cases w with
  | plain r x v =>
    have hp : part c.plainData h.plain = c.plainData := by
      unfold part; rw [hr.off, List.drop_zero, ← hr.len, List.take_length]
    refine safe_assign hr (by rw [hr.off]; omega) ?_ ?_
    · intro a row l _ ham hfa hrow hx hrep
      rw [hp] at hrow
      rw [hr.off, Nat.zero_add] at hrep
      refine h1 _ a l _ ?_ ham hfa hrep
      simp only [Write.apply, hrow, Option.bind_some, if_pos hx]
    · intro hrow
      rw [hp] at hrow
      refine h2 ?_
      simp only [Write.apply]
      cases hq : c.plainData[r]? with
      | none => rfl
      | some row => simp only [Option.bind_some, if_neg (hrow row hq)]
  | voxel z y x v =>
    simp only [Write.prog]
    simp only [Write.apply] at h1 h2
    have hz : c.dataZ[z]? = (h.dataZ[z]?).map (part c.plainData) := by rw [hr.dataZ, List.getElem?_map]
    rw [hz] at h1 h2
    cases hd : h.dataZ[z]? with
    | none => rw [hd] at h2; exact h2 rfl
    | some s =>
      rw [hd] at h1 h2
      simp only [Option.map_some, Option.bind_some] at h1 h2
      refine safe_assign hr (hr.wins z s hd).1 ?_ ?_
      · intro a row l hy ham hfa hrow hx hrep
        rw [(hr.wins z s hd).2 y hy] at hrep
        refine h1 _ a l _ ?_ ham hfa hrep
        simp only [hrow, Option.bind_some, if_pos hx]
      · intro hrow
        refine h2 ?_
        cases hq : (part c.plainData s)[y]? with
        | none => rfl
        | some row => simp only [Option.bind_some, if_neg (hrow row hq)]
  | data y x v =>
    unfold Write.prog
    simp only [Write.apply] at h1 h2
    rw [hr.data] at h1 h2
    refine safe_assign hr hr.win.1 ?_ ?_
    · intro a row l hy ham hfa hrow hx hrep
      rw [hr.win.2 y hy] at hrep
      refine h1 _ a l _ ?_ ham hfa hrep
      simp only [hrow, Option.bind_some, if_pos hx]
    · intro hrow
      refine h2 ?_
      cases hq : (part c.plainData h.data)[y]? with
      | none => rfl
      | some row => simp only [Option.bind_some, if_neg (hrow row hq)]

/-! ### parsing -/

theorem empty_rep (f : Mem) {c : Composite} (hb : Blank c) (hp : c.plainData = []) :
    Rep f ⟨c, 0, ⟨0, 0, 0⟩, [], ⟨0, 0, 0⟩⟩ [] c := by
  refine ⟨?_, rfl, by rw [hp]; rfl, hb.dataZ, ?_, by simp, by simp, Or.inl ⟨rfl, rfl⟩⟩
  · show c = _
    cases c
    simp only at hp
    have h1 := hb.dataZ
    have h2 := hb.data
    simp only at h1 h2
    subst hp h1 h2
    rfl
  · rw [hb.data, hp]; rfl

/-- the composite with the rows decoded before an error -/
theorem partial_rep {f : Mem} {c : Composite} {base : Addr} {addrs : List Addr} {w : Nat} {rows : List (List F32)} {n : Nat}
    (hb : Blank c) (hp : c.plainData = []) (hl : Lay f base addrs w rows) (hn : rows.length = n) :
    Rep f ⟨c, base, ⟨0, n, n⟩, [], ⟨0, 0, 0⟩⟩ addrs (withPlain c rows) := by
  refine ⟨?_, rfl, hn, hb.dataZ, ?_, by simp, by simp, Or.inr ⟨w, hl⟩⟩
  · show c = _
    cases c
    simp only at hp
    have h1 := hb.dataZ
    have h2 := hb.data
    simp only at h1 h2
    subst hp h1 h2
    rfl
  · show c.data = _
    rw [hb.data]
    unfold part; simp

theorem layersOf_part {py dy : Nat} {rows : List (List F32)} (h : rows.length = py) (hle : dy ≤ py) :
    layersOf py dy rows = ((List.range (if py % dy = 0 then py / dy else 1)).map
      (fun z => (⟨Heap.start py dy z, dy, py - Heap.start py dy z⟩ : Win))).map (part rows) := by
  unfold layersOf Heap.start
  by_cases hm : py % dy = 0
  · simp only [if_pos hm, List.map_map]
    rfl
  · simp only [if_neg hm]
    unfold part
    simp
    omega

theorem plainRow_start {c : Composite} {py dy : Nat} (h1 : c.py = py) (h2 : c.dy = dy) (hle : dy ≤ py) (z y : Nat) :
    plainRow c z y = Heap.start py dy z + y := by
  have hmod : (c.py % c.dy = 0) ↔ py % dy = 0 := by
    rw [h1, h2, ← Int.natCast_emod]; exact_mod_cast Iff.rfl
  unfold plainRow Heap.start
  rw [h1, h2] at hmod ⊢
  by_cases hm : py % dy = 0
  · rw [if_pos (hmod.mpr hm), if_pos hm, ← Int.natCast_mul]; omega
  · rw [if_neg (fun h => hm (hmod.mp h)), if_neg hm]; omega

/-- NewComposite, access by access, in memory of its own -/
theorem safe_newComposite {R : Mem} (E : Env) (input : Bytes) :
    Safe R (fun r f => match NewComposite E input with
      | .panic => r = none
      | .ret c err => ∃ h addrs, r = some (h, err) ∧ Rep f h addrs c) (newComposite E input) (fun _ => none) := by
  have hp := parseHeader_eq E input
  have hk := Keeps.parseHeader E input Composite.zero
  unfold NewComposite newCompositeRest newCompositeM newComposite
  cases hh : headerOf E input with
  | none =>
    rw [hh] at hp
    obtain ⟨e, c, he, hb, hu⟩ := hp
    rw [he] at hk
    rw [M.bind_err he, he]
    exact ⟨_, _, rfl, empty_rep _ hb hk⟩
  | some q =>
    obtain ⟨c, rest⟩ := q
    rw [hh] at hp
    obtain ⟨he, hb⟩ := hp
    rw [he] at hk
    have hpl : c.plainData = [] := hk
    rw [M.bind_ok he, he]
    simp only
    by_cases hz : c.px = 0 ∨ c.py = 0
    · rw [M.bind_err (parseData_zero c rest hz)]
      unfold parseData
      rw [if_pos hz]
      exact ⟨_, _, rfl, empty_rep _ hb hpl⟩
    · by_cases ha : AllocOK c
      · have hdims := header_dims hh
        obtain ⟨p1, p2, p3, p4⟩ := ha
        have m1 : makeOK 24 c.py = true := makeOK_iff.mpr ⟨by omega, p4⟩
        have m2 : makeOK 4 c.px = true := makeOK_iff.mpr ⟨by omega, p2⟩
        have hD : DimsOK c := ⟨⟨p1, p2⟩, ⟨p3, p4⟩, hdims.1⟩
        have hpd : Radolan.parseData rest c = Radolan.parseWith (identifyEncoding c) rest
            (withPlain c (List.replicate c.py.toNat (List.replicate c.px.toNat Fl.zero))) := by
          unfold Radolan.parseData
          simp only [M.get_bind]
          rw [if_neg hz, m1, m2]
          rfl
        unfold parseData
        rw [if_neg hz, m1, m2]
        simp only [Bool.not_true, Bool.false_eq_true, if_false]
        intro base hbase _
        refine Safe.bind _ _ (Safe.bind _ _ ?_)
        refine safe_allocRows (c.py.toNat) [] _ List.nodup_nil (by simp) (by simp) ?_
        intro f addrs hlen hlay
        simp only [List.length_nil, Nat.zero_add] at hlen hlay
        refine Safe.bind _ _ (Safe.mono ?_ _ _ (by
          have := refines_parseWith (R := R) (c := c) (identifyEncoding c) rest _ f hlay
          rw [hlen] at this; exact this))
        intro r f' hr
        rw [← hpd] at hr
        cases hm : Radolan.parseData rest c with
        | panic =>
          rw [hm] at hr
          simp only at hr
          subst hr
          rw [M.bind_panic hm]
        | err e c' =>
          rw [hm] at hr
          obtain ⟨rfl, rows', rfl, hl⟩ := hr
          rw [M.bind_err hm]
          exact ⟨_, _, rfl, partial_rep hb hpl hl (by rw [← hl.len, hlen])⟩
        | ok rest' c' =>
          rw [hm] at hr
          obtain ⟨rfl, rows', rfl, hl⟩ := hr
          rw [M.bind_ok hm]
          have hrl : rows'.length = c.py.toNat := by rw [← hl.len, hlen]
          have har := (arrangeData_eq (withPlain c rows') (by show 0 < c.dy; omega) (by show c.dy ≤ c.py; omega) p4 hrl).1
          rw [M.bind_ok har]
          obtain ⟨dy, hdy⟩ : ∃ n : Nat, c.dy = n := ⟨c.dy.toNat, by omega⟩
          obtain ⟨py, hpy⟩ : ∃ n : Nat, c.py = n := ⟨c.py.toNat, by omega⟩
          have hpyn : c.py.toNat = py := by omega
          have hdyn : c.dy.toNat = dy := by omega
          have hle : dy ≤ py := by omega
          obtain ⟨v, hv, v1, v2, v3⟩ := Heap.arrange_eq py dy (by omega) hle (by omega)
          show Safe R _ (match Heap.arrange c.py c.dy ⟨0, c.py.toNat, c.py.toNat⟩ with
            | none => Prog.panic
            | some v => _) f'
          have hv' : Heap.arrange c.py c.dy ⟨0, c.py.toNat, c.py.toNat⟩ = some v := by rw [hpyn, hpy, hdy]; exact hv
          rw [hv']
          refine ⟨_, addrs, rfl, ?_⟩
          have hly := layersOf_part (rows := rows') (py := py) (dy := dy) (by omega) hle
          rw [← v2] at hly
          have hcount : 0 < (if py % dy = 0 then py / dy else 1) := by
            split
            · exact Nat.div_pos hle (by omega)
            · omega
          refine ⟨?_, ?_, ?_, ?_, ?_, ?_, ?_, ?_⟩
          · have hlz : (layersOf c.py.toNat c.dy.toNat rows').length = v.dataZ.length := by
              rw [hpyn, hdyn, hly, List.length_map]
            unfold calibrateProjection withPlain
            simp only [hlz, hb.dataZ, hb.data, hpl]
          · show v.plain.off = 0
            rw [v1]
          · show rows'.length = v.plain.len
            rw [v1]; exact hrl.trans hpyn
          · show layersOf c.py.toNat c.dy.toNat rows' = v.dataZ.map (part rows')
            rw [hpyn, hdyn]; exact hly
          · show ((layersOf c.py.toNat c.dy.toNat rows')[0]?).getD [] = part rows' v.data
            rw [hpyn, hdyn, hly, v2, v3]
            simp only [List.getElem?_map, List.getElem?_range hcount, Option.map_some, Option.getD_some]
          · intro z s hs
            have hs' : v.dataZ[z]? = some s := hs
            rw [v2, List.getElem?_map] at hs'
            cases hz' : (List.range (if py % dy = 0 then py / dy else 1))[z]? with
            | none => rw [hz'] at hs'; simp at hs'
            | some z' =>
              obtain ⟨hlt, he'⟩ := List.getElem?_eq_some_iff.mp hz'
              rw [List.getElem_range] at he'
              rw [List.length_range] at hlt
              subst he'
              rw [hz'] at hs'
              simp only [Option.map_some, Option.some.injEq] at hs'
              subst hs'
              show Heap.start py dy z + dy ≤ v.plain.len ∧ _
              rw [v1]
              exact ⟨Heap.start_le hle hlt, fun y _ => (plainRow_start (c := c) hpy hdy hle z y).symm⟩
          · show v.data.off + v.data.len ≤ v.plain.len ∧ _
            rw [v1, v3]
            refine ⟨Heap.start_le hle hcount, fun y _ => ?_⟩
            exact (plainRow_start (c := c) hpy hdy hle 0 y).symm
          · exact Or.inr ⟨_, hl⟩
      · rw [M.bind_panic (parseData_panic c rest hz ha)]
        unfold parseData
        rw [if_neg hz]
        by_cases m1 : makeOK 24 c.py = true
        · have m2 : makeOK 4 c.px = false := by
            rw [← Bool.not_eq_true, makeOK_iff]
            rw [makeOK_iff] at m1
            intro m2
            apply ha
            unfold AllocOK
            omega
          rw [m1, m2]
          rfl
        · rw [Bool.not_eq_true] at m1
          rw [m1]; rfl

end Radolan.Conc
