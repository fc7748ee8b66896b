/-
C01-C06, C26: totality of point queries, panics, failed parses, shape of composites.
-/
import Verif.Lemmas.Composite
import Verif.Spec.Api

namespace Props
open Go Radolan Spec

/-! ### tools for the examples -/

/-- what an outcome is, as a boolean (examples only) -/
def okWith (o : Outcome) (p : Composite → Bool) : Bool :=
  match o with
  | .ret c none => p c
  | .ret c (some .unknownUnit) => p c
  | _ => false

theorem success_of_okWith {E : Env} {input : Bytes} {p : Composite → Bool}
    (h : okWith (NewComposite E input) p = true) : ∃ c, Success E input c ∧ p c = true := by
  unfold okWith at h
  split at h
  · rename_i c hc; exact ⟨c, Or.inl hc, h⟩
  · rename_i c hc; exact ⟨c, Or.inr hc, h⟩
  · simp at h

/-- RX sample: parsed, three columns, two rows, one layer -/
theorem sampleRX_ok : ∃ c, Success env0 sampleRX c ∧
    (c.dx == 3 && c.dy == 2 && c.dz == 1 && c.plainData ==
      [[Fl.lit f32 (-25/2), .nan, Fl.lit f32 (-5/2)], [Fl.lit f32 (-55/2), Fl.lit f32 (-45/2), Fl.lit f32 (-35/2)]])
      = true :=
  success_of_okWith (by decide +kernel)

theorem samplePC_ok : ∃ c, Success env0 samplePC c ∧
    (c.dx == 4 && c.dy == 2 && c.plainData ==
      [[.nan, Fl.lit f32 1, Fl.lit f32 1, Fl.lit f32 19], [.nan, .nan, .nan, .nan]]) = true :=
  success_of_okWith (by decide +kernel)

theorem sampleRW_ok : ∃ c, Success env0 sampleRW c ∧
    (c.dx == 2 && c.dy == 2 && c.plainData ==
      [[.nan, Fl.lit f32 (4095/10)], [Fl.lit f32 (1/10), Fl.lit f32 (-2/10)]]) = true :=
  success_of_okWith (by decide +kernel)

/-! ### shape -/

theorem layersOf_length {py dy : Nat} {plain : List (List F32)} (h1 : 0 < dy) (h2 : dy ≤ py) :
    1 ≤ (layersOf py dy plain).length ∧ (layersOf py dy plain).length * dy ≤ py := by
  unfold layersOf
  split
  · simp only [List.length_map, List.length_range]
    exact ⟨(Nat.one_le_div_iff h1).mpr h2, Nat.div_mul_le_self _ _⟩
  · simp; exact h2

theorem layersOf_rows {py dy : Nat} {plain : List (List F32)} (h2 : dy ≤ py)
    (hl : plain.length = py) : ∀ l ∈ layersOf py dy plain, l.length = dy := by
  unfold layersOf
  split
  · intro l hl'
    simp only [List.mem_map, List.mem_range] at hl'
    obtain ⟨i, hi, rfl⟩ := hl'
    have : dy * (i + 1) ≤ py := by
      calc dy * (i + 1) ≤ dy * (py / dy) := Nat.mul_le_mul_left _ hi
        _ ≤ py := Nat.mul_div_le _ _
    rw [Nat.mul_add] at this
    simp only [List.length_take, List.length_drop]; omega
  · intro l hl'
    simp only [List.mem_singleton] at hl'
    rw [hl', List.length_drop]; omega

theorem layersOf_mem {py dy : Nat} {plain : List (List F32)} {l : List (List F32)} {r : List F32}
    (hl : l ∈ layersOf py dy plain) (hr : r ∈ l) : r ∈ plain := by
  unfold layersOf at hl
  split at hl
  · simp only [List.mem_map] at hl
    obtain ⟨i, _, rfl⟩ := hl
    exact List.mem_of_mem_drop (List.mem_of_mem_take hr)
  · simp only [List.mem_singleton] at hl
    subst hl; exact List.mem_of_mem_drop hr

/-- C05. Shape of a successfully parsed composite. -/
theorem C05_shape {E : Env} {input : Bytes} {c : Composite} (hS : Success E input c) :
    1 ≤ c.dx ∧ 1 ≤ c.dy ∧ 1 ≤ c.dz ∧ c.dx = c.px ∧ c.dz * c.dy ≤ c.py ∧
    (c.plainData.length : Int) = c.py ∧ (∀ row ∈ c.plainData, (row.length : Int) = c.px) ∧
    (c.dataZ.length : Int) = c.dz ∧
    (∀ layer ∈ c.dataZ, (layer.length : Int) = c.dy ∧ ∀ row ∈ layer, (row.length : Int) = c.dx) ∧
    c.dataZ[0]? = some c.data := by
  obtain ⟨h, rest, rows, rest', hh, ⟨ha1, ha2, ha3, ha4⟩, hd, rfl⟩ := parsed_iff.mp hS
  obtain ⟨_, _, _, _, _, f1, f2, f3, f4, f5, f6, f7, f8, _⟩ := finish_fields E h rows
  rw [f1, f2, f3, f4, f5, f6, f7, f8]
  have hdim := header_dims hh
  have hsh := dataOf_shape hd
  have hdy : 0 < h.dy ∧ h.dy ≤ h.py := by omega
  have hL := layersOf_length (plain := rows) (py := h.py.toNat) (dy := h.dy.toNat) (by omega) (by omega)
  refine ⟨by omega, by omega, by omega, by omega, ?_, by omega, ?_, rfl, ?_, ?_⟩
  · have : ((layersOf h.py.toNat h.dy.toNat rows).length : Int) * (h.dy.toNat : Int) ≤ (h.py.toNat : Int) := by
      exact_mod_cast hL.2
    rw [Int.toNat_of_nonneg (by omega), Int.toNat_of_nonneg (by omega)] at this
    exact this
  · intro r hr; have := hsh.2 r hr; omega
  · intro l hl
    refine ⟨by have := layersOf_rows (by omega) hsh.1 l hl; omega, ?_⟩
    intro r hr
    have := hsh.2 r (layersOf_mem hl hr); omega
  · rw [List.getElem?_eq_getElem (by omega)]; simp

example : ∃ c, Success env0 sampleRX c := let ⟨c, h, _⟩ := sampleRX_ok; ⟨c, h⟩

/-! ### failed parses -/

theorem ret_cases {E : Env} {input : Bytes} {c : Composite} {err : Option Err}
    (h : NewComposite E input = .ret c err) :
    (Success E input c ∧ (err = none ∨ err = some .unknownUnit)) ∨
      (Blank c ∧ ∃ e, err = some e ∧ e ≠ .unknownUnit) := by
  have hc := newComposite_cases E input
  have h' : (newCompositeRest E input).1 = .ret c err := h
  generalize newCompositeRest E input = r at *
  cases hc with
  | header h1 e c' hb he =>
    simp only [Outcome.ret.injEq] at h'; obtain ⟨rfl, rfl⟩ := h'
    exact Or.inr ⟨hb, e, rfl, he⟩
  | zero c' rest h1 hz hb =>
    simp only [Outcome.ret.injEq] at h'; obtain ⟨rfl, rfl⟩ := h'
    exact Or.inr ⟨hb, _, rfl, by decide⟩
  | panic c' rest h1 hz ha => simp at h'
  | data c' rest h1 ha hd e c'' hb he =>
    simp only [Outcome.ret.injEq] at h'; obtain ⟨rfl, rfl⟩ := h'
    exact Or.inr ⟨hb, e, rfl, he⟩
  | ok c' rest h1 ha rows rest' hd =>
    simp only [Outcome.ret.injEq] at h'
    obtain ⟨rfl, rfl⟩ := h'
    refine Or.inl ⟨?_, ?_⟩
    · exact parsed_iff.mpr ⟨c', rest, rows, rest', h1, ha, hd, rfl⟩
    · split <;> simp

/-- C04. A failed parse exposes no data: no layer, no projection, NaN at every point. -/
theorem C04_failed_parse {E : Env} {input : Bytes} {c : Composite} {e : Err}
    (h : NewComposite E input = .ret c (some e)) (he : e ≠ .unknownUnit) :
    c.dz = 0 ∧ c.dataZ = [] ∧ c.data = [] ∧ c.hasProjection = false ∧
    (∀ x y z, c.AtZ x y z = some .nan) ∧ (∀ x y, c.At x y = some .nan) ∧
    (∀ north east, c.Project E north east = (.nan, .nan)) := by
  rcases ret_cases h with ⟨_, h1 | h1⟩ | ⟨hb, _⟩
  · simp at h1
  · simp at h1; exact absurd h1 he
  · have hz : ∀ x y z, c.AtZ x y z = some .nan := by
      intro x y z
      unfold Composite.AtZ
      rw [if_pos (by rw [hb.dz]; omega)]
    refine ⟨hb.dz, hb.dataZ, hb.data, hb.proj, hz, fun x y => hz x y 0, ?_⟩
    intro n e
    unfold Composite.Project project
    rw [hb.proj]; rfl

/-- a truncated file -/
example : ∃ c e, NewComposite env0 (sampleRX.take 50) = .ret c (some e) ∧ e ≠ .unknownUnit := by
  have : (match NewComposite env0 (sampleRX.take 50) with
    | .ret _ (some e) => decide (e ≠ Err.unknownUnit) | _ => false) = true := by decide +kernel
  split at this
  · rename_i c e h; exact ⟨c, e, h, of_decide_eq_true this⟩
  · simp at this

/-! ### point queries -/

theorem dummy_dz (E : Env) (p : Bytes) (f dx dy : Int) : (NewDummy E p f dx dy).dz = 0 := rfl

theorem AtZ_of_dz_zero {c : Composite} (h : c.dz = 0) (x y z : Int) : c.AtZ x y z = some .nan := by
  unfold Composite.AtZ
  rw [if_pos (by omega)]

theorem voxel_of_success {E : Env} {input : Bytes} {c : Composite} (h : Success E input c)
    {x y z : Int} (hx : 0 ≤ x ∧ x < c.dx) (hy : 0 ≤ y ∧ y < c.dy) (hz : 0 ≤ z ∧ z < c.dz) :
    ∃ v, c.AtZ x y z = some v ∧ voxel c z.toNat y.toNat x.toNat = some v := by
  obtain ⟨h1, h2, h3, h4, h5, h6, h7, h8, h9, h10⟩ := C05_shape h
  unfold Composite.AtZ voxel
  rw [if_neg (by omega)]
  have i1 : z.toNat < c.dataZ.length := by omega
  have hl := h9 _ (List.getElem_mem i1)
  have i2 : y.toNat < (c.dataZ[z.toNat]).length := by omega
  have hr := hl.2 _ (List.getElem_mem i2)
  have i3 : x.toNat < (c.dataZ[z.toNat][y.toNat]).length := by omega
  refine ⟨c.dataZ[z.toNat][y.toNat][x.toNat], ?_, ?_⟩
  · unfold index?
    simp [hz.1, hy.1, hx.1, i1, i2, i3]
  · simp [i1, i2, i3]

/-- C01. `At` and `AtZ` never panic on a composite handed out by the API, whatever the coordinates. -/
theorem C01_point_queries_total {E : Env} {c : Composite} (h : Held E c) (x y z : Int) :
    (c.AtZ x y z).isSome ∧ (c.At x y).isSome := by
  have key : ∀ z, (c.AtZ x y z).isSome := by
    intro z
    cases h with
    | dummy p f dx dy => rw [AtZ_of_dz_zero (dummy_dz E p f dx dy)]; rfl
    | parsed input c err h =>
      rcases ret_cases h with ⟨hs, _⟩ | ⟨hb, _⟩
      · by_cases hin : (0 ≤ x ∧ x < c.dx) ∧ (0 ≤ y ∧ y < c.dy) ∧ (0 ≤ z ∧ z < c.dz)
        · obtain ⟨v, hv, _⟩ := voxel_of_success hs hin.1 hin.2.1 hin.2.2
          rw [hv]; rfl
        · unfold Composite.AtZ
          rw [if_pos (by omega)]; rfl
      · rw [AtZ_of_dz_zero hb.dz]; rfl
  exact ⟨key z, key 0⟩

example : ∃ c, Held env0 c ∧ 1 ≤ c.dz := by
  obtain ⟨c, h, _⟩ := sampleRX_ok
  refine ⟨c, ?_, (C05_shape h).2.2.1⟩
  rcases h with h | h
  · exact .parsed _ _ _ h
  · exact .parsed _ _ _ h

/-- C02. Outside the volume `AtZ` is NaN, `At` is layer 0, and inside the volume of a parsed composite
`AtZ(x,y,z)` is `DataZ[z][y][x]` and `At(x,y)` is `Data[y][x]`. -/
theorem C02_outside_nan (E : Env) (c : Composite) :
    (∀ x y z : Int, (x < 0 ∨ y < 0 ∨ z < 0 ∨ c.dx ≤ x ∨ c.dy ≤ y ∨ c.dz ≤ z) → c.AtZ x y z = some .nan) ∧
    (∀ x y, c.At x y = c.AtZ x y 0) ∧
    (∀ input, Success E input c → ∀ x y z : Nat, (x : Int) < c.dx → (y : Int) < c.dy → (z : Int) < c.dz →
      ∃ v, c.AtZ x y z = some v ∧ voxel c z y x = some v) ∧
    (∀ input, Success E input c → ∀ x y : Nat, (x : Int) < c.dx → (y : Int) < c.dy →
      ∃ v, c.At x y = some v ∧ pixel c y x = some v) := by
  refine ⟨?_, fun _ _ => rfl, ?_, ?_⟩
  · intro x y z h
    unfold Composite.AtZ
    rw [if_pos h]
  · intro input h x y z hx hy hz
    have := voxel_of_success h (x := x) (y := y) (z := z) ⟨by omega, hx⟩ ⟨by omega, hy⟩ ⟨by omega, hz⟩
    simpa using this
  · intro input h x y hx hy
    have hz := (C05_shape h).2.2.1
    have h0 := (C05_shape h).2.2.2.2.2.2.2.2.2
    obtain ⟨v, h1, h2⟩ := voxel_of_success h (x := x) (y := y) (z := 0) ⟨by omega, hx⟩ ⟨by omega, hy⟩ ⟨by omega, by omega⟩
    refine ⟨v, h1, ?_⟩
    unfold voxel at h2
    simp only [Int.toNat_zero, Int.toNat_natCast, h0, Option.bind_some] at h2
    exact h2

/-! ### panics -/

/-- C03. NewComposite panics exactly when the header parses and declares non-zero plain dimensions one of
which is negative or too large for `make` (2^48 bytes of 4-byte values or 24-byte slice headers). -/
theorem C03_panic_iff (E : Env) (input : Bytes) :
    NewComposite E input = .panic ↔
      ∃ rest c, parseHeader E input Composite.zero = .ok rest c ∧ c.px ≠ 0 ∧ c.py ≠ 0 ∧
        (c.px < 0 ∨ c.py < 0 ∨ 2 ^ 48 < c.px * 4 ∨ 2 ^ 48 < c.py * 24) := by
  have hc := newComposite_cases E input
  have hp := parseHeader_eq E input
  unfold NewComposite
  constructor
  · intro h
    generalize newCompositeRest E input = r at *
    cases hc with
    | panic c rest h1 hz ha =>
      rw [h1] at hp
      refine ⟨rest, c, hp.1, by omega, by omega, ?_⟩
      unfold AllocOK at ha; omega
    | _ => simp at h
  · rintro ⟨rest, c, hh, h1, h2, h3⟩
    cases hho : headerOf E input with
    | none =>
      rw [hho] at hp
      obtain ⟨e, c', he, _⟩ := hp
      rw [hh] at he; simp at he
    | some q =>
      obtain ⟨c', rest'⟩ := q
      rw [hho] at hp
      simp only at hp
      rw [hh] at hp
      simp only [PRes.ok.injEq] at hp
      obtain ⟨⟨rfl, rfl⟩, _⟩ := hp
      generalize newCompositeRest E input = r at *
      cases hc with
      | panic => rfl
      | header h => rw [hho] at h; simp at h
      | zero c' rest' h hz => rw [hho] at h; simp at h; obtain ⟨rfl, rfl⟩ := h; omega
      | data c' rest' h ha =>
        rw [hho] at h; simp at h; obtain ⟨rfl, rfl⟩ := h
        unfold AllocOK at ha; omega
      | ok c' rest' h ha =>
        rw [hho] at h; simp at h; obtain ⟨rfl, rfl⟩ := h
        unfold AllocOK at ha; omega

/-- Non-vacuity of C03 and refutation of "NewComposite never panics": the header `GP -1x 5`. -/
theorem C03_panic_witness : NewComposite env0 sampleNeg = .panic := by
  have : (match NewComposite env0 sampleNeg with | .panic => true | _ => false) = true := by decide +kernel
  split at this
  · assumption
  · simp at this

/-! ### layers -/

/-- C06. Every voxel is a plain data element; all layers are consecutive blocks of `Dy` plain rows if `Py` is
a multiple of `Dy`, and otherwise there is one layer, the bottom `Dy` plain rows. -/
theorem C06_layers {E : Env} {input : Bytes} {c : Composite} (hS : Success E input c) :
    (c.py % c.dy = 0 → c.dz = c.py / c.dy ∧
      ∀ x y z : Nat, (y : Int) < c.dy → voxel c z y x = plain c ((c.dy * z + y).toNat) x) ∧
    (c.py % c.dy ≠ 0 → c.dz = 1 ∧
      ∀ x y : Nat, (y : Int) < c.dy → voxel c 0 y x = plain c ((c.py - c.dy + y).toNat) x) := by
  obtain ⟨h, rest, rows, rest', hh, ⟨ha1, ha2, ha3, ha4⟩, hd, rfl⟩ := parsed_iff.mp hS
  obtain ⟨_, _, _, _, _, f1, f2, f3, f4, f5, f6, f7, f8, _⟩ := finish_fields E h rows
  unfold voxel plain
  rw [f1, f3, f5, f6, f7]
  have hdim := header_dims hh
  have hsh := dataOf_shape hd
  obtain ⟨dy, hdy⟩ : ∃ n : Nat, h.dy = n := ⟨h.dy.toNat, by omega⟩
  obtain ⟨py, hpy⟩ : ∃ n : Nat, h.py = n := ⟨h.py.toNat, by omega⟩
  rw [hdy, hpy] at hdim ⊢
  rw [hpy] at ha3 ha4 hsh
  simp only [Int.toNat_natCast] at hsh ⊢
  have hmod : ((py : Int) % (dy : Int) = 0) ↔ py % dy = 0 := by
    rw [← Int.natCast_emod]; exact_mod_cast Iff.rfl
  constructor
  · intro hm
    rw [hmod] at hm
    unfold layersOf
    rw [if_pos hm]
    refine ⟨by simp, ?_⟩
    intro x y z hy
    have e : ((dy : Int) * z + y).toNat = dy * z + y := by
      rw [← Int.natCast_mul, ← Int.natCast_add]; rfl
    rw [e]
    by_cases hz : z < py / dy
    · rw [List.getElem?_map, List.getElem?_range hz]
      simp only [Option.map_some, Option.bind_some, List.getElem?_take, List.getElem?_drop]
      rw [if_pos (by omega)]
    · have hn : ((List.range (py / dy)).map fun i => (rows.drop (dy * i)).take dy)[z]? = none := by
        rw [List.getElem?_eq_none]; simp; omega
      rw [hn]
      have : py ≤ dy * z + y := by
        have h1 : dy * (py / dy) ≤ dy * z := Nat.mul_le_mul_left _ (by omega)
        rw [Nat.mul_div_cancel' (Nat.dvd_of_mod_eq_zero hm)] at h1
        omega
      rw [List.getElem?_eq_none (by omega)]; rfl
  · intro hm
    have hm' : ¬ py % dy = 0 := fun h => hm (hmod.mpr h)
    unfold layersOf
    rw [if_neg hm']
    refine ⟨by simp, ?_⟩
    intro x y hy
    have e : ((py : Int) - dy + y).toNat = py - dy + y := by omega
    rw [e]
    simp

/-- C06, header-dimensioned composites: exactly one layer, equal to the plain data. -/
theorem C06_single_layer {E : Env} {input : Bytes} {c : Composite} (hS : Success E input c)
    (hd : c.dy = c.py) : c.dz = 1 ∧ c.dataZ = [c.plainData] ∧ c.data = c.plainData := by
  obtain ⟨h, rest, rows, rest', hh, ⟨ha1, ha2, ha3, ha4⟩, hdat, rfl⟩ := parsed_iff.mp hS
  obtain ⟨_, _, _, _, _, f1, f2, f3, f4, f5, f6, f7, f8, _⟩ := finish_fields E h rows
  rw [f3, f5] at hd
  rw [f1, f6, f7, f8]
  have hsh := dataOf_shape hdat
  have hL : layersOf h.py.toNat h.dy.toNat rows = [rows] := by
    unfold layersOf
    rw [hd, if_pos (Nat.mod_self _), Nat.div_self (by omega)]
    simp [hsh.1]
  rw [hL]; simp

/-- C06, catalogued local products: the 224-row products drop their first 24 rows, the 2400-row products have
twelve layers of 200 rows. -/
theorem C06_catalog_layers {E : Env} {input : Bytes} {c : Composite} (hS : Success E input c)
    (hd : c.dy ≠ c.py) : c.dx = 200 ∧ c.dy = 200 ∧
    ((c.py = 224 ∧ c.dz = 1 ∧ c.dataZ = [c.plainData.drop 24]) ∨
     (c.py = 2400 ∧ c.dz = 12 ∧ ∀ z : Nat, z < 12 → c.dataZ[z]? = some ((c.plainData.drop (200 * z)).take 200))) := by
  obtain ⟨h, rest, rows, rest', hh, ⟨ha1, ha2, ha3, ha4⟩, hdat, rfl⟩ := parsed_iff.mp hS
  obtain ⟨_, _, _, _, _, f1, f2, f3, f4, f5, f6, f7, f8, _⟩ := finish_fields E h rows
  rw [f3, f5] at hd
  rw [f1, f3, f4, f5, f6, f7]
  have hdim := header_dims hh
  have hsh := dataOf_shape hdat
  rcases hdim with ⟨e1, e2 | ⟨e2, e3, e4⟩⟩
  · exact absurd e2 hd
  · refine ⟨by omega, e2, ?_⟩
    rw [e2]
    rcases e3 with e3 | e3
    · left
      refine ⟨e3, ?_⟩
      rw [e3]
      simp [layersOf]
    · right
      refine ⟨e3, ?_⟩
      rw [e3]
      unfold layersOf
      refine ⟨by simp, ?_⟩
      intro z hz
      simp only [show (2400 : Int).toNat = 2400 from rfl, show (200 : Int).toNat = 200 from rfl]
      rw [if_pos (by norm_num), List.getElem?_map, List.getElem?_range (by omega)]
      rfl

/-! ### units -/

/-- C26. `DataUnit.String()` indexes a table of five names; it never panics on a composite handed out by the
API. -/
theorem C26_unit_string_total {E : Env} {c : Composite} (h : Held E c) :
    (unitString c.dataUnit).isSome := by
  have key : 0 ≤ c.dataUnit ∧ c.dataUnit ≤ 4 := by
    cases h with
    | dummy p f dx dy => exact (by decide : (0 : Int) ≤ 0 ∧ (0 : Int) ≤ 4)
    | parsed input c err h =>
      rcases ret_cases h with ⟨hs, _⟩ | ⟨hb, _⟩
      · obtain ⟨hc, rest, rows, rest', hh, _, hdat, rfl⟩ := parsed_iff.mp hs
        obtain ⟨_, _, _, _, _, hf, _⟩ := headerOf_some hh
        show 0 ≤ hc.dataUnit ∧ hc.dataUnit ≤ 4
        rw [hf.unit]; exact unitCatalog_range _
      · exact hb.unit
  generalize c.dataUnit = u at *
  have : u = 0 ∨ u = 1 ∨ u = 2 ∨ u = 3 ∨ u = 4 := by omega
  rcases this with rfl | rfl | rfl | rfl | rfl <;> rfl

end Props
