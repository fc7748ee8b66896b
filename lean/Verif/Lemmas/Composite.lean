/- NewComposite as a case distinction on the pure header and data functions. -/
import Verif.Lemmas.Data

namespace Radolan
open Go

/-- plain dimensions `make` accepts -/
def AllocOK (c : Composite) : Prop :=
  0 < c.px ∧ c.px * 4 ≤ 2 ^ 48 ∧ 0 < c.py ∧ c.py * 24 ≤ 2 ^ 48

instance (c : Composite) : Decidable (AllocOK c) := by unfold AllocOK; infer_instance

/-- the composite built from a parsed header and its plain data, before calibration -/
def arranged (c : Composite) (rows : List (List F32)) : Composite :=
  { c with
    plainData := rows
    dataZ := layersOf c.py.toNat c.dy.toNat rows
    dz := (layersOf c.py.toNat c.dy.toNat rows).length
    data := ((layersOf c.py.toNat c.dy.toNat rows)[0]?).getD [] }

/-- the composite NewComposite returns for a parsed header and plain data -/
def finish (E : Env) (c : Composite) (rows : List (List F32)) : Composite :=
  calibrateProjection E (arranged c rows)

/-- where the dimensions come from -/
theorem dimsOf_cases {s : Section} {p : Bytes} {d : Dims} (h : dimsOf s p = some d) :
    (d.dx = d.px ∧ d.dy = d.py ∧ (-(2 ^ 63) ≤ d.px ∧ d.px < 2 ^ 63) ∧ (-(2 ^ 63) ≤ d.py ∧ d.py < 2 ^ 63) ∧
      ((s.find (str "GP")).isSome ∨ (s.find (str "BG")).isSome)) ∨
    (s.find (str "GP") = none ∧ s.find (str "BG") = none ∧
      ∃ v, (p, v) ∈ dimensionCatalog ∧ d = ⟨v.px, v.py, v.dx, v.dy⟩) := by
  unfold dimsOf at h
  have hboth : ∀ {r : Option Int × Option Int} {q}, both r = some q → r = (some q.1, some q.2) := by
    intro r q hq
    obtain ⟨a, b⟩ := r
    cases a <;> cases b <;> simp_all [both]
    rw [← hq]; simp
  split at h
  · rename_i dim hg
    simp only [Option.map_eq_some_iff] at h
    obtain ⟨q, hq, rfl⟩ := h
    have hr := sscanfDxD_range (hboth hq)
    exact Or.inl ⟨rfl, rfl, hr.2, hr.1, Or.inl (by simp [hg])⟩
  · rename_i hg
    split at h
    · rename_i dim hbg
      simp only [Option.map_eq_some_iff] at h
      obtain ⟨q, hq, rfl⟩ := h
      have hr := sscanf3D3D_range (hboth hq)
      exact Or.inl ⟨rfl, rfl, hr.2, hr.1, Or.inr (by simp [hbg])⟩
    · rename_i hbg
      simp only [Option.map_eq_some_iff] at h
      obtain ⟨v, hv, rfl⟩ := h
      refine Or.inr ⟨hg, hbg, v, ?_, rfl⟩
      rw [List.lookup_eq_some_iff] at hv
      obtain ⟨l1, l2, hl, _⟩ := hv
      rw [hl]; simp

theorem catalog_dims : ∀ q ∈ dimensionCatalog, q.2.dx = q.2.px ∧ q.2.px = 200 ∧ q.2.dy = 200 ∧
    (q.2.py = 224 ∨ q.2.py = 2400) := by decide

/-- relations between the dimensions of any parsed header -/
theorem header_dims {E : Env} {input rest : Bytes} {c : Composite}
    (h : headerOf E input = some (c, rest)) : c.dx = c.px ∧ (c.dy = c.py ∨ (c.dy = 200 ∧ (c.py = 224 ∨ c.py = 2400) ∧ c.px = 200)) := by
  obtain ⟨header, s, _, _, _, hf, _⟩ := headerOf_some h
  rcases dimsOf_cases hf.dims with ⟨h1, h2, _⟩ | ⟨_, _, v, hv, hd⟩
  · exact ⟨h1, Or.inl h2⟩
  · have := catalog_dims _ hv
    simp only [Dims.mk.injEq] at hd
    simp only at this
    refine ⟨by omega, Or.inr ⟨by omega, by omega, by omega⟩⟩

theorem header_dims_range {E : Env} {input rest : Bytes} {c : Composite}
    (h : headerOf E input = some (c, rest)) :
    (-(2 ^ 63) ≤ c.px ∧ c.px < 2 ^ 63) ∧ (-(2 ^ 63) ≤ c.py ∧ c.py < 2 ^ 63) := by
  obtain ⟨header, s, _, _, _, hf, _⟩ := headerOf_some h
  rcases dimsOf_cases hf.dims with ⟨h1, h2, h3, h4, _⟩ | ⟨_, _, v, hv, hd⟩
  · exact ⟨h3, h4⟩
  · have := catalog_dims _ hv
    simp only [Dims.mk.injEq] at hd
    simp only at this
    omega

/-- what NewComposite does -/
inductive Cases (E : Env) (input : Bytes) : Outcome × Bytes → Prop
  | header (h : headerOf E input = none) (e : Err) (c : Composite) (hb : Blank c) (he : e ≠ .unknownUnit) :
      Cases E input (.ret c (some e), [])
  | zero (c : Composite) (rest : Bytes) (h : headerOf E input = some (c, rest)) (hz : c.px = 0 ∨ c.py = 0)
      (hb : Blank c) : Cases E input (.ret c (some .headerRequired), [])
  | panic (c : Composite) (rest : Bytes) (h : headerOf E input = some (c, rest))
      (hz : ¬ (c.px = 0 ∨ c.py = 0)) (ha : ¬ AllocOK c) : Cases E input (.panic, [])
  | data (c : Composite) (rest : Bytes) (h : headerOf E input = some (c, rest)) (ha : AllocOK c)
      (hd : dataOf c rest = none) (e : Err) (c' : Composite) (hb : Blank c') (he : e ≠ .unknownUnit) :
      Cases E input (.ret c' (some e), [])
  | ok (c : Composite) (rest : Bytes) (h : headerOf E input = some (c, rest)) (ha : AllocOK c)
      (rows : List (List F32)) (rest' : Bytes) (hd : dataOf c rest = some (rows, rest')) :
      Cases E input
        (.ret (finish E c rows) (if c.dataUnit = Unit_unknown then some .unknownUnit else none), rest')

theorem newComposite_cases (E : Env) (input : Bytes) : Cases E input (newCompositeRest E input) := by
  have hp := parseHeader_eq E input
  unfold newCompositeRest newCompositeM
  cases hh : headerOf E input with
  | none =>
    rw [hh] at hp
    obtain ⟨e, c, he, hb, hu⟩ := hp
    rw [M.bind_err he]
    exact .header hh e c hb hu
  | some q =>
    obtain ⟨c, rest⟩ := q
    rw [hh] at hp
    obtain ⟨he, hb⟩ := hp
    rw [M.bind_ok he]
    by_cases hz : c.px = 0 ∨ c.py = 0
    · rw [M.bind_err (parseData_zero c rest hz)]
      exact .zero c rest hh hz hb
    · by_cases ha : AllocOK c
      · have hdims := header_dims hh
        have hD : DimsOK c := ⟨⟨ha.1, ha.2.1⟩, ⟨ha.2.2.1, ha.2.2.2⟩, hdims.1⟩
        have hpd := parseData_eq c rest hb hD
        unfold StageV at hpd
        cases hdat : dataOf c rest with
        | none =>
          rw [hdat] at hpd
          obtain ⟨e, c', he', hb', hu⟩ := hpd
          rw [M.bind_err he']
          exact .data c rest hh ha hdat e c' hb' hu
        | some q =>
          obtain ⟨rows, rest'⟩ := q
          rw [hdat] at hpd
          obtain ⟨he', hb'⟩ := hpd
          simp only at he'
          rw [M.bind_ok he']
          have hsh := dataOf_shape hdat
          obtain ⟨p1, p2, p3, p4⟩ := ha
          have har := (arrangeData_eq { c with plainData := rows } (by simp only; omega) (by simp only; omega) p4 hsh.1).1
          rw [M.bind_ok har]
          exact .ok c rest hh ⟨p1, p2, p3, p4⟩ rows rest' hdat
      · rw [M.bind_panic (parseData_panic c rest hz ha)]
        exact .panic c rest hh hz ha

/-- success of NewComposite, with or without the unknown unit warning -/
def Parsed (E : Env) (input : Bytes) (c : Composite) : Prop :=
  NewComposite E input = .ret c none ∨ NewComposite E input = .ret c (some .unknownUnit)

theorem parsed_iff {E : Env} {input : Bytes} {c : Composite} :
    Parsed E input c ↔ ∃ h rest rows rest', headerOf E input = some (h, rest) ∧ AllocOK h ∧
      dataOf h rest = some (rows, rest') ∧ c = finish E h rows := by
  have hc := newComposite_cases E input
  unfold Parsed NewComposite
  constructor
  · intro hp
    generalize newCompositeRest E input = r at *
    cases hc with
    | header h e c' hb he => simp at hp; exact absurd hp.2 he
    | zero c' rest h hz hb => simp at hp
    | panic c' rest h hz ha => simp at hp
    | data c' rest h ha hd e c'' hb he => simp at hp; exact absurd hp.2 he
    | ok c' rest h ha rows rest' hd =>
      refine ⟨c', rest, rows, rest', h, ha, hd, ?_⟩
      rcases hp with hp | hp
      · simp only [Outcome.ret.injEq] at hp; exact hp.1.symm
      · simp only [Outcome.ret.injEq] at hp; exact hp.1.symm
  · rintro ⟨h, rest, rows, rest', hh, ha, hd, rfl⟩
    generalize newCompositeRest E input = r at *
    cases hc with
    | header h' e c' hb he => rw [hh] at h'; simp at h'
    | zero c' rest2 h' hz hb =>
      rw [hh] at h'; simp at h'; obtain ⟨rfl, rfl⟩ := h'
      obtain ⟨a, b, c, d⟩ := ha; omega
    | panic c' rest2 h' hz ha' =>
      rw [hh] at h'; simp at h'; obtain ⟨rfl, rfl⟩ := h'; exact absurd ha ha'
    | data c' rest2 h' ha' hd' e c'' hb he =>
      rw [hh] at h'; simp at h'; obtain ⟨rfl, rfl⟩ := h'; rw [hd] at hd'; simp at hd'
    | ok c' rest2 h' ha' rows' rest2' hd' =>
      rw [hh] at h'; simp at h'; obtain ⟨rfl, rfl⟩ := h'
      rw [hd] at hd'; simp at hd'; obtain ⟨rfl, rfl⟩ := hd'
      simp only [Outcome.ret.injEq, true_and]
      split <;> simp

/-- calibration leaves all but the projection fields alone -/
theorem finish_fields (E : Env) (c : Composite) (rows : List (List F32)) :
    (finish E c rows).product = c.product ∧ (finish E c rows).captureTime = c.captureTime ∧
    (finish E c rows).forecastTime = c.forecastTime ∧ (finish E c rows).interval = c.interval ∧
    (finish E c rows).dataUnit = c.dataUnit ∧ (finish E c rows).plainData = rows ∧
    (finish E c rows).px = c.px ∧ (finish E c rows).py = c.py ∧
    (finish E c rows).dx = c.dx ∧ (finish E c rows).dy = c.dy ∧
    (finish E c rows).dataZ = layersOf c.py.toNat c.dy.toNat rows ∧
    (finish E c rows).dz = (layersOf c.py.toNat c.dy.toNat rows).length ∧
    (finish E c rows).data = ((layersOf c.py.toNat c.dy.toNat rows)[0]?).getD [] ∧
    (finish E c rows).format = c.format ∧ (finish E c rows).precision = c.precision ∧
    (finish E c rows).level = c.level ∧ (finish E c rows).dataLength = c.dataLength := by
  refine ⟨rfl, rfl, rfl, rfl, rfl, rfl, rfl, rfl, rfl, rfl, rfl, rfl, rfl, rfl, rfl, rfl, rfl⟩

end Radolan
