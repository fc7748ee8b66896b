/-
C11, C12, C13, C14: run-length coded composites, order of rows.
-/
import Verif.Lemmas.Runlength
import Verif.Props.Pixels

namespace Props
open Go Radolan Spec

/-- an accepted header, combined with any data section -/
theorem success_swap {E : Env} {fs : List Field} {data0 : Bytes} {c0 : Composite} (hw : ∀ f ∈ fs, f.WF)
    (hS : Success E (file fs data0) c0) :
    ∃ h, AllocOK h ∧ HeaderFields E (header fs ++ [3]) (pairs fs).reverse h ∧ (∃ rows0, c0 = finish E h rows0) ∧
      (∀ data, headerOf E (file fs data) = some (h, data)) ∧
      ∀ data c, Success E (file fs data) c ↔ ∃ rows rest, dataOf h data = some (rows, rest) ∧ c = finish E h rows := by
  obtain ⟨h, rows, rest', hh, ha, hd, hc, hf, _⟩ := success_fields hw hS
  have hall : ∀ data, headerOf E (file fs data) = some (h, data) := by
    intro data
    obtain ⟨p, e1, e2, _⟩ := headerOf_local E _ _ _ hh
    have : p = header fs ++ [3] := by
      unfold file at e1
      exact (List.append_cancel_right e1).symm
    rw [← e2 data, this]; rfl
  refine ⟨h, ha, hf, ⟨rows, hc⟩, hall, fun data c => ?_⟩
  constructor
  · intro hS'
    obtain ⟨h', rest, rows', rest'', hh', ha', hd', hc'⟩ := parsed_iff.mp hS'
    rw [hall data] at hh'
    simp only [Option.some.injEq, Prod.mk.injEq] at hh'
    obtain ⟨rfl, rfl⟩ := hh'
    exact ⟨rows', rest'', hd', hc'⟩
  · rintro ⟨rows', rest'', hd', hc'⟩
    exact parsed_iff.mpr ⟨h, data, rows', rest'', hall data, ha, hd', hc'⟩

theorem level_some {E : Env} {fs : List Field} {h : Composite} {v : Bytes}
    (hf : HeaderFields E (header fs ++ [3]) (pairs fs).reverse h) (hLV : value fs (str "LV") = some v) :
    ∃ l, h.level = some l := by
  have h1 := hf.level
  unfold levelsOf at h1
  rw [find_pairs, hLV] at h1
  simp only [Option.map_eq_some_iff] at h1
  obtain ⟨l, _, hl⟩ := h1
  exact ⟨l, hl.symm⟩

theorem dataOf_level {h : Composite} {l : List F32} (hl : h.level = some l) (b : Bytes) :
    dataOf h b = rowsFrom (rowRL l h.px.toNat) h.py.toNat b := by
  unfold dataOf identifyEncoding
  rw [hl]; rfl

theorem decodes_row {levels : List F32} {w : Nat} {l : Bytes} {vals : List F32} (h : Decodes levels w l vals) :
    ∃ cs, vals = row levels w cs := by
  rcases h with ⟨_, rfl⟩ | ⟨gap, runs, _, _, rfl⟩
  exacts [⟨_, rfl⟩, ⟨_, rfl⟩]

theorem row_values {levels : List F32} {w : Nat} {cs : List Nat} : ∀ v ∈ row levels w cs, v = .nan ∨ v ∈ levels := by
  intro v hv
  unfold row at hv
  rw [List.mem_map] at hv
  obtain ⟨i, _, rfl⟩ := hv
  unfold classValue
  split
  · exact Or.inl rfl
  · cases h : levels[(cs[i]?).getD 0 - 1]? with
    | none => exact Or.inl rfl
    | some v => exact Or.inr (List.mem_of_getElem? h)

/-- C12, C13. A successfully parsed file with a level table consists of line feed terminated lines, one per row from
top to bottom; row i is what line i means. Each row has Px values, each missing or one of the levels. -/
theorem C12_lines {E : Env} {fs : List Field} {data : Bytes} {c : Composite} {v : Bytes} (hw : ∀ f ∈ fs, f.WF)
    (hS : Success E (file fs data) c) (hLV : value fs (str "LV") = some v) :
    ∃ levels ls rest, c.level = some levels ∧ data = lines ls ++ rest ∧ (ls.length : Int) = c.py ∧
      (∀ l ∈ ls, (10 : UInt8) ∉ l) ∧ List.Forall₂ (Decodes levels c.px.toNat) ls c.plainData ∧
      ∀ row ∈ c.plainData, (row.length : Int) = c.px ∧ ∀ v ∈ row, v = .nan ∨ v ∈ levels := by
  obtain ⟨h, rows, rest', hh, ha, hd, rfl, hf, _⟩ := success_fields hw hS
  obtain ⟨l, hl⟩ := level_some hf hLV
  rw [dataOf_level hl] at hd
  obtain ⟨ls, h1, h2, h3, h4⟩ := rowsRL_iff.mp hd
  have e1 : (finish E h rows).px = h.px := rfl
  have e2 : (finish E h rows).py = h.py := rfl
  have e3 : (finish E h rows).plainData = rows := rfl
  have a1 := ha.1
  have a2 := ha.2.2.1
  refine ⟨l, ls, rest', hl, h2, by rw [e2]; omega, h3, h4, ?_⟩
  rw [e1, e3]
  intro r hr
  obtain ⟨i, hi, rfl⟩ := List.mem_iff_getElem.mp hr
  have hdec := h4.get (i := i) (by have := h4.length_eq; omega) hi
  obtain ⟨cs, hcs⟩ := decodes_row hdec
  constructor
  · have := row_length l h.px.toNat cs
    rw [← hcs] at this
    simp only [List.get_eq_getElem] at this
    omega
  · simp only [List.get_eq_getElem] at hcs
    rw [hcs]; exact row_values

/-- C12. With an accepted header declaring a level table, exactly those data sections are accepted whose first Py
lines are blank or consist of runs that fit into the row; all others (a run beyond the width, a bad offset byte,
a missing line) are errors. -/
theorem C12_accepted_iff {E : Env} {fs : List Field} {data0 : Bytes} {c0 : Composite} {v : Bytes}
    (hw : ∀ f ∈ fs, f.WF) (hS : Success E (file fs data0) c0) (hLV : value fs (str "LV") = some v) (data : Bytes) :
    ((∃ c, Success E (file fs data) c) ↔ ∃ ls rest, data = lines ls ++ rest ∧ (ls.length : Int) = c0.py ∧
      ∀ l ∈ ls, (10 : UInt8) ∉ l ∧ (BlankLine l ∨ ∃ gap runs, RunLine l gap runs ∧ Fits c0.px.toNat gap runs)) ∧
    ((¬ ∃ c, Success E (file fs data) c) →
      ∃ c e, NewComposite E (file fs data) = .ret c (some e) ∧ e ≠ .unknownUnit) := by
  obtain ⟨h, ha, hf, ⟨rows0, rfl⟩, hh, hiff⟩ := success_swap hw hS
  obtain ⟨lv, hl⟩ := level_some hf hLV
  have a2 := ha.2.2.1
  have e1 : (finish E h rows0).px = h.px := rfl
  have e2 : (finish E h rows0).py = h.py := rfl
  rw [e1, e2]
  constructor
  · constructor
    · rintro ⟨c, hc⟩
      obtain ⟨rows, rest, hd, _⟩ := (hiff data c).mp hc
      rw [dataOf_level hl] at hd
      obtain ⟨ls, h1, h2, h3, h4⟩ := rowsRL_iff.mp hd
      refine ⟨ls, rest, h2, by omega, fun l hlm => ⟨h3 l hlm, ?_⟩⟩
      obtain ⟨i, hi, rfl⟩ := List.mem_iff_getElem.mp hlm
      have := h4.get hi (by have := h4.length_eq; omega)
      rcases this with ⟨hb, _⟩ | ⟨gap, runs, hr, hfit, _⟩
      · exact Or.inl hb
      · exact Or.inr ⟨gap, runs, hr, hfit⟩
    · rintro ⟨ls, rest, rfl, h1, h2⟩
      have : ∃ rows, List.Forall₂ (Decodes lv h.px.toNat) ls rows := by
        clear h1
        induction ls with
        | nil => exact ⟨[], .nil⟩
        | cons l ls ih =>
          obtain ⟨rows, hr⟩ := ih (fun x hx => h2 x (by simp [hx]))
          rcases (h2 l (by simp)).2 with hb | ⟨gap, runs, hr', hfit⟩
          · exact ⟨_ :: rows, .cons (Or.inl ⟨hb, rfl⟩) hr⟩
          · exact ⟨_ :: rows, .cons (Or.inr ⟨gap, runs, hr', hfit, rfl⟩) hr⟩
      obtain ⟨rows, hr⟩ := this
      refine ⟨finish E h rows, (hiff _ _).mpr ⟨rows, rest, ?_, rfl⟩⟩
      rw [dataOf_level hl]
      exact rowsRL_iff.mpr ⟨ls, by omega, rfl, fun l hlm => (h2 l hlm).1, hr⟩
  · intro hn
    cases hd : dataOf h data with
    | none => exact err_of_data_none (hh data) ha hd
    | some q => exact absurd ⟨_, (hiff data _).mpr ⟨q.1, q.2, hd, rfl⟩⟩ hn

/-- C11. Round trip: given an accepted header with a level table, any code matrix encoded line by line in any valid
way (whatever line numbers, whatever way of splitting into gap and runs) parses to the levels of its codes. -/
theorem C11_any_encoding {E : Env} {fs : List Field} {data0 v : Bytes} {c0 : Composite} (hw : ∀ f ∈ fs, f.WF)
    (hS : Success E (file fs data0) c0) (hLV : value fs (str "LV") = some v)
    (rows : List (List Nat)) (hrows : (rows.length : Int) = c0.py) (hwidth : ∀ r ∈ rows, (r.length : Int) = c0.px)
    (ls : List Bytes)
    (hls : List.Forall₂ (fun l r => (10 : UInt8) ∉ l ∧ ∃ gap runs, RunLine l gap runs ∧ codes gap runs = r) ls rows)
    (tail : Bytes) :
    ∃ c levels, Success E (file fs (lines ls ++ tail)) c ∧ Levels v levels ∧
      c.plainData = rows.map (·.map (classValue levels)) ∧ c.px = c0.px ∧ c.py = c0.py ∧ c.level = some levels := by
  obtain ⟨l, hl, hn⟩ := C99_levels hw hS hLV
  obtain ⟨h, ha, hf, ⟨rows0, rfl⟩, hh, hiff⟩ := success_swap hw hS
  have hl' : h.level = some l := hl
  have e1 : (finish E h rows0).px = h.px := rfl
  have e2 : (finish E h rows0).py = h.py := rfl
  rw [e2] at hrows
  rw [e1] at hwidth
  refine ⟨finish E h (rows.map (·.map (classValue l))), l, (hiff _ _).mpr ⟨_, tail, ?_, rfl⟩, hn, rfl, rfl, rfl, hl'⟩
  rw [dataOf_level hl']
  refine rowsRL_iff.mpr ⟨ls, by have := hls.length_eq; omega, rfl, ?_, ?_⟩
  · intro x hx
    obtain ⟨i, hi, rfl⟩ := List.mem_iff_getElem.mp hx
    exact (hls.get hi (by have := hls.length_eq; omega)).1
  · clear hrows hS hiff
    induction hls with
    | nil => exact .nil
    | @cons a r as rs hd _ ih =>
      obtain ⟨_, gap, runs, hr, hcode⟩ := hd
      refine .cons (Or.inr ⟨gap, runs, hr, ?_, ?_⟩) (ih (fun x hx => hwidth x (by simp [hx])))
      · right
        rw [← codes_length, hcode]
        have := hwidth r (by simp)
        omega
      · rw [hcode, row_exact]
        have := hwidth r (by simp)
        omega

/-- C11. Round trip through the encoder `encodeLine`; the line number byte must not be a line feed. -/
theorem C11_round_trip {E : Env} {fs : List Field} {data0 v : Bytes} {c0 : Composite} (hw : ∀ f ∈ fs, f.WF)
    (hS : Success E (file fs data0) c0) (hLV : value fs (str "LV") = some v)
    (rows : List (List Nat)) (hrows : (rows.length : Int) = c0.py)
    (hwidth : ∀ r ∈ rows, (r.length : Int) = c0.px ∧ ∀ k ∈ r, k < 16)
    (nr : Nat → UInt8) (hnr : ∀ i, nr i ≠ 10) (tail : Bytes) :
    ∃ c levels, Success E (file fs (lines (rows.mapIdx fun i r => encodeLine (nr i) r) ++ tail)) c ∧
      Levels v levels ∧ c.plainData = rows.map (·.map (classValue levels)) ∧ c.level = some levels := by
  obtain ⟨c, levels, h1, h2, h3, _, _, h4⟩ := C11_any_encoding hw hS hLV rows hrows
    (fun r hr => (hwidth r hr).1) (rows.mapIdx fun i r => encodeLine (nr i) r) (by
      rw [List.forall₂_iff_get]
      refine ⟨by simp, fun i h1 h2 => ?_⟩
      simp only [List.get_eq_getElem, List.getElem_mapIdx]
      exact encodeLine_spec (hnr i) (hwidth _ (List.getElem_mem h2)).2) tail
  exact ⟨c, levels, h1, h2, h3, h4⟩

/-- a row as encoder input: leading gap, a run, a code beyond the table -/
example : ∃ c levels, Success env0 (file fieldsPC
    (lines ([[0, 0, 1, 1], [2, 2, 5, 0]].mapIdx fun i r => encodeLine (if i = 0 then 1 else 2) r) ++ [])) c ∧
    List.Forall₂ Nearest32 levels [1, 19] ∧
    c.plainData = [[0, 0, 1, 1], [2, 2, 5, 0]].map (·.map (classValue levels)) := by
  obtain ⟨c, h, h2⟩ := samplePC_ok
  rw [← fieldsPC_file] at h
  simp only [Bool.and_eq_true, beq_iff_eq] at h2
  obtain ⟨⟨d1, d2⟩, d4⟩ := h2
  obtain ⟨_, _, _, hp, _, hl, _⟩ := C05_shape h
  obtain ⟨c', levels, k1, k2, k3, k4⟩ := C11_round_trip (fs := fieldsPC) (v := str " 2  1.0 19.0") (by decide) h (by decide)
    [[0, 0, 1, 1], [2, 2, 5, 0]] (by rw [← hl, d4]; rfl)
    (by rw [← hp, d1]; decide) (fun i => if i = 0 then 1 else 2) (by intro i; split <;> decide) []
  obtain ⟨l, l1, _, l2⟩ := (C27_levels (by decide) k1).1 (str " 2") [str "  1.0", str " 19.0"] [1, 19] (by decide) (by decide)
    ⟨1, .none, [2], by decide, by decide, by decide, by decide, by decide, by decide⟩
    (.cons ⟨2, .none, [1], 0, by decide, by decide, by decide, by decide, by norm_num [decimal, Sign.apply]⟩
    (.cons ⟨1, .none, [1, 9], 0, by decide, by decide, by decide, by decide, by norm_num [decimal, Sign.apply]⟩ .nil))
  rw [k4] at l1
  obtain rfl : levels = l := by simpa using l1
  exact ⟨c', levels, k1, l2, k3⟩

/-! ### order of rows -/

/-- C13. Row order: with a level table plain row i is line i of the data section; without, plain row i is row
Py-1-i of the data section, that is, the rows are stored in reverse. -/
theorem C13_row_order {E : Env} {fs : List Field} {data : Bytes} {c : Composite} (hw : ∀ f ∈ fs, f.WF)
    (hS : Success E (file fs data) c) :
    (∀ v, value fs (str "LV") = some v → ∃ levels ls rest, c.level = some levels ∧ data = lines ls ++ rest ∧
      (∀ l ∈ ls, (10 : UInt8) ∉ l) ∧ List.Forall₂ (Decodes levels c.px.toNat) ls c.plainData) ∧
    (∀ v n p, value fs (str "LV") = none → value fs (str "BY") = some v → IsInt v n → Precision fs p →
      n - ((header fs).length + 1) = c.px * c.py →
      ∃ (rows : List Bytes) (rest : Bytes), data = rows.flatten ++ rest ∧ (∀ r ∈ rows, (r.length : Int) = c.px) ∧
        c.plainData.reverse = rows.map (·.map fun b => byteValue (decide (c.dataUnit = Unit.dBZ.code)) p b.toNat)) ∧
    (∀ v n p, value fs (str "LV") = none → value fs (str "BY") = some v → IsInt v n → Precision fs p →
      n - ((header fs).length + 1) = 2 * (c.px * c.py) →
      ∃ (rows : List (List (UInt8 × UInt8))) (rest : Bytes), data = (rows.flatten.flatMap fun q => [q.1, q.2]) ++ rest ∧
        (∀ r ∈ rows, (r.length : Int) = c.px) ∧
        c.plainData.reverse = rows.map (·.map fun q =>
          pairValue (decide (c.dataUnit = Unit.dBZ.code)) p q.1.toNat q.2.toNat)) := by
  refine ⟨?_, ?_, ?_⟩
  · intro v hLV
    obtain ⟨levels, ls, rest, h1, h2, _, h4, h5, _⟩ := C12_lines hw hS hLV
    exact ⟨levels, ls, rest, h1, h2, h4, h5⟩
  · intro v n p hLV hBY hn hp hlen
    obtain ⟨h, rows, rest', hh, ha, hd, rfl, hf, _⟩ := success_fields hw hS
    have e : identifyEncoding h = .singleByte :=
      single_of_length (level_none hf hLV) (dataLength_spec hf hBY hn) (px_pos ha) (isInt_range hn).2 (by omega) hlen
    unfold dataOf at hd
    rw [e] at hd
    simp only [Option.map_eq_some_iff, Prod.mk.injEq] at hd
    obtain ⟨⟨rs, b'⟩, hr, rfl, _⟩ := hd
    have a1 := ha.1
    have hgen : ∀ (n : Nat) (b : Bytes) (rs : List (List F32)) (b' : Bytes),
        rowsFrom (rowSB h.dataUnit h.precision h.px.toNat) n b = some (rs, b') →
        ∃ (rows : List Bytes), b = rows.flatten ++ b' ∧ (∀ r ∈ rows, (r.length : Int) = h.px) ∧
        rs = rows.map (·.map (rvp6SingleByte h.dataUnit h.precision)) := by
      intro n
      induction n with
      | zero => intro b rs b' hr; simp [rowsFrom] at hr; exact ⟨[], by simp [hr.2], by simp, by simp [hr.1]⟩
      | succ n ih =>
        intro b rs b' hr
        unfold rowsFrom at hr
        rw [rowSB_fixed] at hr
        split at hr
        · simp at hr
        · rename_i r b1 hr1
          split at hr1
          · rename_i hlb
            simp only [Option.some.injEq, Prod.mk.injEq] at hr1
            obtain ⟨rfl, rfl⟩ := hr1
            split at hr
            · simp at hr
            · rename_i rs' b'' hrs
              simp only [Option.some.injEq, Prod.mk.injEq] at hr
              obtain ⟨rfl, rfl⟩ := hr
              obtain ⟨rows, h1, h2, h3⟩ := ih _ _ _ hrs
              refine ⟨b.take h.px.toNat :: rows, ?_, ?_, ?_⟩
              · rw [List.flatten_cons, List.append_assoc, ← h1, List.take_append_drop]
              · intro r hx
                rcases List.mem_cons.mp hx with rfl | hx
                · rw [List.length_take]; omega
                · exact h2 r hx
              · rw [h3]; rfl
          · simp at hr1
    obtain ⟨rows, h1, h2, h3⟩ := hgen _ _ _ _ hr
    refine ⟨rows, b', h1, h2, ?_⟩
    show rs.reverse.reverse = _
    rw [List.reverse_reverse, h3]
    apply List.map_congr_left
    intro r _
    apply List.map_congr_left
    intro b _
    rw [byteValue_eq, precisionOf_spec hp hf.precision]; rfl
  · intro v n p hLV hBY hn hp hlen
    obtain ⟨h, rows, rest', hh, ha, hd, rfl, hf, _⟩ := success_fields hw hS
    have e : identifyEncoding h = .littleEndian :=
      pair_of_length (level_none hf hLV) (dataLength_spec hf hBY hn) (px_pos ha) (isInt_range hn).2 (by omega) hlen
    unfold dataOf at hd
    rw [e] at hd
    simp only [Option.map_eq_some_iff, Prod.mk.injEq] at hd
    obtain ⟨⟨rs, b'⟩, hr, rfl, _⟩ := hd
    have a1 := ha.1
    have hpairs : ∀ (m : Nat) (l : Bytes), l.length = m * 2 → ∃ r : List (UInt8 × UInt8), r.length = m ∧
        l = (r.flatMap fun q => [q.1, q.2]) ∧
        decodePairs h.dataUnit h.precision l = r.map fun q => rvp6LittleEndian h.dataUnit h.precision q.1 q.2 := by
      intro m
      induction m with
      | zero => intro l hl; have hz : l = [] := List.length_eq_zero_iff.mp (by omega); rw [hz]; exact ⟨[], rfl, rfl, rfl⟩
      | succ m ih =>
        intro l hl
        match l, hl with
        | [a], hl => simp at hl; omega
        | a :: b :: t, hl =>
          obtain ⟨r, g1, g2, g3⟩ := ih t (by simp at hl; omega)
          exact ⟨(a, b) :: r, by simp [g1], by rw [List.flatMap_cons, ← g2]; rfl, by simp [decodePairs, g3]⟩
    have hgen : ∀ (n : Nat) (b : Bytes) (rs : List (List F32)) (b' : Bytes),
        rowsFrom (rowLE h.dataUnit h.precision h.px.toNat) n b = some (rs, b') →
        ∃ (rows : List (List (UInt8 × UInt8))), b = (rows.flatten.flatMap fun q => [q.1, q.2]) ++ b' ∧
          (∀ r ∈ rows, (r.length : Int) = h.px) ∧
        rs = rows.map (·.map fun q => rvp6LittleEndian h.dataUnit h.precision q.1 q.2) := by
      intro n
      induction n with
      | zero => intro b rs b' hr; simp [rowsFrom] at hr; exact ⟨[], by simp [hr.2], by simp, by simp [hr.1]⟩
      | succ n ih =>
        intro b rs b' hr
        unfold rowsFrom at hr
        rw [rowLE_fixed] at hr
        split at hr
        · simp at hr
        · rename_i r b1 hr1
          split at hr1
          · rename_i hlb
            simp only [Option.some.injEq, Prod.mk.injEq] at hr1
            obtain ⟨rfl, rfl⟩ := hr1
            split at hr
            · simp at hr
            · rename_i rs' b'' hrs
              simp only [Option.some.injEq, Prod.mk.injEq] at hr
              obtain ⟨rfl, rfl⟩ := hr
              obtain ⟨rows, h1, h2, h3⟩ := ih _ _ _ hrs
              obtain ⟨r, g1, g2, g3⟩ := hpairs h.px.toNat (b.take (h.px.toNat * 2)) (by rw [List.length_take]; omega)
              refine ⟨r :: rows, ?_, ?_, ?_⟩
              · rw [List.flatten_cons, List.flatMap_append, List.append_assoc, ← h1, ← g2, List.take_append_drop]
              · intro r' hx
                rcases List.mem_cons.mp hx with rfl | hx
                · omega
                · exact h2 r' hx
              · rw [h3, g3]; rfl
          · simp at hr1
    obtain ⟨rows, h1, h2, h3⟩ := hgen _ _ _ _ hr
    refine ⟨rows, b', h1, h2, ?_⟩
    show rs.reverse.reverse = _
    rw [List.reverse_reverse, h3]
    apply List.map_congr_left
    intro r _
    apply List.map_congr_left
    intro q _
    rw [pairValue_eq, precisionOf_spec hp hf.precision]; rfl

/-! ### a level field decides -/

/-- C14. A level field makes the composite run-length coded whatever length the header announces: changing the BY
field changes neither acceptance nor data. (Product, time and all other fields are the same.) -/
theorem C14_level_field_decides {E : Env} {fs fs' : List Field} {data : Bytes} {c : Composite} {v w : Bytes} {n : Int}
    (hw : ∀ f ∈ fs, f.WF) (hw' : ∀ f ∈ fs', f.WF) (hS : Success E (file fs data) c)
    (hLV : value fs (str "LV") = some v) (hval : ∀ k, k ≠ str "BY" → value fs' k = value fs k)
    (hhead : (header fs').take 17 = (header fs).take 17) (hlen : 21 ≤ (header fs').length)
    (hBY : value fs' (str "BY") = some w) (hn : IsInt w n) :
    ∃ c', Success E (file fs' data) c' ∧ c'.plainData = c.plainData ∧ c'.dataZ = c.dataZ ∧ c'.px = c.px ∧ c'.py = c.py := by
  obtain ⟨h, rows, rest', hh, ha, hd, rfl, hf, hl21⟩ := success_fields hw hS
  obtain ⟨lv, hlv⟩ := level_some hf hLV
  have hfind : ∀ k, k ≠ str "BY" → Section.find (pairs fs').reverse k = Section.find (pairs fs).reverse k := by
    intro k hk; rw [find_pairs, find_pairs, hval k hk]
  have htk : ∀ m, m ≤ 17 → (header fs' ++ [3]).take m = (header fs ++ [3]).take m := by
    intro m hm
    rw [List.take_append_of_le_length (by omega), List.take_append_of_le_length (by omega)]
    have := congrArg (List.take m) hhead
    rw [List.take_take, List.take_take, Nat.min_eq_left hm] at this
    exact this
  have h1 : sscanfD ((Section.find (pairs fs').reverse (str "BY")).getD []) = some n := by
    rw [find_pairs, hBY]; exact sscanfD_isInt hn
  have h2 : parseTime (dateBytes (header fs' ++ [3])) = some h.captureTime := by
    rw [← hf.capture]; unfold dateBytes; rw [htk 8 (by omega), htk 17 (by omega)]
  have h3 : forecastOf (pairs fs').reverse h.captureTime = some h.forecastTime := by
    rw [← hf.forecast]; unfold forecastOf; rw [hfind _ (by decide)]
  have h4 : intervalOf (pairs fs').reverse ((header fs' ++ [3]).take 2) = some h.interval := by
    rw [← hf.interval, htk 2 (by omega)]; unfold intervalOf; rw [hfind _ (by decide)]
  have h5 : dimsOf (pairs fs').reverse ((header fs' ++ [3]).take 2) = some ⟨h.px, h.py, h.dx, h.dy⟩ := by
    rw [← hf.dims, htk 2 (by omega)]; unfold dimsOf; rw [hfind (str "GP") (by decide), hfind (str "BG") (by decide)]
  have h6 : precisionOf (pairs fs').reverse = some h.precision := by
    rw [← hf.precision]; unfold precisionOf; rw [hfind _ (by decide)]
  have h7 : levelsOf E (pairs fs').reverse = some h.level := by
    rw [← hf.level]; unfold levelsOf; rw [hfind _ (by decide)]
  have h8 : formatOf (pairs fs').reverse = some h.format := by
    rw [← hf.format]; unfold formatOf; rw [hfind _ (by decide)]
  obtain ⟨h', hc'⟩ := Option.isSome_iff_exists.mp (headerComposite_isSome (E := E) h1 h2 h3 h4 h5 h6 h7 h8)
  have hf' := headerComposite_fields hc'
  have hho : headerOf E (file fs' data) = some (h', data) := by
    unfold headerOf
    rw [readDelim_file hw']
    simp only
    rw [if_neg (by simp; omega), List.dropLast_concat,
      splitHeader_wf E _ (by intro hx; subst hx; simp [header] at hlen) hw']
    simp only
    rw [hc']; rfl
  have q3 := hf'.dims
  rw [h5] at q3
  simp only [Option.some.injEq, Dims.mk.injEq] at q3
  have q5 : h'.level = some lv := by
    have := hf'.level; rw [h7, hlv] at this; simpa using this.symm
  have hdat : dataOf h' data = some (rows, rest') := by
    rw [dataOf_level q5, ← q3.1, ← q3.2.1, ← dataOf_level hlv, hd]
  have hall : AllocOK h' := by
    unfold AllocOK at ha ⊢
    rw [← q3.1, ← q3.2.1]; exact ha
  refine ⟨finish E h' rows, parsed_iff.mpr ⟨h', data, rows, rest', hho, hall, hdat, rfl⟩, rfl, ?_, q3.1.symm, q3.2.1.symm⟩
  show layersOf h'.py.toNat h'.dy.toNat rows = layersOf h.py.toNat h.dy.toNat rows
  rw [q3.2.1, q3.2.2.2]

/-- the run-length sample with another length field -/
example : ∃ c, Success env0 (file [⟨str "PC", str "021310100000217"⟩, ⟨str "BY", str "123456"⟩,
    ⟨str "LV", str " 2  1.0 19.0"⟩, ⟨str "BG", str "002004"⟩] [1, 17, 0x21, 0x12, 10, 2, 16, 0x4F, 10]) c := by
  obtain ⟨c, h, _⟩ := samplePC_ok
  rw [← fieldsPC_file] at h
  obtain ⟨c', h1, _⟩ := C14_level_field_decides (E := env0) (fs := fieldsPC)
    (fs' := [⟨str "PC", str "021310100000217"⟩, ⟨str "BY", str "123456"⟩,
      ⟨str "LV", str " 2  1.0 19.0"⟩, ⟨str "BG", str "002004"⟩]) (v := str " 2  1.0 19.0") (w := str "123456") (n := 123456)
    (by decide) (by decide) h (by decide) (by
      intro k hk
      simp only [value, fieldsPC]
      have : ¬ (str "BY" = k) := fun hx => hk hx.symm
      simp only [this, if_false]) (by decide) (by decide) (by decide)
    ⟨0, .none, [1, 2, 3, 4, 5, 6], [], by decide, by decide, by decide, by decide, by decide, by decide, by decide, by decide⟩
  exact ⟨c', h1⟩

end Props
