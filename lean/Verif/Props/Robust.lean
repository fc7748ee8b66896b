/-
C69, C70, C16: unknown header fields do not matter; damage to the data section stays local; how many bytes are read.
-/
import Verif.Props.Accept
import Verif.Props.Time
import Verif.Props.Stream
import Verif.Lemmas.Foreign

namespace Props
open Go Radolan Spec

/-! ### unknown fields -/

theorem readDelim_nodelim {fs : List Field} (h : (3 : UInt8) ∉ header fs) (data : Bytes) :
    readDelim 3 (file fs data) = some (header fs ++ [3], data) := by
  rw [readDelim_some]
  exact ⟨header fs, rfl, by simp [file], h⟩

/-- the parser sees a header only through its product label and date, its known values, and the announced length minus
its own length -/
theorem parseHeader_known (E : Env) {fs fs' : List Field} (hw : ∀ f ∈ fs, f.Text) (hw' : ∀ f ∈ fs', f.Text) (data : Bytes)
    (hl : 21 ≤ (header fs).length) (hl' : 21 ≤ (header fs').length)
    (hp : (header fs).take 8 = (header fs').take 8)
    (hq : ((header fs).take 17).drop 13 = ((header fs').take 17).drop 13)
    (hv : ∀ k ∈ knownKeys, k ≠ str "BY" → value fs k = value fs' k)
    (hB : ∀ s s' : Section, s.find (str "BY") = value fs (str "BY") → s'.find (str "BY") = value fs' (str "BY") →
      stageLength (header fs ++ [3]) s = stageLength (header fs' ++ [3]) s') :
    parseHeader E (file fs data) = parseHeader E (file fs' data) := by
  have hne : fs ≠ [] := by rintro rfl; simp [header] at hl
  have hne' : fs' ≠ [] := by rintro rfl; simp [header] at hl'
  unfold parseHeader
  rw [readDelim_nodelim (Text.no_delim hw), readDelim_nodelim (Text.no_delim hw')]
  funext c
  simp only [M.orErr_some_bind]
  rw [if_neg (by simp; omega), if_neg (by simp; omega), slice?_zero_pred, slice?_zero_pred]
  simp only [List.dropLast_concat, M.orPanic_some_bind]
  obtain ⟨s, hs1, hs2⟩ := splitHeader_text E fs hne hw
  obtain ⟨s', hs1', hs2'⟩ := splitHeader_text E fs' hne' hw'
  rw [hs1, hs1']
  simp only [M.orPanic_some_bind]
  have hs : ∀ k ∈ knownKeys, k ≠ str "BY" → Section.find s k = Section.find s' k := by
    intro k h1 h2; rw [hs2 k h1, hs2' k h1, hv k h1 h2]
  have e2 := hB s s' (hs2 _ (by decide)) (hs2' _ (by decide))
  have t2 : slice? (header fs ++ [3]) 0 2 = slice? (header fs' ++ [3]) 0 2 := by
    rw [slice?_some (by omega) (by simp; omega), slice?_some (by omega) (by simp; omega),
      List.take_append_of_le_length (by omega), List.take_append_of_le_length (by omega)]
    have := congrArg (List.take 2) hp
    simp only [List.take_take] at this
    exact congrArg some (congrArg (List.drop 0) this)
  have t8 : slice? (header fs ++ [3]) 2 8 = slice? (header fs' ++ [3]) 2 8 := by
    rw [slice?_some (by omega) (by simp; omega), slice?_some (by omega) (by simp; omega),
      List.take_append_of_le_length (by omega), List.take_append_of_le_length (by omega), hp]
  have t17 : slice? (header fs ++ [3]) 13 17 = slice? (header fs' ++ [3]) 13 17 := by
    rw [slice?_some (by omega) (by simp; omega), slice?_some (by omega) (by simp; omega),
      List.take_append_of_le_length (by omega), List.take_append_of_le_length (by omega), hq]
  have e1 : stageProduct (header fs ++ [3]) = stageProduct (header fs' ++ [3]) := by
    unfold stageProduct; rw [t2]
  have e3 : stageCapture (header fs ++ [3]) = stageCapture (header fs' ++ [3]) := by
    unfold stageCapture; rw [t8, t17]
  have e4 : stageForecast s = stageForecast s' := by
    unfold stageForecast; rw [hs _ (by decide) (by decide)]
  have e5 : stageInterval s = stageInterval s' := by
    unfold stageInterval; rw [hs _ (by decide) (by decide)]
  have e6 : stageDims s = stageDims s' := by
    unfold stageDims; rw [hs _ (by decide) (by decide), hs (str "BG") (by decide) (by decide)]
  have e7 : stagePrecision s = stagePrecision s' := by
    unfold stagePrecision; rw [hs _ (by decide) (by decide)]
  have e8 : stageLevel E s = stageLevel E s' := by
    unfold stageLevel; rw [hs _ (by decide) (by decide)]
  have e9 : stageFormat s = stageFormat s' := by
    unfold stageFormat; rw [hs _ (by decide) (by decide)]
  rw [e1, e2, e3, e4, e5, e6, e7, e8, e9]

/-- the announced length, relative to the header -/
theorem stageLength_same {fs fs' : List Field} {v v' : Bytes} {n n' : Int} (hb : value fs (str "BY") = some v)
    (hb' : value fs' (str "BY") = some v') (hn : sscanfD v = some n) (hn' : sscanfD v' = some n')
    (he : n - (header fs).length = n' - (header fs').length) (s s' : Section)
    (hs : s.find (str "BY") = value fs (str "BY")) (hs' : s'.find (str "BY") = value fs' (str "BY")) :
    stageLength (header fs ++ [3]) s = stageLength (header fs' ++ [3]) s' := by
  unfold stageLength
  rw [hs, hs', hb, hb']
  simp only [Option.getD_some, hn, hn']
  funext c
  simp only [M.orErr_some_bind, M.modify_apply]
  have : n - ((header fs ++ [3]).length : Int) = n' - ((header fs' ++ [3]).length : Int) := by
    simp only [List.length_append, List.length_cons, List.length_nil]; push_cast; omega
  rw [this]

/-- C69. Two headers with the same product label and date and the same values of the known keys, each announcing the
length of its own header plus the same amount of data, give the same result with every data section, error or not.
In particular no field with any other key matters, and neither does the WMO number. -/
theorem C69_unknown_fields (E : Env) {fs fs' : List Field} (hw : ∀ f ∈ fs, f.WF) (hw' : ∀ f ∈ fs', f.WF)
    (hl : 21 ≤ (header fs).length) (hl' : 21 ≤ (header fs').length)
    (hp : (header fs).take 8 = (header fs').take 8)
    (hq : ((header fs).take 17).drop 13 = ((header fs').take 17).drop 13)
    (hv : ∀ k ∈ knownKeys, k ≠ str "BY" → value fs k = value fs' k)
    {v v' : Bytes} {n n' : Int} (hb : value fs (str "BY") = some v) (hb' : value fs' (str "BY") = some v')
    (hn : IsInt v n) (hn' : IsInt v' n') (he : n - (header fs).length = n' - (header fs').length) (data : Bytes) :
    NewComposite E (file fs data) = NewComposite E (file fs' data) :=
  newComposite_congr E (parseHeader_known E (fun f hf => WF.text (hw f hf)) (fun f hf => WF.text (hw' f hf)) data hl hl' hp hq hv
    (stageLength_same hb hb' (sscanfD_isInt hn) (sscanfD_isInt hn') he))

theorem value_insert {as bs : List Field} {g : Field} {k : Bytes} (h : g.key ≠ k) :
    value (as ++ g :: bs) k = value (as ++ bs) k := by
  induction as with
  | nil => simp only [List.nil_append, value]; cases value bs k <;> simp [h]
  | cons a as ih => simp only [List.cons_append, value]; rw [ih]

theorem header_append (as bs : List Field) : header (as ++ bs) = header as ++ header bs := by
  induction as with
  | nil => rfl
  | cons a as ih => simp only [List.cons_append, header, ih, List.append_assoc]

/-- C69. A field with an unknown key may be inserted anywhere after the first field; the length field has to be
increased by the length of the inserted field. -/
theorem C69_inserted_field (E : Env) {f : Field} {as bs : List Field} {g : Field} {v v' : Bytes} {n n' : Int}
    (hw : ∀ x ∈ f :: ⟨str "BY", v⟩ :: (as ++ bs), x.WF) (hg : g.WF) (hv' : Field.WF ⟨str "BY", v'⟩) (hk : g.key ∉ knownKeys)
    (hf : 17 ≤ (f.key ++ f.val).length) (hB : ∀ x ∈ as ++ bs, x.key ≠ str "BY")
    (hn : IsInt v n) (hn' : IsInt v' n')
    (he : n' - v'.length = n - v.length + (g.key ++ g.val).length)
    (hlen : 21 ≤ (header (f :: ⟨str "BY", v⟩ :: (as ++ bs))).length ∧
      21 ≤ (header (f :: ⟨str "BY", v'⟩ :: (as ++ g :: bs))).length) (data : Bytes) :
    NewComposite E (file (f :: ⟨str "BY", v⟩ :: (as ++ bs)) data) =
      NewComposite E (file (f :: ⟨str "BY", v'⟩ :: (as ++ g :: bs)) data) := by
  have hnB : value (as ++ bs) (str "BY") = none := by
    cases hx : value (as ++ bs) (str "BY") with
    | none => rfl
    | some w => exact absurd rfl (hB _ (value_some_mem hx))
  have hgB : g.key ≠ str "BY" := fun e => hk (e ▸ by decide)
  have htk : ∀ (l : List Field) (m : Nat), m ≤ 17 → (header (f :: l)).take m = (f.key ++ f.val).take m := by
    intro l m hm
    show ((f.key ++ f.val) ++ header l).take m = _
    rw [List.take_append_of_le_length (by omega)]
  refine C69_unknown_fields E hw ?_ hlen.1 hlen.2 (by rw [htk _ 8 (by omega), htk _ 8 (by omega)])
    (by rw [htk _ 17 (by omega), htk _ 17 (by omega)]) ?_ (v := v) (v' := v') (n := n) (n' := n') ?_ ?_ hn hn' ?_ data
  · intro x hx
    rcases List.mem_cons.mp hx with rfl | hx
    · exact hw _ (by simp)
    · rcases List.mem_cons.mp hx with rfl | hx
      · exact hv'
      · rcases List.mem_append.mp hx with hx | hx
        · exact hw _ (by simp [hx])
        · rcases List.mem_cons.mp hx with rfl | hx
          · exact hg
          · exact hw _ (by simp [hx])
  · intro k h1 h2
    have h3 : g.key ≠ k := fun e => hk (e ▸ h1)
    have h4 : ¬ str "BY" = k := fun e => h2 e.symm
    simp only [value]
    rw [value_insert h3]
    simp only [h4, if_false]
  · simp only [value, hnB, if_true]
  · simp only [value]
    rw [value_insert hgB, hnB]
    simp only [if_true]
  · simp only [header, header_append, List.length_append]
    simp only [List.length_append] at he
    push_cast at he ⊢
    omega

/-- the sample with a list of stations -/
example (data : Bytes) : NewComposite env0 (str "RX021310100000217BY 52VS 3INT 5PR E+00GP 2x 3" ++ [3] ++ data) =
    NewComposite env0 (str "RX021310100000217BY 63VS 3INT 5PR E+00GP 2x 3MS<boo,ros>" ++ [3] ++ data) := by
  have := C69_inserted_field env0 (f := ⟨str "RX", str "021310100000217"⟩)
    (as := [⟨str "VS", str " 3"⟩, ⟨str "INT", str " 5"⟩, ⟨str "PR", str " "⟩, ⟨str "E", str "+00"⟩, ⟨str "GP", str " 2x 3"⟩])
    (bs := []) (g := ⟨str "MS", str "<boo,ros>"⟩) (v := str " 52") (v' := str " 63") (n := 52) (n' := 63)
    (by decide) (by decide) (by decide) (by decide) (by decide) (by decide)
    ⟨1, .none, [5, 2], [], by decide, by decide, by decide, by decide, by decide, by decide, by decide, by decide⟩
    ⟨1, .none, [6, 3], [], by decide, by decide, by decide, by decide, by decide, by decide, by decide, by decide⟩
    (by decide) (by decide) data
  exact this

/-! ### local damage -/

/-- everything but the data is the same -/
def SameButData (c c' : Composite) : Prop := c' = { c with plainData := c'.plainData, dataZ := c'.dataZ, data := c'.data }

theorem layersOf_same (py dy : Nat) (rows rows' : List (List F32)) :
    (layersOf py dy rows).length = (layersOf py dy rows').length := by
  unfold layersOf; split <;> simp

theorem finish_same (E : Env) (h : Composite) (rows rows' : List (List F32)) :
    SameButData (finish E h rows) (finish E h rows') := by
  unfold SameButData finish calibrateProjection arranged
  simp only [layersOf_same h.py.toNat h.dy.toNat rows' rows]

/-- C70 (a). Binary data: there are one or two bytes per pixel, the same for all data sections of the header; every data
section that is long enough is accepted, everything but the data stays the same, and a pixel whose bytes are the same
has the same value. -/
theorem C70_damaged_bytes {E : Env} {fs : List Field} {data : Bytes} {c : Composite} (hw : ∀ f ∈ fs, f.WF)
    (hS : Success E (file fs data) c) (hLV : value fs (str "LV") = none) :
    ∃ k : Nat, (k = 1 ∨ k = 2) ∧ k * (c.px.toNat * c.py.toNat) ≤ data.length ∧
      ∀ data' : Bytes, k * (c.px.toNat * c.py.toNat) ≤ data'.length →
        ∃ c', Success E (file fs data') c' ∧ SameButData c c' ∧
          ∀ x y : Nat, x < c.px.toNat → y < c.py.toNat →
            (∀ j, j / k = (c.py.toNat - 1 - y) * c.px.toNat + x → data'[j]? = data[j]?) → plain c' y x = plain c y x := by
  obtain ⟨h, ha, hf, _, hh, hiff⟩ := success_swap hw hS
  obtain ⟨rows, rest, hd, rfl⟩ := (hiff data c).mp hS
  have hlv := level_none hf hLV
  have e1 : (finish E h rows).px = h.px := rfl
  have e2 : (finish E h rows).py = h.py := rfl
  rw [e1, e2]
  unfold dataOf at hd
  cases he : identifyEncoding h with
  | runlength =>
    exfalso
    unfold identifyEncoding at he
    rw [hlv] at he
    simp only [Option.isSome_none, Bool.false_eq_true, if_false] at he
    split at he <;> (try split at he) <;> simp at he
  | unknown => rw [he] at hd; simp at hd
  | singleByte =>
    rw [he] at hd
    simp only [Option.map_eq_some_iff, Prod.mk.injEq] at hd
    obtain ⟨⟨rs, b'⟩, hr, rfl, _⟩ := hd
    refine ⟨1, Or.inl rfl, ?_, ?_⟩
    · rw [rowsFrom_fixed (rowSB_fixed _ _ _)] at hr
      split at hr
      · rename_i hx; rw [Nat.one_mul, Nat.mul_comm]; exact hx
      · simp at hr
    · intro data' hl
      have hr' : ∃ rs' b'', rowsFrom (rowSB h.dataUnit h.precision h.px.toNat) h.py.toNat data' = some (rs', b'') := by
        rw [rowsFrom_fixed (rowSB_fixed _ _ _), if_pos (by rw [Nat.mul_comm]; omega)]
        exact ⟨_, _, rfl⟩
      obtain ⟨rs', b'', hr'⟩ := hr'
      refine ⟨finish E h rs'.reverse, (hiff data' _).mpr ⟨rs'.reverse, b'', ?_, rfl⟩, finish_same E h _ _, ?_⟩
      · unfold dataOf; rw [he]; simp only [hr', Option.map_some]
      · intro x y hx hy hj
        show (rs'.reverse[y]?).bind (·[x]?) = (rs.reverse[y]?).bind (·[x]?)
        rw [reverse_bind (rowsFrom_length hr) hy, reverse_bind (rowsFrom_length hr') hy]
        obtain ⟨b, hb, hv⟩ := rowsSB_get hr (i := h.py.toNat - 1 - y) (x := x) (by omega) hx
        obtain ⟨b2, hb2, hv2⟩ := rowsSB_get hr' (i := h.py.toNat - 1 - y) (x := x) (by omega) hx
        have := hj _ (Nat.div_one _)
        rw [hb, hb2] at this
        simp only [Option.some.injEq] at this
        rw [hv, hv2, this]
  | littleEndian =>
    rw [he] at hd
    simp only [Option.map_eq_some_iff, Prod.mk.injEq] at hd
    obtain ⟨⟨rs, b'⟩, hr, rfl, _⟩ := hd
    have hcomm : h.py.toNat * (h.px.toNat * 2) = 2 * (h.px.toNat * h.py.toNat) := by ring
    refine ⟨2, Or.inr rfl, ?_, ?_⟩
    · rw [rowsFrom_fixed (rowLE_fixed _ _ _)] at hr
      split at hr
      · rename_i hx; rw [← hcomm]; exact hx
      · simp at hr
    · intro data' hl
      have hr' : ∃ rs' b'', rowsFrom (rowLE h.dataUnit h.precision h.px.toNat) h.py.toNat data' = some (rs', b'') := by
        rw [rowsFrom_fixed (rowLE_fixed _ _ _), if_pos (by rw [hcomm]; exact hl)]
        exact ⟨_, _, rfl⟩
      obtain ⟨rs', b'', hr'⟩ := hr'
      refine ⟨finish E h rs'.reverse, (hiff data' _).mpr ⟨rs'.reverse, b'', ?_, rfl⟩, finish_same E h _ _, ?_⟩
      · unfold dataOf; rw [he]; simp only [hr', Option.map_some]
      · intro x y hx hy hj
        show (rs'.reverse[y]?).bind (·[x]?) = (rs.reverse[y]?).bind (·[x]?)
        rw [reverse_bind (rowsFrom_length hr) hy, reverse_bind (rowsFrom_length hr') hy]
        obtain ⟨lo, hi, h1, h2, hv⟩ := rowsLE_get hr (i := h.py.toNat - 1 - y) (x := x) (by omega) hx
        obtain ⟨lo2, hi2, h3, h4, hv2⟩ := rowsLE_get hr' (i := h.py.toNat - 1 - y) (x := x) (by omega) hx
        have a1 := hj (2 * ((h.py.toNat - 1 - y) * h.px.toNat + x)) (by omega)
        have a2 := hj (2 * ((h.py.toNat - 1 - y) * h.px.toNat + x) + 1) (by omega)
        rw [h1, h3] at a1
        rw [h2, h4] at a2
        simp only [Option.some.injEq] at a1 a2
        rw [hv, hv2, a1, a2]

/-- lines without line feed are determined by their concatenation -/
theorem lines_inj : ∀ {ls ls' : List Bytes} {r r' : Bytes}, ls.length = ls'.length → (∀ l ∈ ls, (10 : UInt8) ∉ l) →
    (∀ l ∈ ls', (10 : UInt8) ∉ l) → lines ls ++ r = lines ls' ++ r' → ls = ls' ∧ r = r' := by
  intro ls
  induction ls with
  | nil =>
    intro ls' r r' hl _ _ he
    have : ls' = [] := List.length_eq_zero_iff.mp hl.symm
    subst this
    exact ⟨rfl, he⟩
  | cons l ls ih =>
    intro ls' r r' hl h1 h2 he
    match ls', hl with
    | l' :: ls', hl =>
      have e : ∀ (a : Bytes) (as : List Bytes) (t : Bytes), lines (a :: as) ++ t = a ++ 10 :: (lines as ++ t) := by
        intro a as t; simp [lines]
      rw [e, e] at he
      have key : ∀ (a b s t : Bytes), (10 : UInt8) ∉ a → (10 : UInt8) ∉ b → a ++ 10 :: s = b ++ 10 :: t → a = b ∧ s = t := by
        intro a
        induction a with
        | nil =>
          intro b s t _ hb he
          cases b with
          | nil => simpa using he
          | cons x b => simp at he; exact absurd (by simp [he.1]) hb
        | cons y a iha =>
          intro b s t ha hb he
          cases b with
          | nil => simp at he; exact absurd (by simp [he.1]) ha
          | cons x b =>
            simp only [List.cons_append, List.cons.injEq] at he
            obtain ⟨q1, q2⟩ := iha b s t (by simp at ha; exact ha.2) (by simp at hb; exact hb.2) he.2
            exact ⟨by rw [he.1, q1], q2⟩
      obtain ⟨q1, q2⟩ := key _ _ _ _ (h1 l (by simp)) (h2 l' (by simp)) he
      obtain ⟨q3, q4⟩ := ih (by simpa using hl) (fun x hx => h1 x (by simp [hx])) (fun x hx => h2 x (by simp [hx])) q2
      exact ⟨by rw [q1, q3], q4⟩

/-- a line means one thing at most -/
theorem decodes_unique {levels : List F32} {w : Nat} {l : Bytes} {a b : List F32} (hl : (10 : UInt8) ∉ l)
    (h1 : Decodes levels w l a) (h2 : Decodes levels w l b) : a = b := by
  have f1 := (rowsRL_iff (levels := levels) (w := w) (n := 1) (b := lines [l] ++ []) (rs := [a]) (rest := [])).mpr
    ⟨[l], rfl, rfl, by simpa using hl, .cons h1 .nil⟩
  have f2 := (rowsRL_iff (levels := levels) (w := w) (n := 1) (b := lines [l] ++ []) (rs := [b]) (rest := [])).mpr
    ⟨[l], rfl, rfl, by simpa using hl, .cons h2 .nil⟩
  rw [f1] at f2
  simpa using f2

/-- C70 (b). Run-length coded data: if some lines are replaced by others (without line feed), the file is rejected with an
error, or everything but the data stays the same and so do the rows of the lines not replaced. -/
theorem C70_damaged_lines {E : Env} {fs : List Field} {ls ls' : List Bytes} {rest rest' : Bytes} {c : Composite} {v : Bytes}
    (hw : ∀ f ∈ fs, f.WF) (hS : Success E (file fs (lines ls ++ rest)) c) (hLV : value fs (str "LV") = some v)
    (hlen : (ls.length : Int) = c.py) (hlen' : ls'.length = ls.length)
    (hlf : ∀ l ∈ ls, (10 : UInt8) ∉ l) (hlf' : ∀ l ∈ ls', (10 : UInt8) ∉ l) :
    (∃ c' e, NewComposite E (file fs (lines ls' ++ rest')) = .ret c' (some e) ∧ e ≠ .unknownUnit) ∨
    ∃ c', Success E (file fs (lines ls' ++ rest')) c' ∧ SameButData c c' ∧
      ∀ i : Nat, ls'[i]? = ls[i]? → c'.plainData[i]? = c.plainData[i]? := by
  obtain ⟨h, ha, hf, _, hh, hiff⟩ := success_swap hw hS
  obtain ⟨rows, rest2, hd, rfl⟩ := (hiff _ c).mp hS
  obtain ⟨lv, hlv⟩ := level_some hf hLV
  have e2 : (finish E h rows).py = h.py := rfl
  rw [e2] at hlen
  by_cases hac : ∃ c', Success E (file fs (lines ls' ++ rest')) c'
  · right
    obtain ⟨c', hS'⟩ := hac
    obtain ⟨rows', rest3, hd', rfl⟩ := (hiff _ c').mp hS'
    refine ⟨_, hS', finish_same E h _ _, ?_⟩
    rw [dataOf_level hlv] at hd hd'
    obtain ⟨ms, a1, a2, a3, a4⟩ := rowsRL_iff.mp hd
    obtain ⟨ms', b1, b2, b3, b4⟩ := rowsRL_iff.mp hd'
    obtain ⟨rfl, _⟩ := lines_inj (by omega) hlf a3 a2
    obtain ⟨rfl, _⟩ := lines_inj (by omega) hlf' b3 b2
    intro i hi
    show rows'[i]? = rows[i]?
    have l1 := a4.length_eq
    have l2 := b4.length_eq
    by_cases hlt : i < ls.length
    · have d1 := a4.get (i := i) hlt (by omega)
      have d2 := b4.get (i := i) (by omega) (by omega)
      simp only [List.get_eq_getElem] at d1 d2
      rw [List.getElem?_eq_getElem (by omega), List.getElem?_eq_getElem hlt] at hi
      simp only [Option.some.injEq] at hi
      rw [hi] at d2
      rw [List.getElem?_eq_getElem (by omega), List.getElem?_eq_getElem (by omega),
        decodes_unique (hlf _ (List.getElem_mem hlt)) d1 d2]
    · rw [List.getElem?_eq_none (by omega), List.getElem?_eq_none (by omega)]
  · exact Or.inl ((C12_accepted_iff hw hS hLV _).2 hac)

/-- one byte of the sample damaged: at most the pixel in column 1 of row 1 changes -/
example (b : UInt8) : ∃ c c', Success env0 (file fieldsRX [10, 20, 30, 40, 250, 60, 99]) c ∧
    Success env0 (file fieldsRX [10, b, 30, 40, 250, 60, 99]) c' ∧ SameButData c c' ∧
    ∀ x y : Nat, x < 3 → y < 2 → (x, y) ≠ (1, 1) → plain c' y x = plain c y x := by
  obtain ⟨c, h, h2⟩ := sampleRX_ok
  rw [← fieldsRX_file] at h
  simp only [Bool.and_eq_true, beq_iff_eq] at h2
  obtain ⟨⟨⟨d1, d2⟩, d3⟩, d4⟩ := h2
  obtain ⟨_, _, _, hp, _, hl, _⟩ := C05_shape h
  have k1 : c.px = 3 := by rw [← hp, d1]
  have k2 : c.py = 2 := by rw [← hl, d4]; rfl
  obtain ⟨k, hk, hlen, hall⟩ := C70_damaged_bytes fieldsRX_wf h (by decide)
  rw [k1, k2] at hlen hall
  have hk1 : k = 1 := by
    rcases hk with rfl | rfl
    · rfl
    · simp at hlen
  subst hk1
  obtain ⟨c', g1, g2, g3⟩ := hall [10, b, 30, 40, 250, 60, 99] (by simp)
  refine ⟨c, c', h, g1, g2, ?_⟩
  intro x y hx hy hne
  refine g3 x y hx hy ?_
  intro j hj
  rw [Nat.div_one] at hj
  have hj1 : j ≠ 1 := by
    rintro rfl
    apply hne
    have : x = 1 ∧ y = 1 := by
      have e3 : (3 : Int).toNat = 3 := rfl
      have e2 : (2 : Int).toNat = 2 := rfl
      rw [e3, e2] at hj
      omega
    rw [this.1, this.2]
  match j, hj1 with
  | 0, _ => rfl
  | j + 2, _ => rfl

/-- the second line of the run-length sample damaged -/
example (l : Bytes) (hl : (10 : UInt8) ∉ l) : ∃ c, Success env0 samplePC c ∧
    ((∃ c' e, NewComposite env0 (file fieldsPC (lines [[1, 17, 0x21, 0x12], l] ++ [])) = .ret c' (some e) ∧ e ≠ .unknownUnit) ∨
    ∃ c', Success env0 (file fieldsPC (lines [[1, 17, 0x21, 0x12], l] ++ [])) c' ∧ c'.plainData[0]? = c.plainData[0]?) := by
  obtain ⟨c, h, h2⟩ := samplePC_ok
  refine ⟨c, h, ?_⟩
  rw [← fieldsPC_file] at h
  simp only [Bool.and_eq_true, beq_iff_eq] at h2
  obtain ⟨⟨d1, d2⟩, d4⟩ := h2
  obtain ⟨_, _, _, hp, _, hl', _⟩ := C05_shape h
  have h' : Success env0 (file fieldsPC (lines [[1, 17, 0x21, 0x12], [2, 16, 0x4F]] ++ [])) c := h
  rcases C70_damaged_lines (ls' := [[1, 17, 0x21, 0x12], l]) (rest' := []) (by decide) h' (v := str " 2  1.0 19.0") (by decide)
    (by rw [← hl', d4]; rfl) rfl (by decide) (by
      intro x hx
      simp only [List.mem_cons, List.not_mem_nil, or_false] at hx
      rcases hx with rfl | rfl
      · decide
      · exact hl) with h3 | ⟨c', h3, _, h4⟩
  · exact Or.inl h3
  · exact Or.inr ⟨c', h3, h4 0 rfl⟩

/-! ### how much is read -/

/-- the first `n` bytes of the input decide, and fewer do not suffice -/
def Consumes (E : Env) (input : Bytes) (n : Nat) : Prop :=
  n ≤ input.length ∧ (∀ m, n ≤ m → NewComposite E (input.take m) = NewComposite E input) ∧
  ∀ m, m < n → ∃ c' e, NewComposite E (input.take m) = .ret c' (some e) ∧ e ≠ .unknownUnit

theorem success_not_error {E : Env} {input : Bytes} {c : Composite} (h : Success E input c) :
    ¬ ∃ c' e, NewComposite E input = .ret c' (some e) ∧ e ≠ .unknownUnit := by
  rintro ⟨c', e, h1, h2⟩
  rcases h with h | h <;> rw [h1] at h <;> simp at h
  exact h2 h.2

theorem consumes_of {E : Env} {input : Bytes} {c : Composite} (hS : Success E input c) {n : Nat} (hn : n ≤ input.length)
    (h1 : ∃ c, Success E (input.take n) c) (h2 : 0 < n → ¬ ∃ c, Success E (input.take (n - 1)) c) : Consumes E input n := by
  obtain ⟨n0, a1, a2, a3⟩ := C16_truncation hS
  have : n0 = n := by
    by_contra hne
    rcases Nat.lt_or_gt_of_ne hne with hlt | hgt
    · exact h2 (by omega) ⟨c, by unfold Success; rw [a2 (n - 1) (by omega)]; exact hS⟩
    · obtain ⟨c1, h1⟩ := h1
      exact success_not_error h1 (a3 n hgt)
  rw [← this]
  exact ⟨a1, a2, a3⟩

theorem file_take {fs : List Field} {data : Bytes} {k : Nat} :
    (file fs data).take ((header fs).length + 1 + k) = file fs (data.take k) := by
  unfold file
  rw [List.take_append, List.take_of_length_le (by simp)]
  congr 2
  simp

/-- C16. A binary file consumes exactly the number of bytes its length field announces. (Sizes below 2^62.) -/
theorem C16_announced_length {E : Env} {fs : List Field} {data : Bytes} {c : Composite} {v : Bytes} {n : Int}
    (hw : ∀ f ∈ fs, f.WF) (hS : Success E (file fs data) c) (hLV : value fs (str "LV") = none)
    (hBY : value fs (str "BY") = some v) (hn : IsInt v n) (hsz : data.length < 2 ^ 62) (hsz' : (header fs).length < 2 ^ 62) :
    0 ≤ n ∧ Consumes E (file fs data) n.toNat := by
  obtain ⟨k, hk, hlen, hall⟩ := C70_damaged_bytes hw hS hLV
  have hdec := C14_length_decides hw hS hLV hBY hn hsz hsz'
  obtain ⟨h, ha, hf, ⟨rows0, rfl⟩, hh, hiff⟩ := success_swap hw hS
  have e1 : (finish E h rows0).px = h.px := rfl
  have e2 : (finish E h rows0).py = h.py := rfl
  rw [e1, e2] at hlen hall hdec
  have hlv := level_none hf hLV
  have hdl := dataLength_spec hf hBY hn
  have hpos := px_pos ha
  obtain ⟨a, ea⟩ : ∃ k : Nat, h.px = k := ⟨h.px.toNat, by have := ha.1; omega⟩
  obtain ⟨b, eb⟩ : ∃ k : Nat, h.py = k := ⟨h.py.toNat, by have := ha.2.2.1; omega⟩
  have hex : ∀ d : Bytes, (∃ rows rest, dataOf h d = some (rows, rest)) → ∃ c, Success E (file fs d) c := by
    rintro d ⟨rows, rest, hd⟩
    exact ⟨_, (hiff d _).mpr ⟨rows, rest, hd, rfl⟩⟩
  have key : ∃ m : Nat, n = (header fs).length + 1 + m ∧ (∃ c, Success E (file fs (data.take m)) c) ∧ m ≤ data.length ∧
      0 < m ∧ ∀ d : Bytes, d.length < m → ¬ ∃ c, Success E (file fs d) c := by
    rcases hdec with hd | hd
    · have e : identifyEncoding h = .singleByte := single_of_length hlv hdl hpos (isInt_range hn).2 (by omega) hd
      have hno : ∀ d : Bytes, d.length < a * b → ¬ ∃ c, Success E (file fs d) c := by
        rintro d hlt ⟨c', hc'⟩
        obtain ⟨rows, rest, hdat, _⟩ := (hiff d c').mp hc'
        have := (consumed_fixed ha hdat).1 e
        rw [ea, eb] at this
        have : a * b ≤ d.length := by exact_mod_cast this
        omega
      have hle : a * b ≤ data.length := by
        by_contra hx
        exact hno data (by omega) ⟨_, hS⟩
      refine ⟨a * b, ?_, ?_, hle, ?_, hno⟩
      · rw [ea, eb] at hd; push_cast; omega
      · refine hex _ ?_
        unfold dataOf
        rw [e, ea, eb]
        simp only [Int.toNat_natCast]
        rw [rowsFrom_fixed (rowSB_fixed _ _ _), if_pos (by rw [List.length_take, Nat.mul_comm b a]; omega)]
        exact ⟨_, _, rfl⟩
      · rw [ea, eb] at hpos; exact_mod_cast hpos
    · have e : identifyEncoding h = .littleEndian := pair_of_length hlv hdl hpos (isInt_range hn).2 (by omega) hd
      have hno : ∀ d : Bytes, d.length < 2 * (a * b) → ¬ ∃ c, Success E (file fs d) c := by
        rintro d hlt ⟨c', hc'⟩
        obtain ⟨rows, rest, hdat, _⟩ := (hiff d c').mp hc'
        have := (consumed_fixed ha hdat).2 e
        rw [ea, eb] at this
        have : 2 * (a * b) ≤ d.length := by exact_mod_cast this
        omega
      have hle : 2 * (a * b) ≤ data.length := by
        by_contra hx
        exact hno data (by omega) ⟨_, hS⟩
      have hab : b * (a * 2) = 2 * (a * b) := by ring
      refine ⟨2 * (a * b), ?_, ?_, hle, ?_, hno⟩
      · rw [ea, eb] at hd; push_cast; omega
      · refine hex _ ?_
        unfold dataOf
        rw [e, ea, eb]
        simp only [Int.toNat_natCast]
        rw [rowsFrom_fixed (rowLE_fixed _ _ _), if_pos (by rw [List.length_take, hab]; omega)]
        exact ⟨_, _, rfl⟩
      · rw [ea, eb] at hpos
        have : 0 < a * b := by exact_mod_cast hpos
        omega
  obtain ⟨m, hm, hsucc, hle, hpos', hno⟩ := key
  refine ⟨by omega, ?_⟩
  have hnat : n.toNat = (header fs).length + 1 + m := by omega
  rw [hnat]
  refine consumes_of hS ?_ ?_ ?_
  · unfold file; simp; omega
  · rw [file_take]; exact hsucc
  · intro _
    rw [show (header fs).length + 1 + m - 1 = (header fs).length + 1 + (m - 1) by omega, file_take]
    exact hno _ (by rw [List.length_take]; omega)

/-- C16. A run-length coded file consumes its header, the delimiter, and one line per row including the line feed. -/
theorem C16_lines {E : Env} {fs : List Field} {ls : List Bytes} {rest : Bytes} {c : Composite} {v : Bytes}
    (hw : ∀ f ∈ fs, f.WF) (hS : Success E (file fs (lines ls ++ rest)) c) (hLV : value fs (str "LV") = some v)
    (hlen : (ls.length : Int) = c.py) (hlf : ∀ l ∈ ls, (10 : UInt8) ∉ l) :
    Consumes E (file fs (lines ls ++ rest)) ((header fs).length + 1 + (lines ls).length) := by
  obtain ⟨ls1, r1, b1, b2, b3⟩ := ((C12_accepted_iff hw hS hLV _).1).mp ⟨c, hS⟩
  obtain ⟨rfl, rfl⟩ := lines_inj (by omega) hlf (fun l hl => (b3 l hl).1) b1
  refine consumes_of hS (by unfold file; simp; omega) ?_ ?_
  · rw [file_take, List.take_append_of_le_length (Nat.le_refl _), List.take_length]
    exact ((C12_accepted_iff hw hS hLV _).1).mpr ⟨ls, [], by simp, hlen, b3⟩
  · intro _
    obtain ⟨_, hpy, _⟩ := C05_shape hS
    obtain ⟨_, _, _, _, hzy, _⟩ := C05_shape hS
    have hne : ls ≠ [] := by
      rintro rfl
      have := (C05_shape hS).2.2.1
      have : 1 ≤ c.dz * c.dy := by nlinarith
      simp at hlen; omega
    have hpos : 0 < (lines ls).length := by
      cases ls with
      | nil => exact absurd rfl hne
      | cons l ls => simp [lines]
    have hlast : ∃ d, lines ls = d ++ [10] := by
      clear hS b3 b1 hlen
      obtain ⟨as, l, rfl⟩ := List.eq_nil_or_concat ls |>.resolve_left hne
      exact ⟨lines as ++ l, by simp [lines]⟩
    obtain ⟨d, hd⟩ := hlast
    rw [show (header fs).length + 1 + (lines ls).length - 1 = (header fs).length + 1 + ((lines ls).length - 1) by omega,
      file_take]
    have htk : (lines ls ++ rest).take ((lines ls).length - 1) = d := by
      rw [hd]
      rw [List.append_assoc, List.take_append_of_le_length (by simp)]
      simp
    rw [htk]
    intro hex
    obtain ⟨ls2, r2, c1, c2, c3⟩ := ((C12_accepted_iff hw hS hLV _).1).mp hex
    have h3 : lines ls ++ [] = lines ls2 ++ (r2 ++ [10]) := by
      rw [List.append_nil, hd, c1, List.append_assoc]
    obtain ⟨_, h4⟩ := lines_inj (by omega) hlf (fun l hl => (c3 l hl).1) h3
    exact absurd h4 (by simp)

/-- the samples: 52 of 53 bytes, and all 63 bytes -/
example : Consumes env0 sampleRX 52 := by
  obtain ⟨c, h, _⟩ := sampleRX_ok
  rw [← fieldsRX_file] at h ⊢
  exact (C16_announced_length fieldsRX_wf h (by decide) (v := str " 52") (n := 52) (by decide)
    ⟨1, .none, [5, 2], [], by decide, by decide, by decide, by decide, by decide, by decide, by decide, by decide⟩
    (by decide) (by decide)).2

end Props
