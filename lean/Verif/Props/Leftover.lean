/-
C73: what a failed parse leaves behind, and how much memory a header alone asks for.
-/
import Verif.Lemmas.Leftover
import Verif.Props.Robust
import Verif.Props.EndToEnd

namespace Props
open Go Radolan Spec

/-- an error of the data stage is the error of NewComposite -/
theorem newComposite_err {E : Env} {input rest : Bytes} {h c' : Composite} {e : Err}
    (hh : headerOf E input = some (h, rest)) (he : e ≠ .unknownUnit) (hp : parseData rest h = .err e c') :
    NewComposite E input = .ret c' (some e) := by
  have hp' := parseHeader_eq E input
  rw [hh] at hp'
  unfold NewComposite newCompositeRest newCompositeM
  rw [M.bind_ok hp'.1, M.bind_err hp]

theorem take_rows {f : Bytes → Option (List F32 × Bytes)} {dec : Bytes → List F32} {k : Nat} (hk : 0 < k)
    (hf : ∀ b, f b = if k ≤ b.length then some (dec (b.take k), b.drop k) else none) {n m : Nat} {b b' : Bytes}
    {rs : List (List F32)} (h : rowsFrom f n b = some (rs, b')) (hm : m < n * k) :
    ∃ rs' r', rowsFrom f (m / k) (b.take m) = some (rs', r') ∧ r'.length < k ∧ rs'.length = m / k ∧ m / k < n ∧
      ∀ i, i < m / k → rs'[i]? = rs[i]? := by
  rw [rowsFrom_fixed hf] at h
  split at h
  swap
  · simp at h
  rename_i hl
  simp only [Option.some.injEq, Prod.mk.injEq] at h
  obtain ⟨rfl, _⟩ := h
  have h1 : m / k * k ≤ m := Nat.div_mul_le_self m k
  have h2 : m < m / k * k + k := by
    have := Nat.lt_div_mul_add (a := m) hk; omega
  have hq : m / k < n := (Nat.div_lt_iff_lt_mul hk).mpr hm
  have hlen : (b.take m).length = m := by rw [List.length_take]; omega
  rw [rowsFrom_fixed hf, if_pos (by omega)]
  refine ⟨_, _, rfl, by rw [List.length_drop, hlen]; omega, by simp, hq, ?_⟩
  intro i hi
  have h3 : (i + 1) * k ≤ m / k * k := Nat.mul_le_mul_right _ hi
  rw [Nat.add_mul] at h3
  rw [List.getElem?_map, List.getElem?_map, List.getElem?_range hi, List.getElem?_range (by omega)]
  simp only [Option.map_some]
  rw [List.drop_take, List.take_take, Nat.min_eq_left (by omega)]

/-- rows written from the last to the first -/
theorem setAll_reverse {n q : Nat} (p rs : List (List F32)) (hp : p.length = n) (hr : rs.length ≤ n) (hq : q < n) :
    (setAll (n - 1 - ·) p 0 rs)[q]? = if n - 1 - q < rs.length then rs[n - 1 - q]? else p[q]? := by
  split
  · rename_i hlt
    have := setAll_get (n - 1 - ·) rs p 0 (fun j k _ _ _ _ _ => by omega) (fun j _ _ => by omega) (n - 1 - q) hlt
    simp only [Nat.zero_add] at this
    rw [show n - 1 - (n - 1 - q) = q by omega] at this
    exact this
  · exact setAll_other _ rs p 0 (fun j _ _ => by omega)

/-- rows written from the first to the last -/
theorem setAll_forward {q : Nat} (p rs : List (List F32)) (hr : rs.length ≤ p.length) :
    (setAll id p 0 rs)[q]? = if q < rs.length then rs[q]? else p[q]? := by
  split
  · rename_i hlt
    have := setAll_get id rs p 0 (fun j k _ _ _ _ h => h) (fun j _ _ => by simp only [id]; omega) q hlt
    simpa using this
  · exact setAll_other _ rs p 0 (fun j _ _ => by simp only [id]; omega)

/-- A failed result: the composite with an error other than the unknown unit. -/
def Fails (E : Env) (input : Bytes) (c : Composite) : Prop :=
  ∃ e, e ≠ .unknownUnit ∧ NewComposite E input = .ret c (some e)

/-- C73 (a). Binary data cut off after `m` bytes: an error is returned together with a composite that has all its rows.
The rows that were complete have the same values as in the whole file; every other pixel is the number zero. -/
theorem C73_truncated_bytes {E : Env} {fs : List Field} {data : Bytes} {c : Composite} (hw : ∀ f ∈ fs, f.WF)
    (hS : Success E (file fs data) c) (hLV : value fs (str "LV") = none) :
    ∃ k : Nat, (k = 1 ∨ k = 2) ∧ k * (c.px.toNat * c.py.toNat) ≤ data.length ∧
      ∀ m, m < k * (c.px.toNat * c.py.toNat) →
        ∃ c', Fails E (file fs (data.take m)) c' ∧ c'.px = c.px ∧ c'.py = c.py ∧ (c'.plainData.length : Int) = c.py ∧
          ∀ x y : Nat, x < c.px.toNat → y < c.py.toNat →
            plain c' y x = if (c.py.toNat - 1 - y + 1) * (k * c.px.toNat) ≤ m then plain c y x else some Fl.zero := by
  obtain ⟨h, ha, hf, _, hh, hiff⟩ := success_swap hw hS
  obtain ⟨rows, rest, hd, rfl⟩ := (hiff data c).mp hS
  have hlv := level_none hf hLV
  have e1 : (finish E h rows).px = h.px := rfl
  have e2 : (finish E h rows).py = h.py := rfl
  rw [e1, e2]
  have hD : DimsOK h := ⟨⟨ha.1, ha.2.1⟩, ⟨ha.2.2.1, ha.2.2.2⟩, (header_dims (hh data)).1⟩
  have hb : Blank h := by
    have := parseHeader_eq E (file fs data)
    rw [hh data] at this
    exact this.2
  have hpx : 0 < h.px.toNat := by have := ha.1; omega
  have hpy : 0 < h.py.toNat := by have := ha.2.2.1; omega
  -- both encodings
  have key : ∀ (f : Bytes → Option (List F32 × Bytes)) (dec : Bytes → List F32) (k : Nat), 0 < k →
      (∀ b, f b = if k * h.px.toNat ≤ b.length then some (dec (b.take (k * h.px.toNat)), b.drop (k * h.px.toNat)) else none) →
      ∀ (rs : List (List F32)) (b' : Bytes), rowsFrom f h.py.toNat data = some (rs, b') →
      (∀ j rs' r', j < h.py.toNat → ∀ b, rowsFrom f j b = some (rs', r') → r'.length < k * h.px.toNat →
        ∃ e, e ≠ .unknownUnit ∧ parseData b h = .err e { h with
          plainData := setAll (h.py.toNat - 1 - ·)
            (List.replicate h.py.toNat (List.replicate h.px.toNat Fl.zero)) 0 rs' }) →
      k * (h.px.toNat * h.py.toNat) ≤ data.length ∧
      ∀ m, m < k * (h.px.toNat * h.py.toNat) →
        ∃ c', Fails E (file fs (data.take m)) c' ∧ c'.px = h.px ∧ c'.py = h.py ∧ (c'.plainData.length : Int) = h.py ∧
          ∀ x y : Nat, x < h.px.toNat → y < h.py.toNat →
            plain c' y x = if (h.py.toNat - 1 - y + 1) * (k * h.px.toNat) ≤ m
              then (rs.reverse[y]?).bind (·[x]?) else some Fl.zero := by
    intro f dec k hk hfx rs b' hr hstop
    have hcomm : k * (h.px.toNat * h.py.toNat) = h.py.toNat * (k * h.px.toNat) := by ring
    have hpos : 0 < k * h.px.toNat := Nat.mul_pos hk hpx
    rw [hcomm]
    constructor
    · rw [rowsFrom_fixed hfx] at hr
      split at hr
      · assumption
      · simp at hr
    intro m hm
    obtain ⟨rs', r', g1, g2, g3, g4, g5⟩ := take_rows hpos hfx hr hm
    obtain ⟨e, he, hp⟩ := hstop _ _ _ g4 _ g1 g2
    refine ⟨_, ⟨e, he, newComposite_err (hh _) he hp⟩, rfl, rfl, ?_, ?_⟩
    · show ((setAll _ _ 0 rs').length : Int) = h.py
      rw [setAll_length, List.length_replicate]; have := ha.2.2.1; omega
    · intro x y hx hy
      show ((setAll _ _ 0 rs')[y]?).bind (·[x]?) = _
      rw [setAll_reverse _ _ (by simp) (by omega) hy, g3]
      have hiff : (h.py.toNat - 1 - y < m / (k * h.px.toNat)) ↔ (h.py.toNat - 1 - y + 1) * (k * h.px.toNat) ≤ m := by
        rw [← Nat.succ_le_iff, Nat.le_div_iff_mul_le hpos]
      by_cases hc : (h.py.toNat - 1 - y + 1) * (k * h.px.toNat) ≤ m
      · rw [if_pos (hiff.mpr hc), if_pos hc, g5 _ (hiff.mpr hc), reverse_bind (rowsFrom_length hr) hy]
      · rw [if_neg (fun q => hc (hiff.mp q)), if_neg hc, List.getElem?_replicate, if_pos hy]
        simp [hx]
  unfold dataOf at hd
  cases he : identifyEncoding h with
  | runlength =>
    exfalso
    unfold identifyEncoding at he
    rw [hlv] at he
    simp only [Option.isSome_none, Bool.false_eq_true, if_false] at he
    split at he <;> (try split at he) <;> simp at he
  | unknown => rw [he] at hd; simp at hd
  | singleByte =>
    rw [he] at hd
    simp only [Option.map_eq_some_iff, Prod.mk.injEq] at hd
    obtain ⟨⟨rs, b'⟩, hr, rfl, _⟩ := hd
    refine ⟨1, Or.inl rfl, ?_⟩
    refine key _ _ 1 (by omega) (by intro b; rw [Nat.one_mul]; exact rowSB_fixed _ _ _ b) rs b' hr ?_
    intro j rs' r' hj b h1 h2
    have := parseData_stops h b hb hD hj (Or.inl ⟨he, h1, by omega⟩)
    rw [he, if_neg (by decide)] at this
    exact this
  | littleEndian =>
    rw [he] at hd
    simp only [Option.map_eq_some_iff, Prod.mk.injEq] at hd
    obtain ⟨⟨rs, b'⟩, hr, rfl, _⟩ := hd
    refine ⟨2, Or.inr rfl, ?_⟩
    refine key _ _ 2 (by omega) (by intro b; rw [Nat.mul_comm 2]; exact rowLE_fixed _ _ _ b) rs b' hr ?_
    intro j rs' r' hj b h1 h2
    have := parseData_stops h b hb hD hj (Or.inr (Or.inl ⟨he, h1, by omega⟩))
    rw [he, if_neg (by decide)] at this
    exact this

/-- C73 (b). Run-length coded data cut off in a line: the rows of the complete lines are kept, the others are zero. -/
theorem C73_truncated_lines {E : Env} {fs : List Field} {ls : List Bytes} {rest tail : Bytes} {c : Composite} {v : Bytes}
    (hw : ∀ f ∈ fs, f.WF) (hS : Success E (file fs (lines ls ++ rest)) c) (hLV : value fs (str "LV") = some v)
    (hlen : (ls.length : Int) = c.py) (hlf : ∀ l ∈ ls, (10 : UInt8) ∉ l) {j : Nat} (hj : j < ls.length)
    (ht : (10 : UInt8) ∉ tail) :
    ∃ c', Fails E (file fs (lines (ls.take j) ++ tail)) c' ∧ c'.px = c.px ∧ c'.py = c.py ∧
      (c'.plainData.length : Int) = c.py ∧
      ∀ x y : Nat, x < c.px.toNat → y < c.py.toNat → plain c' y x = if y < j then plain c y x else some Fl.zero := by
  obtain ⟨h, ha, hf, _, hh, hiff⟩ := success_swap hw hS
  obtain ⟨rows, rest2, hd, rfl⟩ := (hiff _ c).mp hS
  obtain ⟨lv, hlv⟩ := level_some hf hLV
  have e1 : (finish E h rows).px = h.px := rfl
  have e2 : (finish E h rows).py = h.py := rfl
  rw [e2] at hlen
  rw [e1, e2]
  have hD : DimsOK h := ⟨⟨ha.1, ha.2.1⟩, ⟨ha.2.2.1, ha.2.2.2⟩, (header_dims (hh [])).1⟩
  have hb : Blank h := by
    have := parseHeader_eq E (file fs [])
    rw [hh []] at this
    exact this.2
  rw [dataOf_level hlv] at hd
  obtain ⟨ms, a1, a2, a3, a4⟩ := rowsRL_iff.mp hd
  obtain ⟨rfl, _⟩ := lines_inj (by omega) hlf a3 a2
  have hlr := a4.length_eq
  have hrows : rowsFrom (rowRL (h.level.getD []) h.px.toNat) j (lines (ls.take j) ++ tail) = some (rows.take j, tail) := by
    rw [hlv]
    exact rowsRL_iff.mpr ⟨ls.take j, by rw [List.length_take]; omega, rfl, fun l hl => hlf l (List.mem_of_mem_take hl),
      List.forall₂_take j a4⟩
  have hid : identifyEncoding h = .runlength := by unfold identifyEncoding; rw [hlv]; rfl
  obtain ⟨e, he, hp⟩ := parseData_stops h _ hb hD (k := j) (by omega) (Or.inr (Or.inr ⟨hid, hrows, ht⟩))
  rw [if_pos hid] at hp
  have hlt : (rows.take j).length = j := by rw [List.length_take]; omega
  refine ⟨_, ⟨e, he, newComposite_err (hh _) he hp⟩, rfl, rfl, ?_, ?_⟩
  · show ((setAll _ _ 0 _).length : Int) = h.py
    rw [setAll_length, List.length_replicate]; have := ha.2.2.1; omega
  · intro x y hx hy
    show ((setAll _ _ 0 _)[y]?).bind (·[x]?) = _
    rw [setAll_forward _ _ (by rw [hlt, List.length_replicate]; omega), hlt]
    split
    · rename_i hyj
      rw [List.getElem?_take, if_pos hyj]; rfl
    · rw [List.getElem?_replicate, if_pos hy]
      simp [hx]

/-- the sample cut off after four of its six bytes: the lower row is there, the upper row is zero -/
example : ∃ c c', Success env0 (file fieldsRX [10, 20, 30, 40, 250, 60, 99]) c ∧
    Fails env0 (file fieldsRX [10, 20, 30, 40]) c' ∧
    ∀ x : Nat, x < 3 → plain c' 1 x = plain c 1 x ∧ plain c' 0 x = some Fl.zero := by
  obtain ⟨c, h, h2⟩ := sampleRX_ok
  rw [← fieldsRX_file] at h
  simp only [Bool.and_eq_true, beq_iff_eq] at h2
  obtain ⟨⟨⟨d1, d2⟩, d3⟩, d4⟩ := h2
  obtain ⟨_, _, _, hp, _, hl, _⟩ := C05_shape h
  have k1 : c.px = 3 := by rw [← hp, d1]
  have k2 : c.py = 2 := by rw [← hl, d4]; rfl
  obtain ⟨k, hk, hlen, hall⟩ := C73_truncated_bytes fieldsRX_wf h (by decide)
  rw [k1, k2] at hlen hall
  have hk1 : k = 1 := by
    rcases hk with rfl | rfl
    · rfl
    · simp at hlen
  subst hk1
  obtain ⟨c', g1, _, _, _, g3⟩ := hall 4 (by decide)
  refine ⟨c, c', h, g1, ?_⟩
  intro x hx
  exact ⟨by rw [g3 x 1 hx (by decide), if_pos (by decide)], by rw [g3 x 0 hx (by decide), if_neg (by decide)]⟩

/-- the run-length sample cut off in its second line -/
example : ∃ c c', Success env0 samplePC c ∧ Fails env0 (file fieldsPC (lines [[1, 17, 0x21, 0x12]] ++ [2, 16])) c' ∧
    ∀ x : Nat, x < c.px.toNat → plain c' 0 x = plain c 0 x ∧ plain c' 1 x = some Fl.zero := by
  obtain ⟨c, h, h2⟩ := samplePC_ok
  refine ⟨c, ?_⟩
  rw [← fieldsPC_file] at h ⊢
  simp only [Bool.and_eq_true, beq_iff_eq] at h2
  obtain ⟨⟨d1, d2⟩, d4⟩ := h2
  obtain ⟨_, _, _, hp, _, hl', _⟩ := C05_shape h
  have h' : Success env0 (file fieldsPC (lines [[1, 17, 0x21, 0x12], [2, 16, 0x4F]] ++ [])) c := h
  have k2 : c.py = 2 := by rw [← hl', d4]; rfl
  obtain ⟨c', g1, _, _, _, g3⟩ := C73_truncated_lines (tail := [2, 16]) (j := 1) (by decide) h' (v := str " 2  1.0 19.0") (by decide)
    (by rw [k2]; rfl) (by decide) (by decide) (by decide)
  refine ⟨c', h, g1, ?_⟩
  intro x hx
  exact ⟨by rw [g3 x 0 hx (by rw [k2]; decide), if_pos (by decide)], by rw [g3 x 1 hx (by rw [k2]; decide), if_neg (by decide)]⟩

/-- nothing but the header: all pixels are zero -/
theorem header_only {E : Env} {fs : List Field} {data : Bytes} {c : Composite} (hw : ∀ f ∈ fs, f.WF)
    (hS : Success E (file fs data) c) :
    ∃ c', Fails E (file fs []) c' ∧
      c'.plainData = List.replicate c.py.toNat (List.replicate c.px.toNat Fl.zero) := by
  obtain ⟨h, ha, hf, _, hh, hiff⟩ := success_swap hw hS
  obtain ⟨rows, rest, hd, rfl⟩ := (hiff data c).mp hS
  have hD : DimsOK h := ⟨⟨ha.1, ha.2.1⟩, ⟨ha.2.2.1, ha.2.2.2⟩, (header_dims (hh data)).1⟩
  have hb : Blank h := by
    have := parseHeader_eq E (file fs data)
    rw [hh data] at this
    exact this.2
  have hpx : 0 < h.px.toNat := by have := ha.1; omega
  have hpy : 0 < h.py.toNat := by have := ha.2.2.1; omega
  have key : ∀ e, e ≠ Err.unknownUnit → ∀ pos, parseData [] h = .err e { h with
      plainData := setAll pos (List.replicate h.py.toNat (List.replicate h.px.toNat Fl.zero)) 0 [] } →
      ∃ c', Fails E (file fs []) c' ∧ c'.plainData = List.replicate h.py.toNat (List.replicate h.px.toNat Fl.zero) :=
    fun e he pos hp => ⟨_, ⟨e, he, newComposite_err (hh _) he hp⟩, rfl⟩
  unfold dataOf at hd
  cases he : identifyEncoding h with
  | runlength =>
    obtain ⟨e, h1, h2⟩ := parseData_stops h [] hb hD hpy (Or.inr (Or.inr ⟨he, rfl, by simp⟩))
    exact key e h1 _ h2
  | unknown => rw [he] at hd; simp at hd
  | singleByte =>
    obtain ⟨e, h1, h2⟩ := parseData_stops h [] hb hD hpy (Or.inl ⟨he, rfl, by simpa using hpx⟩)
    exact key e h1 _ h2
  | littleEndian =>
    obtain ⟨e, h1, h2⟩ := parseData_stops h [] hb hD hpy (Or.inr (Or.inl ⟨he, rfl, by simp; omega⟩))
    exact key e h1 _ h2

/-- C73 (c). The header alone decides how much memory is asked for: for all dimensions up to a thousand million each
there is an input of at most a thousand bytes that is rejected only after a picture of that size, all zeros, was
built. -/
theorem C73_header_alone (E : Env) {rows cols : Nat} (hr : 1 ≤ rows ∧ rows ≤ 10 ^ 9) (hc : 1 ≤ cols ∧ cols ≤ 10 ^ 9) :
    ∃ input c', input.length ≤ 1000 ∧ Fails E input c' ∧
      c'.plainData = List.replicate rows (List.replicate cols Fl.zero) := by
  have hw0 := sampleContent_wf
  let p : Content := { sampleContent with rows := rows, cols := cols, wide := false, data := List.replicate (1 * (rows * cols)) 0 }
  have hp : p.WF := ⟨hw0.label, hw0.letters, hw0.wmo, hw0.time, hw0.format, hw0.interval, hw0.forecast, hw0.precision, hr, hc,
    List.length_replicate ..⟩
  obtain ⟨hw, hlen⟩ := fields_facts hp
  obtain ⟨c, hS, _, _, _, _, _, _, _, _, hx, hy, _⟩ := C47_round_trip E p hp
  obtain ⟨c', h1, h2⟩ := header_only hw hS
  refine ⟨_, c', ?_, h1, ?_⟩
  · unfold file
    have := headerLength_le hp
    simp only [List.length_append, List.length_cons, List.length_nil]
    omega
  · rw [h2, hx, hy]
    rfl

end Props
