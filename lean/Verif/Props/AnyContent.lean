/-
C94: the contents of every accepted file, whatever its header says.
-/
import Verif.Spec.Content
import Verif.Props.AnyInput
import Verif.Props.Runlength

namespace Props
open Go Radolan Radolan.Any
open _root_.Spec

theorem success_head {E : Env} {H : Head} {s : Section} (hw : Split E H s) {data : Bytes} {c : Composite}
    (hS : Success E (H.file data) c) :
    ∃ h rows rest', AllocOK h ∧ dataOf h data = some (rows, rest') ∧ c = finish E h rows ∧
      HeaderFields E (H.text ++ [3]) s h ∧ (H.text ++ [3]).take 2 = H.text.take 2 ∧
      ∃ len, H.Announces len ∧ H.Declares h.py h.px ∧ h.dataLength = wrap64 (len - (H.text.length + 1)) := by
  obtain ⟨h, rest, rows, rest', hh, ha, hd, hc⟩ := parsed_iff.mp hS
  obtain ⟨rfl, hf, hl⟩ := head_of_header hw hh
  obtain ⟨hdr, s', h1, h2, _⟩ := headerOf_some hh
  rw [hw.delim] at h1
  simp only [Option.some.injEq, Prod.mk.injEq] at h1
  obtain ⟨rfl, _⟩ := h1
  simp only [List.length_append, List.length_singleton] at h2
  exact ⟨h, rows, rest', ha, hd, hc, hf, List.take_append_of_le_length (by omega), hl⟩

theorem success_long {E : Env} {H : Head} {s : Section} (hw : Split E H s) {data : Bytes} {c : Composite}
    (hS : Success E (H.file data) c) : 21 ≤ H.text.length := by
  obtain ⟨h, rest, rows, rest', hh, _⟩ := parsed_iff.mp hS
  obtain ⟨hdr, s', h1, h2, _⟩ := headerOf_some hh
  rw [hw.delim] at h1
  simp only [Option.some.injEq, Prod.mk.injEq] at h1
  obtain ⟨rfl, _⟩ := h1
  simp only [List.length_append, List.length_singleton] at h2
  omega

theorem says_of {E : Env} {H : Head} {s : Section} (hw : Split E H s) {k : String} {n : Int}
    (h : (match s.find (str k) with | none => some 0 | some v => sscanfD v) = some n) : H.Says k n := by
  rw [hw.find] at h
  unfold Head.Says
  cases hv : H.val (str k) with
  | none => rw [hv] at h; simp only [Option.some.injEq] at h; exact h.symm
  | some v => rw [hv] at h; exact sscanfD_iff.mp h

theorem reduced_mul (a : Int) : wrap64 (wrap64 a * 10) = Head.reduced (a * 10) := by
  show _ = wrap64 (a * 10)
  rw [wrap64_eq_iff]
  obtain ⟨k, hk⟩ := wrap64_eq a
  exact ⟨k * 10, by rw [hk]; ring⟩

/-- C94 (a). What the header of an accepted file says is what the composite says: label, dimensions, format version,
forecast time and interval (computed with 64 bits), for every header. -/
theorem C94_attributes {E : Env} {H : Head} {data : Bytes} {c : Composite} (hU : Understood E.isUpperNA H)
    (hS : Success E (H.file data) c) : H.Attributes c := by
  obtain ⟨s, hw⟩ := understood_split E hU
  obtain ⟨h, rows, rest', ha, hd, rfl, hf, ht, len, _, hD, _⟩ := success_head hw hS
  have hdims := hf.dims
  rw [ht] at hdims
  have e1 : (finish E h rows).dx = h.dx := rfl
  have e2 : (finish E h rows).dy = h.dy := rfl
  have e3 : (finish E h rows).px = h.px := rfl
  have e4 : (finish E h rows).py = h.py := rfl
  have e5 : (finish E h rows).forecastTime = h.forecastTime := rfl
  have e6 : (finish E h rows).captureTime = h.captureTime := rfl
  have e7 : (finish E h rows).interval = h.interval := rfl
  refine ⟨?_, hD, ?_, ?_, ?_, ?_, ?_, ?_⟩
  · show h.product = _
    rw [hf.product, ht]
  · rw [e1, e3]
    rcases dimsOf_cases hdims with ⟨h1, _⟩ | ⟨_, _, v, hv, hd⟩
    · exact h1
    · have := catalog_dims _ hv
      simp only [Dims.mk.injEq] at hd
      simp only at this
      omega
  · rw [e2, e4]
    unfold dimsOf at hdims
    rw [hw.find, hw.find] at hdims
    cases h1 : H.val (str "GP") with
    | some v =>
      rw [h1] at hdims
      rw [if_neg (by simp)]
      simp only [Option.map_eq_some_iff, Prod.exists, Dims.mk.injEq] at hdims
      obtain ⟨a, b, _, g1, g2, g3, g4⟩ := hdims
      omega
    | none =>
      cases h2 : H.val (str "BG") with
      | some v =>
        rw [h1, h2] at hdims
        rw [if_neg (by simp)]
        simp only [Option.map_eq_some_iff, Prod.exists, Dims.mk.injEq] at hdims
        obtain ⟨a, b, _, g1, g2, g3, g4⟩ := hdims
        omega
      | none =>
        rw [h1, h2] at hdims
        rw [if_pos ⟨rfl, rfl⟩]
        simp only [Option.map_eq_some_iff] at hdims
        obtain ⟨v, hv, he⟩ := hdims
        rcases lookup_dims _ _ hv with ⟨_, g2, g3, _⟩ | ⟨_, g2, g3, _⟩ <;>
        · simp only [Dims.mk.injEq] at he
          omega
  · exact says_of hw hf.format
  · have := hf.capture
    have hlong := success_long hw hS
    rw [dateBytes_append (by omega)] at this
    exact (stampedAt_iff (by omega)).mp this
  · have := hf.forecast
    unfold forecastOf at this
    rw [hw.find] at this
    rw [e5, e6]
    cases hv : H.val (str "VV") with
    | none =>
      rw [hv] at this
      simp only [Option.some.injEq] at this
      exact ⟨0, by unfold Head.Says; rw [hv], by rw [this]; simp [Head.reduced]⟩
    | some v =>
      rw [hv] at this
      simp only [Option.map_eq_some_iff] at this
      obtain ⟨m, hm, he⟩ := this
      exact ⟨m, by unfold Head.Says; rw [hv]; exact sscanfD_iff.mp hm, he.symm⟩
  · have := hf.interval
    unfold intervalOf at this
    rw [hw.find, ht] at this
    rw [e7]
    cases hv : H.val (str "INT") with
    | none =>
      rw [hv] at this
      simp only [Option.some.injEq] at this
      exact ⟨0, by unfold Head.Says; rw [hv], by rw [← this]; simp [Head.reduced]⟩
    | some v =>
      rw [hv] at this
      simp only [Option.map_eq_some_iff] at this
      obtain ⟨m, hm, he⟩ := this
      refine ⟨m, by unfold Head.Says; rw [hv]; exact sscanfD_iff.mp hm, ?_⟩
      rw [← he]
      have hx : isW (H.text.take 2) = H.tens := by
        rw [Bool.eq_iff_iff, isW_iff]
        simp [Head.tens]
      rw [hx]
      cases H.tens
      · simp only [Bool.false_eq_true, if_false, Int.mul_one]; rfl
      · simp only [if_true]; exact reduced_mul _

/-- C94 (b). The pixels of an accepted file without level field, for every header. -/
theorem C94_pixels {E : Env} {H : Head} {data : Bytes} {c : Composite} (hU : Understood E.isUpperNA H)
    (hS : Success E (H.file data) c) (hLV : H.val (str "LV") = none) : H.Bytewise data c := by
  obtain ⟨s, hw⟩ := understood_split E hU
  obtain ⟨h, rows, rest', ha, hd, rfl, hf, ht, len, hA, hD, hl⟩ := success_head hw hS
  have hlv := Any.level_none hw hf hLV
  refine ⟨len, h.precision, hA, says_of hw hf.precision, ?_⟩
  show ∀ x y : Nat, (x : Int) < h.px → (y : Int) < h.py → _
  intro x y hx hy
  have s2 : h.dataLength = wrap64 (wrap64 (h.px * h.py) * 2) ↔ H.Sized len h.py h.px 2 := by
    unfold Head.Sized
    obtain ⟨k, hk⟩ := wrap64_eq (h.px * h.py)
    rw [hl, wrap64_eq_iff, hk, Int.mul_comm h.py h.px]
    generalize h.px * h.py = q
    constructor
    · rintro ⟨m, hm⟩; exact ⟨m + k * 2, by omega⟩
    · rintro ⟨m, hm⟩; exact ⟨m - k * 2, by omega⟩
  have s1 : h.dataLength = wrap64 (h.px * h.py) ↔ H.Sized len h.py h.px 1 := by
    unfold Head.Sized
    rw [hl, wrap64_eq_iff, Int.mul_comm h.py h.px]
    generalize h.px * h.py = q
    constructor
    · rintro ⟨m, hm⟩; exact ⟨m, by omega⟩
    · rintro ⟨m, hm⟩; exact ⟨m, by omega⟩
  constructor
  · intro t2
    replace t2 : H.Sized len h.py h.px 2 := t2
    have e : identifyEncoding h = .littleEndian := by
      unfold identifyEncoding
      rw [hlv]
      simp only [Option.isSome_none, Bool.false_eq_true, if_false]
      rw [if_pos (s2.mpr t2)]
    unfold dataOf at hd
    rw [e] at hd
    simp only [Option.map_eq_some_iff, Prod.mk.injEq] at hd
    obtain ⟨⟨rs, b'⟩, hr, rfl, _⟩ := hd
    obtain ⟨lo, hi, h1, h2, hv⟩ := rowsLE_get hr (i := h.py.toNat - 1 - y) (x := x) (by omega) (by omega)
    refine ⟨lo, hi, h1, h2, ?_⟩
    show (rs.reverse[y]?).bind (·[x]?) = _
    rw [reverse_bind (rowsFrom_length hr) (by omega), hv, pairValue_eq]
    rfl
  · intro t2
    replace t2 : ¬ H.Sized len h.py h.px 2 := t2
    by_cases t1 : H.Sized len h.py h.px 1
    · refine ⟨t1, ?_⟩
      have e : identifyEncoding h = .singleByte := by
        unfold identifyEncoding
        rw [hlv]
        simp only [Option.isSome_none, Bool.false_eq_true, if_false]
        rw [if_neg (fun g => t2 (s2.mp g)), if_pos (s1.mpr t1)]
      unfold dataOf at hd
      rw [e] at hd
      simp only [Option.map_eq_some_iff, Prod.mk.injEq] at hd
      obtain ⟨⟨rs, b'⟩, hr, rfl, _⟩ := hd
      obtain ⟨b, hb, hv⟩ := rowsSB_get hr (i := h.py.toNat - 1 - y) (x := x) (by omega) (by omega)
      refine ⟨b, hb, ?_⟩
      show (rs.reverse[y]?).bind (·[x]?) = _
      rw [reverse_bind (rowsFrom_length hr) (by omega), hv, byteValue_eq]
      rfl
    · have e : identifyEncoding h = .unknown := by
        unfold identifyEncoding
        rw [hlv]
        simp only [Option.isSome_none, Bool.false_eq_true, if_false]
        rw [if_neg (fun g => t2 (s2.mp g)), if_neg (fun g => t1 (s1.mp g))]
      unfold dataOf at hd
      rw [e] at hd
      simp at hd

/-- C94 (c). The pixels of an accepted file with level field, for every header. -/
theorem C94_lines {E : Env} {H : Head} {data v : Bytes} {c : Composite} (hU : Understood E.isUpperNA H)
    (hS : Success E (H.file data) c) (hLV : H.val (str "LV") = some v) : Head.Linewise v data c := by
  obtain ⟨s, hw⟩ := understood_split E hU
  obtain ⟨h, rows, rest', ha, hd, rfl, hf, ht, len, hA, hD, hl⟩ := success_head hw hS
  have h1 := hf.level
  unfold levelsOf at h1
  rw [hw.find, hLV] at h1
  simp only [Option.map_eq_some_iff] at h1
  obtain ⟨l, hlv, hle⟩ := h1
  rw [dataOf_level hle.symm] at hd
  obtain ⟨ls, k1, k2, k3, k4⟩ := rowsRL_iff.mp hd
  have a2 := ha.2.2.1
  refine ⟨l, ls, rest', (levelOf_iff E).mp hlv, k2, ?_, k3, k4⟩
  show (ls.length : Int) = h.py
  omega

/-! ### the odd header: six bytes, precision 36 -/

example (data : Bytes) (h : data.length = 6) : ∃ c b, Success env0 (oddHead.file data) c ∧ c.product = str "RX" ∧
    c.px = 3 ∧ c.py = 2 ∧ c.format = 0 ∧ c.interval = 0 ∧ c.forecastTime = c.captureTime ∧ data[3]? = some b ∧
    plain c 0 0 = some (byteValue (decide (c.dataUnit = Unit.dBZ.code)) 36 b.toNat) := by
  obtain ⟨c, hS⟩ := odd_accepted data h
  obtain ⟨a1, a2, a3, a4, a5, _, ⟨n, a6, a6'⟩, m, a7, a7'⟩ := C94_attributes (oddHead_understood _) hS
  obtain ⟨len, p, b1, b2, b3⟩ := C94_pixels (oddHead_understood _) hS (by decide)
  obtain ⟨s, hw⟩ := understood_split env0 (oddHead_understood _)
  have hD : oddHead.Declares 2 3 := by
    unfold Head.Declares
    rw [show oddHead.val (str "GP") = some (str " 2x 3") by decide]
    exact odd_grid
  obtain ⟨e1, e2⟩ := head_declares_unique hw a2 hD
  have e3 : len = 36 := head_announces_unique hw b1 ⟨str "36", by decide, odd_reads⟩
  have e4 : p = 36 := by
    unfold Head.Says at b2
    rw [show oddHead.val (str "E") = some (str "36") by decide] at b2
    have x := sscanfD_iff.mpr b2
    have y := sscanfD_iff.mpr odd_reads
    rw [x] at y
    simpa using y
  subst e3 e4
  unfold Head.Says at a5 a6 a7
  rw [show oddHead.val (str "VS") = none by decide] at a5
  rw [show oddHead.val (str "VV") = none by decide] at a6
  rw [show oddHead.val (str "INT") = none by decide] at a7
  simp only at a5 a6 a7
  subst a6 a7
  have hx := (b3 0 0 (by omega) (by omega)).2 (by rw [e1, e2]; unfold Head.Sized; decide)
  obtain ⟨_, b, k1, k2⟩ := hx
  rw [e1, e2] at k1
  refine ⟨c, b, hS, ?_, e2, e1, a5, ?_, ?_, k1, k2⟩
  · rw [a1]; decide
  · rw [a7']; simp [Head.reduced]
  · rw [a6']; simp [Head.reduced]

end Props
