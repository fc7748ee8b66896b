/-
C68: end to end round trip for run-length coded pictures.
-/
import Verif.Spec.Picture
import Verif.Props.EndToEnd
import Verif.Props.Accept
import Verif.Props.Runlength

namespace Props
open Go Radolan Spec

/-- a content with the same label, number and time -/
def Picture.base (p : Picture) : Content where
  label := p.label
  wmo := p.wmo
  time := p.time
  format := 0
  interval := 0
  forecast := 0
  precision := 0
  rows := 1
  cols := 1
  wide := false
  data := [0]

theorem picture_base {p : Picture} (h : p.WF) : (Picture.base p).WF where
  label := h.label
  letters := h.letters
  wmo := h.wmo
  time := h.time
  format := by simp [Picture.base]
  interval := by simp [Picture.base]
  forecast := by simp [Picture.base]
  precision := by simp [Picture.base]
  rows := by simp [Picture.base]
  cols := by simp [Picture.base]
  data := by simp [Picture.base, Content.depth]

theorem digits_single {n : Nat} (h : n < 10) : digits n = [n] := by
  unfold digits; rw [if_pos h]

theorem f51_spec {t : Int} (h : -999 ≤ t ∧ t ≤ 9999) : IsF51 (f51 t) ((t : ℚ) / 10) := by
  obtain ⟨g1, g2, g3⟩ := digits_spec (t.natAbs / 10)
  have hd : nat (t.natAbs % 10) = asciiDigits [t.natAbs % 10] := by
    unfold nat; rw [digits_single (by omega)]
  have hdec : decimal (digits (t.natAbs / 10) ++ [t.natAbs % 10]) = t.natAbs := by
    rw [decimal_append, g3]; omega
  have hall : ∀ d ∈ digits (t.natAbs / 10), d < 10 := g2
  by_cases hneg : t < 0
  · have hl := digits_len (t.natAbs / 10) 2 (by decide) (by omega)
    have hl1 : 1 ≤ (digits (t.natAbs / 10)).length := List.length_pos_iff.mpr g1
    refine ⟨2 - (digits (t.natAbs / 10)).length, .minus, digits (t.natAbs / 10), t.natAbs % 10, ?_, ?_, hall, by omega, ?_⟩
    · unfold f51; rw [if_pos hneg, hd]; unfold nat
      simp [str, asciiDigits, Sign.text, Nat.sub_sub]
      try omega
    · unfold f51; rw [if_pos hneg, hd]; unfold nat
      simp [str, asciiDigits]
      omega
    · rw [hdec]
      have : (t : ℚ) = -((t.natAbs : Int) : ℚ) := by
        rw [← Int.cast_neg]; congr 1; omega
      rw [this]; simp [Sign.apply]
  · have hl := digits_len (t.natAbs / 10) 3 (by decide) (by omega)
    have hl1 : 1 ≤ (digits (t.natAbs / 10)).length := List.length_pos_iff.mpr g1
    refine ⟨3 - (digits (t.natAbs / 10)).length, .none, digits (t.natAbs / 10), t.natAbs % 10, ?_, ?_, hall, by omega, ?_⟩
    · unfold f51; rw [if_neg hneg, hd]; unfold nat
      simp [str, asciiDigits, Sign.text, Nat.sub_sub]
      try omega
    · unfold f51; rw [if_neg hneg, hd]; unfold nat
      simp [str, asciiDigits]
      omega
    · rw [hdec]
      have : (t : ℚ) = ((t.natAbs : Int) : ℚ) := by
        congr 1; omega
      rw [this]; simp [Sign.apply]

theorem plain_f51 {t : Int} (h : -999 ≤ t ∧ t ≤ 9999) : ∀ b ∈ f51 t, Plain b := by
  obtain ⟨k, s, ip, d, e, _, h2, h3, _⟩ := f51_spec h
  rw [e]
  intro b hb
  simp only [List.mem_append] at hb
  rcases hb with (((hb | hb) | hb) | hb) | hb
  · rw [List.eq_of_mem_replicate hb]; decide
  · cases s <;> simp [Sign.text] at hb <;> subst hb <;> decide
  · exact plain_ascii h2 b hb
  · simp at hb; subst hb; decide
  · exact plain_ascii (by simpa using h3) b hb

theorem three_spec {n : Nat} (h : n ≤ 999) :
    (∀ d ∈ [n / 100, n / 10 % 10, n % 10], d < 10) ∧ decimal [n / 100, n / 10 % 10, n % 10] = n := by
  refine ⟨?_, ?_⟩
  · intro d hd; simp at hd; omega
  · simp [decimal]; omega

theorem f51_length {t : Int} (h : -999 ≤ t ∧ t ≤ 9999) : (f51 t).length = 5 := by
  obtain ⟨_, _, _, _, _, h, _⟩ := f51_spec h; exact h

theorem f51s_spec {ts : List Int} (h : ∀ t ∈ ts, -999 ≤ t ∧ t ≤ 9999) :
    List.Forall₂ IsF51 (ts.map f51) (ts.map fun t : Int => (t : ℚ) / 10) := by
  induction ts with
  | nil => exact .nil
  | cons t ts ih => exact .cons (f51_spec (h t (by simp))) (ih fun x hx => h x (by simp [hx]))

theorem pictureSize {p : Picture} (h : p.WF) :
    1 ≤ p.rows.length ∧ p.rows.length ≤ 2400 ∧ 1 ≤ p.cols ∧ p.cols ≤ 999 := by
  have := h.size
  split at this
  · omega
  · split at this <;> omega

theorem pictureFields_wf {p : Picture} (h : p.WF) {L : Bytes} (h1 : L ≠ []) (h2 : ∀ b ∈ L, Plain b) :
    ∀ g ∈ p.fieldsBY L, g.WF := by
  have hb := fieldsBY_wf (picture_base h) h1 h2
  have hS := h.size
  intro g hg
  simp only [Picture.fieldsBY, List.cons_append, List.nil_append, List.mem_cons] at hg
  rcases hg with rfl | rfl | rfl | rfl | rfl | rfl | hg
  · exact hb _ (by simp only [Content.fieldsBY, List.mem_cons]; exact Or.inl rfl)
  · exact wf_of_plain (by decide) h1 h2
  · have hn := plain_numText (justified_numText 2 p.levels.length (by have := h.levels.1; omega))
    refine wf_of_plain (by decide) (by simp [hn.1]) ?_
    intro b hb
    rcases List.mem_append.mp hb with hb | hb
    · exact hn.2 b hb
    · simp only [List.mem_flatten, List.mem_map] at hb
      obtain ⟨_, ⟨t, ht, rfl⟩, hb⟩ := hb
      exact plain_f51 (h.levels.2 t ht) b hb
  · decide
  · decide
  · refine wf_of_plain (by decide) (by simp [str]) ?_
    intro b hb
    rcases List.mem_append.mp hb with hb | hb
    · have : ∀ b ∈ str " ", Plain b := by decide
      exact this b hb
    · exact h.stations.2 b hb
  · split at hg
    · simp at hg
    · rename_i hx
      simp only [Bool.or_eq_true, not_or, Bool.not_eq_true] at hx
      simp only [List.mem_singleton] at hg
      subst hg
      rw [hx.1, hx.2] at hS
      simp only [Bool.false_eq_true, if_false] at hS
      refine wf_of_plain (by decide) (by simp [three, asciiDigits]) ?_
      intro b hb
      rcases List.mem_append.mp hb with hb | hb
      · exact plain_ascii (three_spec hS.1.2).1 b hb
      · exact plain_ascii (three_spec hS.2.2).1 b hb

theorem pictureFields_value {p : Picture} (h : p.WF) (L : Bytes) :
    value (p.fieldsBY L) (str "BY") = some L ∧
    value (p.fieldsBY L) (str "LV") = some (justified 2 p.levels.length ++ (p.levels.map f51).flatten) ∧
    value (p.fieldsBY L) (str "GP") = none ∧
    value (p.fieldsBY L) (str "BG") = (if p.strip || p.volume then none else some (three p.rows.length ++ three p.cols)) ∧
    ∀ k ∈ [str "VV", str "INT", str "E", str "VS"], value (p.fieldsBY L) k = none := by
  have hk : ∀ k ∈ knownKeys, ¬ p.letters = k := fun k hk e => h.letters (e ▸ hk)
  have k1 := hk (str "GP") (by decide)
  have k2 := hk (str "BG") (by decide)
  have k3 := hk (str "VV") (by decide)
  have k4 := hk (str "INT") (by decide)
  have k5 := hk (str "E") (by decide)
  have k6 := hk (str "VS") (by decide)
  unfold Picture.fieldsBY
  cases hx : (p.strip || p.volume)
  · refine ⟨?_, ?_, ?_, ?_, ?_⟩
    · simp +decide only [List.cons_append, List.nil_append, value, if_true, if_false]
    · simp +decide only [List.cons_append, List.nil_append, value, if_true, if_false]
    · simp +decide only [List.cons_append, List.nil_append, value, if_true, if_false, k1]
    · simp +decide only [List.cons_append, List.nil_append, value, if_true, if_false]
    · intro k hk
      simp only [List.mem_cons, List.not_mem_nil, or_false] at hk
      rcases hk with rfl | rfl | rfl | rfl <;>
        simp +decide only [List.cons_append, List.nil_append, value, if_false, k3, k4, k5, k6]
  · refine ⟨?_, ?_, ?_, ?_, ?_⟩
    · simp +decide only [List.cons_append, List.nil_append, value, if_true, if_false]
    · simp +decide only [List.cons_append, List.nil_append, value, if_true, if_false]
    · simp +decide only [List.cons_append, List.nil_append, value, if_true, if_false, k1]
    · simp +decide only [List.cons_append, List.nil_append, value, if_true, if_false, k2]
    · intro k hk
      simp only [List.mem_cons, List.not_mem_nil, or_false] at hk
      rcases hk with rfl | rfl | rfl | rfl <;>
        simp +decide only [List.cons_append, List.nil_append, value, if_true, if_false, k3, k4, k5, k6]

theorem group_length (ks : List Nat) : (group ks).length ≤ ks.length := by
  induction ks with
  | nil => simp [group]
  | cons k ks ih =>
    unfold group
    cases hg : group ks with
    | nil => simp
    | cons r rs =>
      rw [hg] at ih
      obtain ⟨n, k'⟩ := r
      simp only
      split <;> simp at ih ⊢ <;> omega

theorem encodeLine_length (nr : UInt8) (cs : List Nat) : (encodeLine nr cs).length ≤ cs.length + 2 := by
  have h1 := group_length (cs.dropWhile (· = 0))
  have h2 := congrArg List.length (List.takeWhile_append_dropWhile (p := (· = 0)) (l := cs))
  rw [List.length_append] at h2
  unfold encodeLine
  simp only [List.length_cons, List.length_append, List.length_replicate, List.length_map]
  omega

theorem lines_length {ls : List Bytes} {n : Nat} (h : ∀ l ∈ ls, l.length ≤ n) : (lines ls).length ≤ ls.length * (n + 1) := by
  induction ls with
  | nil => simp [lines]
  | cons l ls ih =>
    have i := ih fun x hx => h x (by simp [hx])
    have := h l (by simp)
    unfold lines at i ⊢
    simp only [List.map_cons, List.flatten_cons, List.length_append, List.length_cons, List.length_nil] at i ⊢
    rw [Nat.add_mul]
    omega

theorem pictureData_length {p : Picture} (h : p.WF) : p.data.length ≤ 2400 * 1002 := by
  obtain ⟨_, h2, _, h4⟩ := pictureSize h
  have := lines_length (ls := p.rows.mapIdx fun i r => encodeLine (p.lineNumber i) r) (n := 1001) (by
    intro l hl
    obtain ⟨i, hi, rfl⟩ := List.mem_iff_getElem.mp hl
    simp only [List.getElem_mapIdx]
    simp only [List.length_mapIdx] at hi
    have := encodeLine_length (p.lineNumber i) p.rows[i]
    have := (h.rows _ (List.getElem_mem hi)).1
    omega)
  rw [List.length_mapIdx] at this
  unfold Picture.data
  exact this.trans (Nat.mul_le_mul_right _ h2)

theorem pictureHeader_length {p : Picture} (h : p.WF) : 21 < p.headerLength ∧ p.headerLength ≤ 2 ^ 33 := by
  have hlab : p.label.length = 2 := by obtain ⟨a, b, hl, _⟩ := h.label; rw [hl]; rfl
  have hl := congrArg List.length (stamp_field (picture_base h))
  rw [stamp_length (label := (Picture.base p).label) hlab (by simp [asciiDigits, Picture.base, h.wmo.1])] at hl
  have hl' : (p.letters ++ (p.label.drop p.letters.length ++ two p.time.day ++ two p.time.hour ++ two p.time.minute
      ++ asciiDigits p.wmo ++ two p.time.month ++ two (p.time.year % 100))).length = 17 := hl
  have hf := flatten_length (f51s_spec h.levels.2)
  rw [List.length_map] at hf
  have hj := justified_length (w := 2) (n := p.levels.length) (by decide) (by have := h.levels.1; omega)
  have hs := h.stations.1
  have hn := h.levels.1
  unfold Picture.headerLength Picture.fieldsBY
  cases p.strip || p.volume <;>
  · simp only [List.cons_append, List.nil_append, header, List.length_append] at hl' ⊢
    simp only [hl', hf, hj]
    simp [str, three, asciiDigits, header] at hl' ⊢
    omega

theorem pictureHeader_congr (p : Picture) {L L' : Bytes} (h : L.length = L'.length) :
    (header (p.fieldsBY L)).length = (header (p.fieldsBY L')).length := by
  simp [Picture.fieldsBY, header, h]

/-- C68. Whatever a (well-formed) picture says, NewComposite reads it back from the file written: product, time,
levels (rounded to the nearest float32), dimensions, layers, and the level of every pixel. -/
theorem C68_picture_round_trip (E : Env) (p : Picture) (h : p.WF) :
    ∃ c levels, Success E p.serialise c ∧
      c.product = p.label ∧ c.captureTime = p.time.instant ∧ c.forecastTime = p.time.instant ∧
      c.level = some levels ∧ List.Forall₂ Nearest32 levels (p.levels.map fun t : Int => (t : ℚ) / 10) ∧
      c.dx = p.cols ∧ c.dy = p.height ∧ c.dz = p.layers ∧ c.px = p.cols ∧ c.py = p.rows.length ∧
      (∀ x y z : Nat, x < p.cols → y < p.height → z < p.layers → ∃ k, p.code x y z = some k ∧
        c.AtZ x y z = some (classValue levels k)) ∧
      (NewComposite E p.serialise = .ret c none ↔ ∃ u, p.label ∈ productsIn u) := by
  obtain ⟨z1, z2, z3, z4⟩ := pictureSize h
  have hdl := pictureData_length h
  obtain ⟨hh1, hh2⟩ := pictureHeader_length h
  have htot : p.headerLength + p.data.length < 2 ^ 63 := by omega
  have hBYn := justified_numText 20 _ htot
  have hBYl := justified_length (w := 20) (n := p.headerLength + p.data.length) (by decide) (by omega)
  have hw : ∀ g ∈ p.fields, g.WF := pictureFields_wf h (plain_numText hBYn).1 (plain_numText hBYn).2
  obtain ⟨v1, v2, v3, v4, v5⟩ := pictureFields_value h (justified 20 (p.headerLength + p.data.length))
  have v1 : value p.fields (str "BY") = _ := v1
  have v2 : value p.fields (str "LV") = _ := v2
  have v3 : value p.fields (str "GP") = _ := v3
  have v4 : value p.fields (str "BG") = _ := v4
  have v5 : ∀ k ∈ [str "VV", str "INT", str "E", str "VS"], value p.fields k = none := v5
  have hlen : (header p.fields).length + 1 = p.headerLength := by
    have := pictureHeader_congr p (L := justified 20 (p.headerLength + p.data.length))
      (L' := List.replicate 20 32) (by rw [hBYl]; simp)
    unfold Picture.fields
    rw [this]; rfl
  have hlab : p.label.length = 2 := by obtain ⟨a, b, hl, _⟩ := h.label; rw [hl]; rfl
  have hwmo : (asciiDigits p.wmo).length = 5 := by simp [asciiDigits, h.wmo.1]
  have hst : ∃ rest, header p.fields = stamp p.label (asciiDigits p.wmo) p.time ++ rest := by
    have := stamp_field (picture_base h)
    refine ⟨header p.fields.tail, ?_⟩
    rw [show stamp p.label (asciiDigits p.wmo) p.time =
      stamp (Picture.base p).label (asciiDigits (Picture.base p).wmo) (Picture.base p).time from rfl, ← this]
    rfl
  obtain ⟨hrest, hst⟩ := hst
  have hdate := dateBytes_stamp (label := p.label) (t := p.time) hlab hwmo (hrest ++ [3])
  rw [← List.append_assoc, ← hst] at hdate
  have htk : (header p.fields).take 2 = p.label := by
    rw [hst]; unfold stamp
    simp only [List.append_assoc]
    rw [List.take_append_of_le_length (by omega), ← hlab, List.take_length]
  have hptime : parseTime (dateBytes (header p.fields ++ [3])) = some p.time.instant := by
    rw [hdate, parseTime_digits h.time.2 (civil_small h.time.1), if_pos h.time.1]
  have hcnt := justified_length (w := 2) (n := p.levels.length) (by decide) (by have := h.levels.1; omega)
  have hnum : NumText (justified 2 p.levels.length) (p.levels.map f51).length := by
    rw [List.length_map]; exact justified_numText 2 _ (by have := h.levels.1; omega)
  have hq := f51s_spec h.levels.2
  have hpl := levelTable_F51 hcnt hnum hq
  have hdecl : Declares p.fields p.rows.length p.cols := by
    unfold Declares
    rw [v3, v4, htk]
    have hS := h.size
    cases hx : p.strip
    · cases hy : p.volume
      · rw [hx, hy] at hS
        simp only [Bool.false_eq_true, if_false] at hS
        simp only [Bool.or_self, Bool.false_eq_true, if_false]
        obtain ⟨a1, a2⟩ := three_spec hS.1.2
        obtain ⟨b1, b2⟩ := three_spec hS.2.2
        refine ⟨three p.cols, [], ⟨[], .none, _, ?_, blank_replicate 0, by simp, a1, by simp [Sign.text, asciiDigits],
            Or.inl (by simp [Sign.text, asciiDigits]), by rw [a2]; rfl⟩,
          ⟨[], .none, _, ?_, blank_replicate 0, by simp, b1, by simp [Sign.text, asciiDigits],
            Or.inl (by simp [Sign.text, asciiDigits]), by rw [b2]; rfl⟩⟩
        · rfl
        · simp [Sign.text, three]
      · rw [hx, hy] at hS
        simp only [Bool.false_eq_true, if_false, if_true] at hS
        simp only [Bool.or_true, if_true]
        exact Or.inr ⟨of_decide_eq_true hy, by omega, by omega⟩
    · rw [hx] at hS
      simp only [if_true] at hS
      simp only [Bool.true_or, if_true]
      exact Or.inl ⟨of_decide_eq_true hx, by omega, by omega⟩
  have hR : Readable p.fields (p.headerLength + p.data.length : Nat) p.rows.length p.cols := by
    refine ⟨by omega, ?_, ⟨_, v1, isInt_reads hBYn⟩, ?_, hdecl, by
      intro v hv; rw [v2] at hv; simp only [Option.some.injEq] at hv; subst hv; exact hpl⟩
    · rw [← stamped_iff (by omega)]
      rw [dateBytes_append (by omega)] at hptime
      exact ⟨_, hptime⟩
    · intro k hk v hv
      rw [v5 k hk] at hv; simp at hv
  have hF : Fit p.rows.length p.cols := by unfold Fit; omega
  have hblank : ∃ c0, Success E (file p.fields (lines (List.replicate p.rows.length []))) c0 := by
    have hll := lines_length (ls := List.replicate p.rows.length []) (n := 0) (by
      intro l hl; rw [List.eq_of_mem_replicate hl]; simp)
    rw [List.length_replicate] at hll
    rw [C63_accepted_iff E hw (by omega) (by omega)]
    refine ⟨_, _, _, hR, hF, ?_⟩
    unfold Complete
    rw [if_neg (by rw [v2]; simp)]
    refine ⟨List.replicate p.rows.length [], [], by simp, by simp, ?_⟩
    intro l hl
    rw [List.eq_of_mem_replicate hl]
    exact ⟨by simp, Or.inl (Or.inl rfl)⟩
  obtain ⟨c0, hS0⟩ := hblank
  have hdims : ∀ {data c}, Success E (file p.fields data) c →
      c.dx = p.cols ∧ c.dy = p.height ∧ c.px = p.cols ∧ c.py = p.rows.length ∧ c.product = p.label ∧
      c.captureTime = p.time.instant := by
    intro data c hS
    obtain ⟨hx, rows, rest', hh, ha, hd, rfl, hf, _⟩ := success_fields hw hS
    have e2 : (finish E hx rows).dx = hx.dx := rfl
    have e3 : (finish E hx rows).dy = hx.dy := rfl
    have e4 : (finish E hx rows).px = hx.px := rfl
    have e5 : (finish E hx rows).py = hx.py := rfl
    have e1 : (finish E hx rows).product = p.label := by
      show hx.product = _
      rw [hf.product, List.take_append_of_le_length (by omega), htk]
    have e6 : (finish E hx rows).captureTime = p.time.instant := by
      show hx.captureTime = _
      have := hf.capture; rw [hptime] at this; simpa using this.symm
    obtain ⟨_, d2, d3⟩ := C24_dimensions hw hS
    have hz := h.size
    refine and_assoc.mp (and_assoc.mp (and_assoc.mp ⟨?_, e1, e6⟩))
    rw [and_assoc, and_assoc]
    unfold Picture.height
    cases hxs : p.strip
    · cases hxv : p.volume
      · rw [hxs, hxv] at hz v4
        simp only [Bool.false_eq_true, if_false, Bool.or_self] at hz v4 ⊢
        obtain ⟨a1, a2⟩ := three_spec hz.1.2
        obtain ⟨b1, b2⟩ := three_spec hz.2.2
        obtain ⟨k1, k2, k3, k4⟩ := d2 v3 _ p.rows.length p.cols v4 ⟨_, _, [], by simp [three], by simp, by simp, by
          intro d hd
          rcases List.mem_append.mp hd with hd | hd
          · exact a1 d hd
          · exact b1 d hd, by simp, a2.symm, b2.symm⟩
        exact ⟨k2, k1, k4, k3⟩
      · rw [hxs, hxv] at hz v4
        simp only [Bool.false_eq_true, if_false, if_true, Bool.or_true] at hz v4 ⊢
        have hlv := of_decide_eq_true hxv
        rcases d3 v3 v4 with ⟨a, _⟩ | ⟨_, a1, a2, a3, a4⟩
        · rw [e1] at a
          have : ∀ l ∈ volumeProducts, l ∉ stripProducts := by decide
          exact absurd a (this _ hlv)
        · omega
    · rw [hxs] at hz v4
      simp only [if_true, Bool.true_or] at hz v4 ⊢
      have hlv := of_decide_eq_true hxs
      rcases d3 v3 v4 with ⟨_, a1, a2, a3, a4⟩ | ⟨a, _⟩
      · omega
      · rw [e1] at a
        have : ∀ l ∈ volumeProducts, l ∉ stripProducts := by decide
        exact absurd hlv (this _ a)
  obtain ⟨_, _, hp0, hq0, _⟩ := hdims hS0
  obtain ⟨c, levels, hS, _, hplain, hlev⟩ := C11_round_trip hw hS0 v2 p.rows (by rw [hq0])
    (fun r hr => ⟨by rw [hp0, (h.rows r hr).1], (h.rows r hr).2⟩) p.lineNumber h.lineNumber []
  have hnear : List.Forall₂ Nearest32 levels (p.levels.map fun t : Int => (t : ℚ) / 10) := by
    obtain ⟨l, g1, _, g2⟩ := (C27_levels hw hS).1 _ _ _ v2 hcnt hnum hq
    rw [hlev] at g1
    rw [Option.some.inj g1]
    exact g2
  rw [List.append_nil] at hS
  have hS' : Success E p.serialise c := hS
  obtain ⟨k1, k2, k3, k4, k5, k6⟩ := hdims hS
  have hprod25 := C25_product_unit E p.serialise c
  obtain ⟨l1, l2⟩ := C06_layers hS'
  have hz := h.size
  have hdz : c.dz = p.layers ∧ ∀ x y z : Nat, y < p.height → z < p.layers →
      voxel c z y x = plain c (if p.strip then 24 + y else 200 * z + y) x := by
    unfold Picture.layers
    unfold Picture.height at k2 ⊢
    cases hxs : p.strip
    · cases hxv : p.volume
      · rw [hxs, hxv] at hz k2
        simp only [Bool.false_eq_true, if_false, Bool.or_self] at hz k2 ⊢
        obtain ⟨m1, m2⟩ := l1 (by rw [k2, k4]; exact Int.emod_self)
        rw [k2, k4, Int.ediv_self (by omega)] at m1
        refine ⟨m1, fun x y z hy hz => ?_⟩
        have : z = 0 := by omega
        subst this
        rw [m2 x y 0 (by omega)]
        congr 1; simp
      · rw [hxs, hxv] at hz k2
        simp only [Bool.false_eq_true, if_false, if_true, Bool.or_true] at hz k2 ⊢
        obtain ⟨m1, m2⟩ := l1 (by rw [k2, k4, hz.1]; rfl)
        rw [k2, k4, hz.1] at m1
        refine ⟨m1, fun x y z hy hz => ?_⟩
        rw [m2 x y z (by omega), k2]
        congr 1
    · have hnv : p.volume = false := by
        have : ∀ l ∈ stripProducts, l ∉ volumeProducts := by decide
        exact decide_eq_false (this _ (of_decide_eq_true hxs))
      rw [hxs] at hz k2
      rw [hnv]
      simp only [if_true, Bool.true_or, Bool.false_eq_true, if_false] at hz k2 ⊢
      obtain ⟨m1, m2⟩ := l2 (by rw [k2, k4, hz.1]; decide)
      refine ⟨m1, fun x y z hy hz' => ?_⟩
      have : z = 0 := by omega
      subst this
      rw [m2 x y (by omega), k2, k4, hz.1]
      congr 1
  refine ⟨c, levels, hS', k5, k6, ?_, hlev, hnear, k1, k2, hdz.1, k3, k4, ?_, ?_⟩
  · rw [(C22_forecast_time hw hS).1 (v5 _ (by simp)), k6]
  · intro x y z hx hy hzl
    obtain ⟨v, w1, w2⟩ := (C02_outside_nan E c).2.2.1 _ hS' x y z (by omega) (by omega) (by have := hdz.1; omega)
    rw [hdz.2 x y z hy hzl] at w2
    unfold plain at w2
    rw [hplain, List.getElem?_map] at w2
    unfold Picture.code
    cases hr : p.rows[if p.strip then 24 + y else 200 * z + y]? with
    | none => rw [hr] at w2; simp at w2
    | some r =>
      rw [hr] at w2
      simp only [Option.map_some, Option.bind_some, List.getElem?_map, Option.map_eq_some_iff] at w2
      obtain ⟨k, hk, rfl⟩ := w2
      exact ⟨k, hk, w1⟩
  · constructor
    · intro hn
      by_contra hno
      have := hprod25.2.mpr ⟨hS', by intro u hu; rw [k5] at hu; exact hno ⟨u, hu⟩⟩
      rw [hn] at this
      simp at this
    · rintro ⟨u, hu⟩
      rcases hS' with h1 | h1
      · exact h1
      · exact absurd hu (by rw [← k5]; exact (hprod25.2.mp h1).2 u)

/-- a 2 x 4 picture like those of product PG: two levels, two stations -/
def samplePicture : Picture where
  label := str "PG"
  wmo := [1, 0, 0, 0, 0]
  time := ⟨2016, 6, 26, 21, 15⟩
  levels := [10, -315]
  stations := str "12<boo,ros>"
  cols := 4
  rows := [[0, 0, 1, 1], [2, 2, 5, 0]]
  lineNumber := fun i => UInt8.ofNat (20 + i % 100)

theorem samplePicture_wf : samplePicture.WF where
  label := ⟨80, 71, by decide, by decide, by decide⟩
  letters := by decide
  wmo := by decide
  time := by decide
  levels := by decide
  stations := by decide
  size := by decide
  rows := by decide
  lineNumber := by
    intro i
    have : ∀ k : Fin 100, UInt8.ofNat (20 + k.val) ≠ 10 := by decide
    exact this ⟨i % 100, Nat.mod_lt _ (by decide)⟩

example : samplePicture.serialise = str "PG262115100000616BY                  93LV 2  1.0-31.5CS0MX 0MS 12<boo,ros>BG002004"
    ++ [3] ++ [20, 18, 0x21, 10, 21, 16, 0x22, 0x15, 0x10, 10] := by
  have d : digits 2 = [2] ∧ digits 1 = [1] ∧ digits 0 = [0] ∧ digits 31 = [3, 1] ∧ digits 5 = [5] ∧ digits 93 = [9, 3] := by
    simp [digits]
  have hd : samplePicture.data = [20, 18, 0x21, 10, 21, 16, 0x22, 0x15, 0x10, 10] := by decide
  have h1 : f51 10 = str "  1.0" := by simp [f51, nat, d]; decide
  have h2 : f51 (-315) = str "-31.5" := by simp [f51, nat, d]; decide
  have h3 : justified 2 2 = str " 2" := by simp [justified, nat, d]; decide
  have hf : ∀ L, header (samplePicture.fieldsBY L) = str "PG262115100000616BY" ++ L ++
      str "LV 2  1.0-31.5CS0MX 0MS 12<boo,ros>BG002004" := by
    intro L
    have e1 : samplePicture.levels.length = 2 := rfl
    have e2 : samplePicture.levels.map f51 = [f51 10, f51 (-315)] := rfl
    have e3 : (samplePicture.strip || samplePicture.volume) = false := by decide
    unfold Picture.fieldsBY
    rw [e1, e2, e3, h1, h2, h3]
    have e4 : samplePicture.letters = str "PG" := by decide
    rw [e4]
    simp only [List.cons_append, List.nil_append, header, if_false, Bool.false_eq_true]
    have e5 : ∀ a b a' b' : Bytes, a = a' → b = b' → a ++ (str "BY" ++ L ++ b) = a' ++ str "BY" ++ L ++ b' := by
      rintro a b _ _ rfl rfl; simp
    rw [e5 _ _ (str "PG262115100000616") (str "LV 2  1.0-31.5CS0MX 0MS 12<boo,ros>BG002004") (by decide) (by decide)]
    rw [show str "PG262115100000616BY" = str "PG262115100000616" ++ str "BY" by decide]
  have hl : samplePicture.headerLength = 83 := by
    unfold Picture.headerLength; rw [hf]; rfl
  unfold Picture.serialise Picture.fields file
  rw [hl, hd, hf]
  simp [justified, nat, d]
  decide

example : ∃ c, NewComposite env0 samplePicture.serialise = .ret c none ∧ c.AtZ 3 1 0 = some .nan ∧ c.AtZ 2 1 0 = some .nan := by
  obtain ⟨c, l, _, _, _, _, h1, hq, _, _, _, _, _, h, h2⟩ := C68_picture_round_trip env0 _ samplePicture_wf
  refine ⟨c, h2.mpr ⟨.dBZ, by decide⟩, ?_, ?_⟩
  · obtain ⟨k, hk, hv⟩ := h 3 1 0 (by decide) (by decide) (by decide)
    have : k = 0 := by
      have e : samplePicture.code 3 1 0 = some 0 := by decide
      rw [e] at hk; simpa using hk.symm
    subst this; exact hv
  · obtain ⟨k, hk, hv⟩ := h 2 1 0 (by decide) (by decide) (by decide)
    have : k = 5 := by
      have e : samplePicture.code 2 1 0 = some 5 := by decide
      rw [e] at hk; simpa using hk.symm
    subst this
    have hlen : l.length = 2 := hq.length_eq
    refine hv.trans ?_
    have : l[4]? = none := by simp [hlen]
    simp [classValue, this]

end Props
