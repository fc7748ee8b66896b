/-
C47: end to end round trip for the fixed width encodings.
-/
import Verif.Spec.EndToEnd
import Verif.Props.Time
import Verif.Props.Dims
import Verif.Props.Pixels
import Verif.Props.Shape

namespace Props
open Go Radolan Spec

/-! ### the numbers written -/

theorem digits_spec (n : Nat) : digits n ≠ [] ∧ (∀ d ∈ digits n, d < 10) ∧ decimal (digits n) = n := by
  induction n using Nat.strongRecOn with
  | _ n ih =>
    unfold digits
    split
    · rename_i h; simp [decimal, h]
    · rename_i h
      obtain ⟨h1, h2, h3⟩ := ih (n / 10) (by omega)
      refine ⟨by simp, ?_, ?_⟩
      · intro d hd
        rcases List.mem_append.mp hd with hd | hd
        · exact h2 d hd
        · simp at hd; omega
      · rw [decimal_append, h3]; omega

theorem digits_len (n k : Nat) (hk : 0 < k) (h : n < 10 ^ k) : (digits n).length ≤ k := by
  induction k generalizing n with
  | zero => omega
  | succ k ih =>
    unfold digits
    split
    · simp
    · rename_i h10
      simp only [List.length_append, List.length_singleton]
      have hk : 0 < k := by
        rcases Nat.eq_zero_or_pos k with rfl | hk
        · simp at h; omega
        · exact hk
      have := ih (n / 10) hk (by rw [pow_succ] at h; omega)
      omega

theorem nat_numText (b n : Nat) (h : n < 2 ^ 63) : NumText (List.replicate b 32 ++ nat n) n := by
  obtain ⟨h1, h2, h3⟩ := digits_spec n
  refine ⟨b, .none, digits n, ?_, h1, h2, ?_, by omega, by omega⟩
  · simp [Sign.text, nat]
  · simp [Sign.apply, h3]

theorem numText_isInt {t : Bytes} {n : Int} (h : NumText t n) : IsInt t n := by
  obtain ⟨b, s, ds, h1, h2, h3, h4, h5, h6⟩ := h
  exact ⟨b, s, ds, [], by simp [h1], h2, h3, by simp, by simp, h4, h5, h6⟩

theorem justified_numText (w n : Nat) (h : n < 2 ^ 63) : NumText (justified w n) n := nat_numText _ _ h

theorem signed_numText (n : Int) (h1 : -(2 ^ 63) < n) (h2 : n < 2 ^ 63) : NumText (signed n) n := by
  obtain ⟨g1, g2, g3⟩ := digits_spec n.natAbs
  unfold signed
  split
  · exact ⟨0, .minus, digits n.natAbs, by simp [Sign.text, nat], g1, g2, by simp only [Sign.apply, g3]; omega, by omega, by omega⟩
  · exact ⟨0, .plus, digits n.natAbs, by simp [Sign.text, nat], g1, g2, by simp only [Sign.apply, g3]; omega, by omega, by omega⟩

/-- characters of a header value -/
def Plain (b : UInt8) : Prop := b < 128 ∧ ¬ upper b ∧ b ≠ 3

instance (b : UInt8) : Decidable (Plain b) := by unfold Plain; infer_instance

theorem plain_digit {d : Nat} (h : d < 10) : Plain (UInt8.ofNat (48 + d)) := by
  have : ∀ k : Fin 10, Plain (UInt8.ofNat (48 + k.val)) := by decide +kernel
  exact this ⟨d, h⟩

theorem plain_ascii {ds : List Nat} (h : ∀ d ∈ ds, d < 10) : ∀ b ∈ asciiDigits ds, Plain b := by
  intro b hb
  unfold asciiDigits at hb
  obtain ⟨d, hd, rfl⟩ := List.mem_map.mp hb
  exact plain_digit (h d hd)

theorem plain_numText {t : Bytes} {n : Int} (h : NumText t n) : t ≠ [] ∧ ∀ b ∈ t, Plain b := by
  obtain ⟨k, s, ds, rfl, h2, h3, _⟩ := h
  refine ⟨?_, ?_⟩
  · intro he
    have := congrArg List.length he
    simp [asciiDigits] at this
    exact h2 this.2.2
  · intro b hb
    simp only [List.mem_append] at hb
    rcases hb with (hb | hb) | hb
    · rw [List.eq_of_mem_replicate hb]; decide
    · cases s <;> simp [Sign.text] at hb <;> subst hb <;> decide
    · exact plain_ascii h3 b hb

theorem plain_two {n : Nat} (h : n < 100) : ∀ b ∈ two n, Plain b := by
  refine plain_ascii ?_
  intro d hd
  simp at hd
  omega

/-! ### existence -/

/-- a field holding an integer; `dflt` if it is absent -/
def OptInt (fs : List Field) (key : Bytes) (n : Int) : Prop :=
  match value fs key with
  | none => n = 0
  | some v => IsInt v n

/-- acceptance, given the dimensions -/
theorem accepts_of_dims {E : Env} {f : Field} {fs : List Field} {data label wmo : Bytes} {t : Civil}
    {vBY : Bytes} {n m i p v : Int} {d : Dims} {k : Nat}
    (hw : ∀ g ∈ f :: fs, g.WF) (hl : label.length = 2) (hwmo : wmo.length = 5)
    (hf : f.key ++ f.val = stamp label wmo t) (ht : t.Valid) (hy : 1969 ≤ t.year ∧ t.year ≤ 2068)
    (hlen : 21 ≤ (header (f :: fs)).length)
    (hBY : value (f :: fs) (str "BY") = some vBY) (hn : IsInt vBY n)
    (h5 : dimsOf (pairs (f :: fs)).reverse label = some d)
    (hVV : OptInt (f :: fs) (str "VV") m) (hINT : OptInt (f :: fs) (str "INT") i)
    (hE : OptInt (f :: fs) (str "E") p) (hVS : OptInt (f :: fs) (str "VS") v)
    (hLV : value (f :: fs) (str "LV") = none)
    (hr : 1 ≤ d.py ∧ d.py * 24 ≤ 2 ^ 48) (hc : 1 ≤ d.px ∧ d.px * 4 ≤ 2 ^ 48)
    (hk : k = 1 ∨ k = 2) (hnl : n - ((header (f :: fs)).length + 1) = k * (d.px * d.py))
    (hdata : k * (d.px * d.py) ≤ data.length) :
    ∃ c, Success E (file (f :: fs) data) c ∧ c.captureTime = t.instant ∧ c.format = v ∧ c.precision = p ∧
      c.product = label := by
  have hhd : header (f :: fs) = (f.key ++ f.val) ++ header fs := rfl
  have hdate : dateBytes (header (f :: fs) ++ [3]) =
      two t.day ++ two t.hour ++ two t.minute ++ (two t.month ++ two (t.year % 100)) := by
    rw [hhd, hf, List.append_assoc]; exact dateBytes_stamp hl hwmo _
  have hml : t.day < 100 ∧ t.hour < 100 ∧ t.minute < 100 ∧ t.month < 100 := by
    obtain ⟨a1, a2, a3, a4, a5, a6⟩ := ht
    have : monthLength t.year t.month ≤ 31 := by unfold monthLength; split <;> (try split) <;> (try split) <;> omega
    omega
  have htk : (header (f :: fs) ++ [3]).take 2 = label := by
    rw [hhd, hf]; unfold stamp
    simp only [List.append_assoc]
    rw [List.take_append_of_le_length (by omega), ← hl, List.take_length]
  have opt : ∀ {key : Bytes} {n : Int}, OptInt (f :: fs) key n →
      (Section.find (pairs (f :: fs)).reverse key = none ∧ n = 0) ∨
      ∃ v, Section.find (pairs (f :: fs)).reverse key = some v ∧ sscanfD v = some n := by
    intro key n h
    unfold OptInt at h
    rw [find_pairs]
    cases hv : value (f :: fs) key with
    | none => rw [hv] at h; exact Or.inl ⟨rfl, h⟩
    | some v => rw [hv] at h; exact Or.inr ⟨v, rfl, sscanfD_isInt h⟩
  have h1 : sscanfD ((Section.find (pairs (f :: fs)).reverse (str "BY")).getD []) = some n := by
    rw [find_pairs, hBY]; exact sscanfD_isInt hn
  have h2 : parseTime (dateBytes (header (f :: fs) ++ [3])) = some t.instant := by
    rw [hdate, parseTime_digits hy hml, if_pos ht]
  have h3 : ∃ x, forecastOf (pairs (f :: fs)).reverse t.instant = some x := by
    unfold forecastOf
    rcases opt hVV with ⟨h, _⟩ | ⟨w, h, h'⟩ <;> rw [h]
    · exact ⟨_, rfl⟩
    · exact ⟨_, by simp only [h', Option.map_some]; rfl⟩
  have h4 : ∃ x, intervalOf (pairs (f :: fs)).reverse ((header (f :: fs) ++ [3]).take 2) = some x := by
    unfold intervalOf
    rcases opt hINT with ⟨h, _⟩ | ⟨w, h, h'⟩ <;> rw [h]
    · exact ⟨_, rfl⟩
    · exact ⟨_, by simp only [h', Option.map_some]; rfl⟩
  rw [← htk] at h5
  have h6 : precisionOf (pairs (f :: fs)).reverse = some p := by
    unfold precisionOf
    rcases opt hE with ⟨h, h'⟩ | ⟨w, h, h'⟩ <;> rw [h]
    · rw [h']
    · exact h'
  have h7 : levelsOf E (pairs (f :: fs)).reverse = some none := by
    unfold levelsOf; rw [find_pairs, hLV]
  have h8 : formatOf (pairs (f :: fs)).reverse = some v := by
    unfold formatOf
    rcases opt hVS with ⟨h, h'⟩ | ⟨w, h, h'⟩ <;> rw [h]
    · rw [h']
    · exact h'
  obtain ⟨x3, h3⟩ := h3
  obtain ⟨x4, h4⟩ := h4
  obtain ⟨h, hch⟩ := Option.isSome_iff_exists.mp (headerComposite_isSome (E := E) h1 h2 h3 h4 h5 h6 h7 h8)
  have hF := headerComposite_fields hch
  have hho : headerOf E (file (f :: fs) data) = some (h, data) := by
    unfold headerOf
    rw [readDelim_file hw]
    simp only
    rw [if_neg (by simp; omega), List.dropLast_concat, splitHeader_wf E _ (by simp) hw]
    simp only
    rw [hch]; rfl
  have q := hF.dims
  rw [h5] at q
  simp only [Option.some.injEq] at q
  subst q
  simp only at hr hc hnl hdata
  have hlv : h.level = none := level_none hF hLV
  have hdl := dataLength_spec hF hBY hn
  have ha : AllocOK h := by unfold AllocOK; omega
  obtain ⟨cols, e1⟩ : ∃ k : Nat, h.px = k := ⟨h.px.toNat, by omega⟩
  obtain ⟨rows, e2⟩ : ∃ k : Nat, h.py = k := ⟨h.py.toNat, by omega⟩
  have hdata' : k * (cols * rows) ≤ data.length := by rw [e1, e2] at hdata; exact_mod_cast hdata
  have hdat : ∃ rs b', dataOf h data = some (rs, b') := by
    rcases hk with rfl | rfl
    · have e : identifyEncoding h = .singleByte :=
        single_of_length hlv hdl (px_pos ha) (isInt_range hn).2 (by omega) (by rw [hnl]; push_cast; ring)
      unfold dataOf
      rw [e, e1, e2]
      simp only [Int.toNat_natCast]
      rw [rowsFrom_fixed (rowSB_fixed _ _ _), if_pos (by rw [Nat.mul_comm]; omega)]
      exact ⟨_, _, rfl⟩
    · have e : identifyEncoding h = .littleEndian :=
        pair_of_length hlv hdl (px_pos ha) (isInt_range hn).2 (by omega) (by rw [hnl]; push_cast; ring)
      unfold dataOf
      rw [e, e1, e2]
      simp only [Int.toNat_natCast]
      rw [rowsFrom_fixed (rowLE_fixed _ _ _), if_pos (by
        rw [show rows * (cols * 2) = 2 * (cols * rows) by ring]; exact hdata')]
      exact ⟨_, _, rfl⟩
  obtain ⟨rs, b', hdat⟩ := hdat
  refine ⟨finish E h rs, parsed_iff.mpr ⟨h, data, rs, b', hho, ha, hdat, rfl⟩, ?_, ?_, ?_, ?_⟩
  · show h.captureTime = _
    have := hF.capture; rw [h2] at this; simpa using this.symm
  · show h.format = _
    have := hF.format; rw [h8] at this; simpa using this.symm
  · show h.precision = _
    have := hF.precision; rw [h6] at this; simpa using this.symm
  · show h.product = _
    rw [hF.product, htk]

/-- C47 (a). Acceptance: any header made of well-formed fields that begins with a time stamp and has readable BY and
GP fields (others optional) is accepted with a data section of at least the announced length. -/
theorem C47_accepts {E : Env} {f : Field} {fs : List Field} {data label wmo : Bytes} {t : Civil}
    {vBY vGP : Bytes} {n m i p v : Int} {rows cols k : Nat}
    (hw : ∀ g ∈ f :: fs, g.WF) (hl : label.length = 2) (hwmo : wmo.length = 5)
    (hf : f.key ++ f.val = stamp label wmo t) (ht : t.Valid) (hy : 1969 ≤ t.year ∧ t.year ≤ 2068)
    (hlen : 21 ≤ (header (f :: fs)).length)
    (hBY : value (f :: fs) (str "BY") = some vBY) (hn : IsInt vBY n)
    (hGP : value (f :: fs) (str "GP") = some vGP) (hg : IsGrid vGP rows cols)
    (hVV : OptInt (f :: fs) (str "VV") m) (hINT : OptInt (f :: fs) (str "INT") i)
    (hE : OptInt (f :: fs) (str "E") p) (hVS : OptInt (f :: fs) (str "VS") v)
    (hLV : value (f :: fs) (str "LV") = none)
    (hr : 1 ≤ rows ∧ rows * 24 ≤ 2 ^ 48) (hc : 1 ≤ cols ∧ cols * 4 ≤ 2 ^ 48)
    (hk : k = 1 ∨ k = 2) (hnl : n - ((header (f :: fs)).length + 1) = k * (rows * cols))
    (hdata : k * (rows * cols) ≤ data.length) :
    ∃ c, Success E (file (f :: fs) data) c ∧ c.captureTime = t.instant ∧ c.format = v ∧ c.precision = p ∧
      c.product = label := by
  refine accepts_of_dims (d := ⟨(cols : Int), (rows : Int), (cols : Int), (rows : Int)⟩) hw hl hwmo hf ht hy hlen hBY hn ?_
    hVV hINT hE hVS hLV (by simp only; omega) (by simp only; omega) hk (by simp only; rw [hnl]; ring) (by
      simp only
      have : ((k * (rows * cols) : Nat) : Int) ≤ data.length := by exact_mod_cast hdata
      push_cast at this
      rw [Int.mul_comm (cols : Int)]; exact this)
  unfold dimsOf
  rw [find_pairs, hGP]
  simp only [sscanfDxD_grid hg, both, Option.map_some]

/-! ### the writer -/

theorem wf_of_plain {k v : Bytes} (h1 : k ≠ [] ∧ ∀ b ∈ k, upper b) (h2 : v ≠ []) (h3 : ∀ b ∈ v, Plain b) :
    Field.WF ⟨k, v⟩ := ⟨h1.1, h1.2, h2, h3⟩

theorem justified_length {w n : Nat} (hw : 0 < w) (h : n < 10 ^ w) : (justified w n).length = w := by
  have : (nat n).length ≤ w := by simpa [nat, asciiDigits] using digits_len n w hw h
  simp [justified]; omega

theorem letters_cases {p : Content} (h : p.WF) :
    ∃ a b, p.label = [a, b] ∧ upper a ∧ ((upper b ∧ p.letters = [a, b]) ∨ ((48 ≤ b ∧ b ≤ 57) ∧ p.letters = [a])) := by
  obtain ⟨a, b, hl, ha, hb⟩ := h.label
  refine ⟨a, b, hl, ha, ?_⟩
  unfold Content.letters
  rw [hl]
  by_cases hub : upper b
  · exact Or.inl ⟨hub, by simp [ha, hub]⟩
  · exact Or.inr ⟨by tauto, by simp [ha, hub]⟩

theorem civil_small {t : Civil} (ht : t.Valid) : t.day < 100 ∧ t.hour < 100 ∧ t.minute < 100 ∧ t.month < 100 := by
  obtain ⟨a1, a2, a3, a4, a5, a6⟩ := ht
  have : monthLength t.year t.month ≤ 31 := by unfold monthLength; split <;> (try split) <;> (try split) <;> omega
  omega

theorem fieldsBY_wf {p : Content} (h : p.WF) {length : Bytes} (h1 : length ≠ []) (h2 : ∀ b ∈ length, Plain b) :
    ∀ g ∈ p.fieldsBY length, g.WF := by
  have hq : ∀ s : String, (str s ≠ [] ∧ ∀ b ∈ str s, upper b) → str s ≠ [] ∧ ∀ b ∈ str s, upper b := fun _ h => h
  obtain ⟨d1, d2, d3, d4⟩ := civil_small h.time.1
  have hfirst : Field.WF ⟨p.letters, p.label.drop p.letters.length ++ two p.time.day ++ two p.time.hour
      ++ two p.time.minute ++ asciiDigits p.wmo ++ two p.time.month ++ two (p.time.year % 100)⟩ := by
    obtain ⟨a, b, hl, ha, hb⟩ := letters_cases h
    have hlab : ∀ x ∈ p.label.drop p.letters.length, Plain x := by
      rcases hb with ⟨hb, hle⟩ | ⟨hb, hle⟩ <;> rw [hl, hle] <;> simp only [List.length_cons, List.length_nil] <;>
        intro x hx <;> simp at hx
      subst hx
      have : ∀ n : Fin 256, 48 ≤ UInt8.ofNat n.val ∧ UInt8.ofNat n.val ≤ 57 → Plain (UInt8.ofNat n.val) := by
        decide +kernel
      have := this ⟨x.toNat, x.toNat_lt⟩
      simp only [UInt8.ofNat_toNat] at this
      exact this hb
    refine wf_of_plain ⟨?_, ?_⟩ (by simp [two, asciiDigits]) ?_
    · rcases hb with ⟨_, hle⟩ | ⟨_, hle⟩ <;> simp [hle]
    · rcases hb with ⟨hb, hle⟩ | ⟨hb, hle⟩ <;> rw [hle] <;> simp [ha, hb]
    · intro x hx
      simp only [List.mem_append] at hx
      rcases hx with (((((hx | hx) | hx) | hx) | hx) | hx) | hx
      · exact hlab x hx
      · exact plain_two d1 x hx
      · exact plain_two d2 x hx
      · exact plain_two d3 x hx
      · exact plain_ascii h.wmo.2 x hx
      · exact plain_two d4 x hx
      · exact plain_two (Nat.mod_lt _ (by decide)) x hx
  have hI := h.interval
  have hV := h.forecast
  have hR := h.rows
  have hC := h.cols
  have hG : ∀ b ∈ justified 4 p.rows ++ str "x" ++ justified 4 p.cols, Plain b := by
    intro b hb
    simp only [List.mem_append] at hb
    rcases hb with (hb | hb) | hb
    · exact (plain_numText (justified_numText _ _ (by omega))).2 b hb
    · have : ∀ b ∈ str "x", Plain b := by decide
      exact this b hb
    · exact (plain_numText (justified_numText _ _ (by omega))).2 b hb
  have hvv : NumText (str " " ++ nat p.forecast) p.forecast := nat_numText 1 _ (by omega)
  intro g hg
  simp only [Content.fieldsBY, List.mem_cons, List.not_mem_nil, or_false] at hg
  rcases hg with rfl | rfl | rfl | rfl | rfl | rfl | rfl | rfl
  · exact hfirst
  · exact wf_of_plain (by decide) h1 h2
  · exact wf_of_plain (by decide) (plain_numText (justified_numText _ _ h.format)).1 (plain_numText (justified_numText _ _ h.format)).2
  · decide
  · exact wf_of_plain (by decide) (plain_numText (signed_numText _ h.precision.1 h.precision.2)).1
      (plain_numText (signed_numText _ h.precision.1 h.precision.2)).2
  · exact wf_of_plain (by decide) (plain_numText (justified_numText _ _ (by omega))).1
      (plain_numText (justified_numText _ _ (by omega))).2
  · exact wf_of_plain (by decide) (by simp [str]) hG
  · exact wf_of_plain (by decide) (plain_numText hvv).1 (plain_numText hvv).2

theorem stamp_field {p : Content} (h : p.WF) :
    p.letters ++ (p.label.drop p.letters.length ++ two p.time.day ++ two p.time.hour ++ two p.time.minute
      ++ asciiDigits p.wmo ++ two p.time.month ++ two (p.time.year % 100)) = stamp p.label (asciiDigits p.wmo) p.time := by
  have : p.letters ++ p.label.drop p.letters.length = p.label := by
    obtain ⟨a, b, hl, ha, hb⟩ := letters_cases h
    rcases hb with ⟨_, hle⟩ | ⟨_, hle⟩ <;> rw [hl, hle] <;> rfl
  unfold stamp
  simp only [← List.append_assoc]
  rw [this]

theorem fieldsBY_value {p : Content} (h : p.WF) (L : Bytes) :
    value (p.fieldsBY L) (str "BY") = some L ∧ value (p.fieldsBY L) (str "VS") = some (justified 2 p.format) ∧
    value (p.fieldsBY L) (str "E") = some (signed p.precision) ∧
    value (p.fieldsBY L) (str "INT") = some (justified 4 p.interval) ∧
    value (p.fieldsBY L) (str "GP") = some (justified 4 p.rows ++ str "x" ++ justified 4 p.cols) ∧
    value (p.fieldsBY L) (str "VV") = some (str " " ++ nat p.forecast) ∧
    value (p.fieldsBY L) (str "LV") = none := by
  have hk : ∀ k ∈ knownKeys, ¬ p.letters = k := fun k hk e => h.letters (e ▸ hk)
  have hLV := hk (str "LV") (by decide)
  refine ⟨?_, ?_, ?_, ?_, ?_, ?_, ?_⟩ <;> simp only [Content.fieldsBY, value] <;>
    simp +decide only [if_true, if_false, hLV]

theorem header_length_congr (p : Content) {L L' : Bytes} (h : L.length = L'.length) :
    (header (p.fieldsBY L)).length = (header (p.fieldsBY L')).length := by
  simp [Content.fieldsBY, header, h]

theorem nat_length {n : Nat} (h : n < 10 ^ 19) : (nat n).length ≤ 19 := by
  simpa [nat, asciiDigits] using digits_len n 19 (by decide) h

theorem headerLength_le {p : Content} (h : p.WF) : p.headerLength ≤ 1000 := by
  have hR := h.rows
  have hC := h.cols
  have hI := h.interval
  have hV := h.forecast
  have hF := h.format
  have hP := h.precision
  have l1 := nat_length (n := p.rows) (by omega)
  have l2 := nat_length (n := p.cols) (by omega)
  have l3 := nat_length (n := p.interval) (by omega)
  have l4 := nat_length (n := p.forecast) (by omega)
  have l5 := nat_length (n := p.format) (by omega)
  have l6 := nat_length (n := p.precision.natAbs) (by omega)
  have l7 : (signed p.precision).length ≤ 20 := by unfold signed; split <;> simp <;> omega
  have l8 : (header (p.fieldsBY (List.replicate 20 32))).length ≤ 999 := by
    have hl := congrArg List.length (stamp_field h)
    have hlab : p.label.length = 2 := by obtain ⟨a, b, hl, _⟩ := h.label; rw [hl]; rfl
    rw [stamp_length hlab (by simp [asciiDigits, h.wmo.1])] at hl
    simp only [Content.fieldsBY, header]
    rw [List.length_append, List.length_append, ← List.length_append, hl]
    simp [justified, str]
    omega
  unfold Content.headerLength
  omega

/-- the fields of a content are well-formed, and so is the announced header length -/
theorem fields_facts {p : Content} (h : p.WF) : (∀ g ∈ p.fields, g.WF) ∧ (header p.fields).length + 1 = p.headerLength := by
  have hR := h.rows
  have hC := h.cols
  have hHL := headerLength_le h
  have hd2 : p.depth = 1 ∨ p.depth = 2 := by unfold Content.depth; split <;> simp
  have hprod : p.rows * p.cols ≤ 10 ^ 9 * 10 ^ 9 := Nat.mul_le_mul hR.2 hC.2
  have htot : p.headerLength + p.depth * (p.rows * p.cols) < 2 ^ 63 := by
    rcases hd2 with e | e <;> rw [e] <;> omega
  have hBYn := justified_numText 20 _ htot
  have hBYl := justified_length (w := 20) (n := p.headerLength + p.depth * (p.rows * p.cols)) (by decide) (by omega)
  refine ⟨fieldsBY_wf h (plain_numText hBYn).1 (plain_numText hBYn).2, ?_⟩
  have := header_length_congr p (L := justified 20 (p.headerLength + p.depth * (p.rows * p.cols)))
    (L' := List.replicate 20 32) (by rw [hBYl]; simp)
  unfold Content.fields
  rw [this]; rfl

/-- C47. Whatever a (well-formed) content says, NewComposite reads it back from the file written: product, times,
interval, format, precision, dimensions, and every pixel. -/
theorem C47_round_trip (E : Env) (p : Content) (h : p.WF) :
    ∃ c, Success E p.serialise c ∧
      c.product = p.label ∧ c.captureTime = p.time.instant ∧
      c.forecastTime = p.time.instant + p.forecast * 60000000000 ∧
      c.interval = p.interval * 60000000000 *
        (if p.label ∈ [str "W1", str "W2", str "W3", str "W4"] then 10 else 1) ∧
      c.format = p.format ∧ c.precision = p.precision ∧
      c.dx = p.cols ∧ c.dy = p.rows ∧ c.px = p.cols ∧ c.py = p.rows ∧ c.dz = 1 ∧
      (∀ x y : Nat, x < p.cols → y < p.rows → ∃ v,
        p.pixel (decide (p.label ∈ productsIn .dBZ)) x y = some v ∧ c.At x y = some v) ∧
      (NewComposite E p.serialise = .ret c none ↔ ∃ u, p.label ∈ productsIn u) := by
  have hR := h.rows
  have hC := h.cols
  have hI := h.interval
  have hV := h.forecast
  have hP := h.precision
  have hF := h.format
  have hHL := headerLength_le h
  have hd2 : p.depth = 1 ∨ p.depth = 2 := by unfold Content.depth; split <;> simp
  have hprod : p.rows * p.cols ≤ 10 ^ 9 * 10 ^ 9 := Nat.mul_le_mul hR.2 hC.2
  have htot : p.headerLength + p.depth * (p.rows * p.cols) < 2 ^ 63 := by
    rcases hd2 with e | e <;> rw [e] <;> omega
  have hBYn := justified_numText 20 _ htot
  have hBYl := justified_length (w := 20) (n := p.headerLength + p.depth * (p.rows * p.cols)) (by decide) (by omega)
  have hw : ∀ g ∈ p.fields, g.WF := fieldsBY_wf h (plain_numText hBYn).1 (plain_numText hBYn).2
  obtain ⟨v1, v2, v3, v4, v5, v6, v7⟩ := fieldsBY_value h (justified 20 (p.headerLength + p.depth * (p.rows * p.cols)))
  have hlen : (header p.fields).length + 1 = p.headerLength := by
    have := header_length_congr p (L := justified 20 (p.headerLength + p.depth * (p.rows * p.cols)))
      (L' := List.replicate 20 32) (by rw [hBYl]; simp)
    unfold Content.fields
    rw [this]; rfl
  have hlab : p.label.length = 2 := by obtain ⟨a, b, hl, _⟩ := h.label; rw [hl]; rfl
  have hwmo : (asciiDigits p.wmo).length = 5 := by simp [asciiDigits, h.wmo.1]
  have hvv : NumText (str " " ++ nat p.forecast) p.forecast := nat_numText 1 _ (by omega)
  have hgrid : IsGrid (justified 4 p.rows ++ str "x" ++ justified 4 p.cols) p.rows p.cols :=
    ⟨_, _, [], by simp [str], justified_numText 4 _ (by omega), justified_numText 4 _ (by omega), by simp, by simp⟩
  have opt : ∀ {k t : Bytes} {n : Int}, value p.fields k = some t → NumText t n → OptInt p.fields k n := by
    intro k t n h1 h2
    unfold OptInt; rw [h1]; exact numText_isInt h2
  have hacc := C47_accepts (E := E) (data := p.data) (label := p.label) (wmo := asciiDigits p.wmo) (t := p.time)
    (f := p.fields.head (by simp [Content.fields, Content.fieldsBY])) (fs := p.fields.tail)
    (rows := p.rows) (cols := p.cols) (k := p.depth) (n := (p.headerLength + p.depth * (p.rows * p.cols) : Nat))
    (m := p.forecast) (i := p.interval) (p := p.precision) (v := p.format)
    (vBY := justified 20 (p.headerLength + p.depth * (p.rows * p.cols)))
    (vGP := justified 4 p.rows ++ str "x" ++ justified 4 p.cols)
  rw [List.cons_head_tail] at hacc
  obtain ⟨c, hS, c1, c2, c3, c4⟩ := hacc hw hlab hwmo (stamp_field h) h.time.1 h.time.2
    (by
      have := congrArg List.length (stamp_field h)
      rw [stamp_length hlab hwmo] at this
      simp only [Content.fields, Content.fieldsBY, header]
      rw [List.length_append, this]
      simp [hBYl, str]
      omega) v1 (numText_isInt hBYn) v5 hgrid (opt v6 hvv) (opt v4 (justified_numText 4 _ (by omega)))
    (opt v3 (signed_numText _ hP.1 hP.2)) (opt v2 (justified_numText 2 _ hF)) v7 (by omega) (by omega) hd2
    (by push_cast; omega) (by rw [h.data])
  have hS' : Success E p.serialise c := hS
  obtain ⟨k1, k2, k3, k4⟩ := (C24_dimensions hw hS).1 _ _ _ v5 hgrid
  have hsing := C06_single_layer hS (by omega)
  have hprod25 := C25_product_unit E p.serialise c
  have hunit : decide (c.dataUnit = Unit.dBZ.code) = decide (p.label ∈ productsIn .dBZ) := by
    apply decide_eq_decide.mpr
    obtain ⟨_, u1, u2, u3, u4, u5⟩ := hprod25.1 hS'
    rw [c4] at u1 u2 u3 u4 u5
    constructor
    · intro hu
      by_contra hno
      have hd : ∀ x ∈ [Unit_mm, Unit_km, Unit_mps, Unit_unknown], x ≠ Unit.dBZ.code := by decide
      by_cases a1 : p.label ∈ productsIn .mm
      · exact hd _ (by simp) ((u1 _ a1 rfl).symm.trans hu)
      · by_cases a3 : p.label ∈ productsIn .km
        · exact hd _ (by simp) ((u3 _ a3 rfl).symm.trans hu)
        · by_cases a4 : p.label ∈ productsIn .mps
          · exact hd _ (by simp) ((u4 _ a4 rfl).symm.trans hu)
          · exact hd _ (by simp) ((u5 (by intro u; cases u <;> assumption)).symm.trans hu)
    · intro hm; exact u2 _ hm rfl
  refine ⟨c, hS', c4, c1, ?_, ?_, c2, c3, k2, k1, k4, k3, hsing.1, ?_, ?_⟩
  · rw [((C22_forecast_time hw hS).2.1 _ _ v6 (numText_isInt hvv)).1 (by omega) (by omega), c1]
  · rw [(C23_interval hw hS).2.1 _ _ v4 (numText_isInt (justified_numText 4 _ (by omega))) (by omega) (by omega), c4]
  · intro x y hx hy
    have hpl : ∀ v, plain c y x = some v → c.At x y = some v := by
      intro v hv
      obtain ⟨v', h1, h2⟩ := (C02_outside_nan E c).2.2.2 _ hS' x y (by omega) (by omega)
      unfold pixel at h2
      rw [hsing.2.2] at h2
      unfold plain at hv
      rw [hv] at h2
      rw [h1, h2]
    have hprec : Precision p.fields p.precision := by
      unfold Precision
      rw [show value p.fields (str "E") = _ from v3]
      exact numText_isInt (signed_numText _ hP.1 hP.2)
    have hlen2 : ((p.headerLength + p.depth * (p.rows * p.cols) : Nat) : Int) - ((header p.fields).length + 1)
        = p.depth * (c.px * c.py) := by
      rw [k4, k3]; push_cast
      have : ((header p.fields).length : Int) + 1 = p.headerLength := by exact_mod_cast hlen
      rw [this]; ring
    unfold Content.pixel
    by_cases hwide : p.wide = true
    · have hdep : p.depth = 2 := by simp [Content.depth, hwide]
      obtain ⟨lo, hi, b1, b2, b3⟩ := C08_little_endian hw hS v7 v1 (numText_isInt hBYn)
        (by rw [hlen2, hdep]; rfl) hprec (x := x) (y := y) (by omega) (by omega)
      rw [show c.py.toNat = p.rows by omega, show c.px.toNat = p.cols by omega] at b1 b2
      simp only [hwide, if_true]
      rw [b1, b2]
      exact ⟨_, rfl, by rw [← hunit]; exact hpl _ b3⟩
    · have hwide : p.wide = false := by simpa using hwide
      have hdep : p.depth = 1 := by simp [Content.depth, hwide]
      obtain ⟨b, b1, b3⟩ := C07_single_byte hw hS v7 v1 (numText_isInt hBYn)
        (by rw [hlen2, hdep]; simp) hprec (x := x) (y := y) (by omega) (by omega)
      rw [show c.py.toNat = p.rows by omega, show c.px.toNat = p.cols by omega] at b1
      simp only [hwide, Bool.false_eq_true, if_false]
      rw [b1]
      exact ⟨_, rfl, by rw [← hunit]; exact hpl _ b3⟩
  · constructor
    · intro hn
      by_contra hno
      have := hprod25.2.mpr ⟨hS', by intro u hu; rw [c4] at hu; exact hno ⟨u, hu⟩⟩
      rw [hn] at this
      simp at this
    · rintro ⟨u, hu⟩
      rcases hS' with h1 | h1
      · exact h1
      · exact absurd hu (by rw [← c4]; exact (hprod25.2.mp h1).2 u)

/-- a 2 x 3 precipitation product of 2 October 2017, 13:10 UTC, two bytes per pixel -/
def sampleContent : Content where
  label := str "RW"
  wmo := [1, 0, 0, 0, 0]
  time := ⟨2017, 10, 2, 13, 10⟩
  format := 3
  interval := 60
  forecast := 120
  precision := -1
  rows := 2
  cols := 3
  wide := true
  data := [1, 0, 2, 0x40, 0, 0x20, 0xff, 0x0f, 7, 0, 9, 1]

theorem sampleContent_wf : sampleContent.WF where
  label := ⟨82, 87, by decide, by decide, by decide⟩
  letters := by decide
  wmo := by decide
  time := by decide
  format := by decide
  interval := by decide
  forecast := by decide
  precision := by decide
  rows := by decide
  cols := by decide
  data := by decide

example : sampleContent.serialise = str "RW021310100001017BY                  86VS 3PR E-1INT  60GP   2x   3VV 120" ++ [3]
    ++ sampleContent.data := by
  have d : digits 2 = [2] ∧ digits 3 = [3] ∧ digits 60 = [6, 0] ∧ digits 120 = [1, 2, 0] ∧ digits 1 = [1] ∧
      digits 86 = [8, 6] := by simp [digits]
  have hl : sampleContent.headerLength = 74 := by
    simp [Content.headerLength, Content.fieldsBY, sampleContent, justified, signed, nat, d]; decide
  unfold Content.serialise Content.fields
  rw [hl]
  simp [Content.fieldsBY, Content.depth, sampleContent, justified, signed, nat, d]
  decide

example : ∃ c, NewComposite env0 sampleContent.serialise = .ret c none ∧ c.forecastTime = 1506957000000000000 := by
  obtain ⟨c, _, _, _, h, _, _, _, _, _, _, _, _, _, h2⟩ := C47_round_trip env0 _ sampleContent_wf
  exact ⟨c, h2.mpr ⟨.mm, by decide⟩, by rw [h]; decide⟩

end Props
