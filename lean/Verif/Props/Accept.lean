/-
C63: exactly which files are accepted.
-/
import Verif.Lemmas.Accept
import Verif.Lemmas.LevelTable
import Verif.Props.Runlength
import Verif.Props.Dims
import Verif.Props.Time
import Verif.Props.Levels

namespace Props
open Go Radolan Spec

theorem atoi2_plus {k : Nat} (h : k < 10) : atoi2 43 (UInt8.ofNat (48 + k)) = some (k : Int) := by
  unfold atoi2
  rw [if_pos rfl, if_pos ((isDigitB_iff _).mpr ⟨k, h, rfl⟩), digit_toNat h]
  simp

theorem atoi2_minus {k : Nat} (h : k < 10) : atoi2 45 (UInt8.ofNat (48 + k)) = some (-(k : Int)) := by
  unfold atoi2
  rw [if_neg (by decide), if_pos rfl, if_pos ((isDigitB_iff _).mpr ⟨k, h, rfl⟩), digit_toNat h]
  simp

/-- a valid date with any form of year is read -/
theorem parseTime_form {t : Civil} (hv : t.Valid) (hy : 1969 ≤ t.year) {a b : UInt8} {y2 : Int}
    (ha : atoi2 a b = some y2) (hp : pivotYear y2 = (t.year : Int)) :
    parseTime (two t.day ++ two t.hour ++ two t.minute ++ (two t.month ++ [a, b])) = some t.instant := by
  obtain ⟨v1, v2, v3, v4, v5, v6⟩ := id hv
  have hd : t.day < 100 := by
    have : monthLength t.year t.month ≤ 31 := by
      unfold monthLength
      repeat' split
      all_goals omega
    omega
  unfold parseTime
  simp only [List.append_assoc]
  rw [two_digits hd]
  simp only [Option.bind_eq_bind, Option.bind_some]
  rw [two_digits (by omega)]
  simp only [Option.bind_some]
  rw [if_neg (by omega), two_digits (by omega)]
  simp only [Option.bind_some]
  rw [if_neg (by omega), two_digits (by omega)]
  simp only [Option.bind_some]
  rw [if_neg (by omega), ha]
  simp only [Option.bind_some]
  rw [hp, daysIn_eq t.year v1 v2, if_neg (by omega), date_eq hy hv]

theorem date_split (pre : Bytes) : dateBytes pre =
    (pre.drop 2).take 6 ++ ((pre.drop 13).take 2 ++ (pre.drop 15).take 2) := by
  unfold dateBytes
  rw [List.drop_take, List.drop_take, show 17 - 13 = 2 + 2 by rfl, List.take_add, List.drop_drop]

theorem stampedAt_iff {pre : Bytes} (h : 17 ≤ pre.length) {x : Int} :
    parseTime (dateBytes pre) = some x ↔ ∃ t, StampedAt pre t ∧ x = t.instant := by
  rw [date_split pre]
  constructor
  · intro hx
    obtain ⟨t, yy, hv, hy1, hy2, hs, hyy, he⟩ := parseTime_some hx
    obtain ⟨g1, g2⟩ := List.append_inj hs (by simp [two_length]; omega)
    obtain ⟨g3, g4⟩ := List.append_inj g2 (by simp [two_length]; omega)
    refine ⟨t, ⟨hv, hy1, hy2, g1, g3, ?_⟩, he⟩
    rw [g4]; exact hyy
  · rintro ⟨t, ⟨hv, hy1, hy2, g1, g2, g3⟩, he⟩
    rw [g1, g2, he]
    clear he x
    rcases g3 with g3 | ⟨k, hk, ⟨g3, hy⟩ | ⟨g3, hy⟩⟩
    · rw [g3]
      refine parseTime_form hv hy1 (atoi2_two (n := t.year % 100) (by omega)) ?_
      unfold pivotYear
      split <;> omega
    · rw [g3]
      refine parseTime_form hv hy1 (atoi2_plus hk) ?_
      unfold pivotYear
      rw [if_neg (by omega)]; omega
    · rw [g3]
      refine parseTime_form hv hy1 (atoi2_minus hk) ?_
      unfold pivotYear
      rw [if_neg (by omega)]; omega

theorem stamped_iff {pre : Bytes} (h : 17 ≤ pre.length) : (∃ x, parseTime (dateBytes pre) = some x) ↔ Stamped pre := by
  simp only [stampedAt_iff h]
  exact ⟨fun ⟨_, t, ht, _⟩ => ⟨t, ht⟩, fun ⟨t, ht⟩ => ⟨_, t, ht, rfl⟩⟩

theorem dateBytes_append {pre : Bytes} (h : 17 ≤ pre.length) (s : Bytes) : dateBytes (pre ++ s) = dateBytes pre := by
  unfold dateBytes
  rw [List.take_append_of_le_length (by omega), List.take_append_of_le_length (by omega)]

theorem both_iff {r : Option Int × Option Int} {a b : Int} : both r = some (a, b) ↔ r = (some a, some b) := by
  obtain ⟨x, y⟩ := r
  cases x <;> cases y <;> simp [both]

theorem lookup_strip : ∀ p ∈ stripProducts, (dimensionCatalog.lookup p).map (fun v => (⟨v.px, v.py, v.dx, v.dy⟩ : Dims)) =
    some ⟨200, 224, 200, 200⟩ := by decide

theorem lookup_volume : ∀ p ∈ volumeProducts, (dimensionCatalog.lookup p).map (fun v => (⟨v.px, v.py, v.dx, v.dy⟩ : Dims)) =
    some ⟨200, 2400, 200, 200⟩ := by decide

theorem declares_iff {fs : List Field} (hw : ∀ f ∈ fs, f.WF) {rows cols : Int} :
    (∃ dx dy, dimsOf (pairs fs).reverse ((header fs).take 2) = some ⟨cols, rows, dx, dy⟩) ↔ Declares fs rows cols := by
  unfold dimsOf Declares
  rw [find_pairs, find_pairs]
  cases h1 : value fs (str "GP") with
  | some v =>
    simp only
    rw [← sscanfDxD_iff, ← both_iff]
    simp only [Option.map_eq_some_iff, Prod.exists, Dims.mk.injEq]
    constructor
    · rintro ⟨_, _, a, b, h, rfl, rfl, _⟩; exact h
    · intro h; exact ⟨_, _, _, _, h, rfl, rfl, rfl, rfl⟩
  | none =>
    cases h2 : value fs (str "BG") with
    | some v =>
      simp only
      rw [← sscanf3D3D_iff, ← both_iff]
      simp only [Option.map_eq_some_iff, Prod.exists, Dims.mk.injEq]
      constructor
      · rintro ⟨_, _, a, b, h, rfl, rfl, _⟩; exact h
      · intro h; exact ⟨_, _, _, _, h, rfl, rfl, rfl, rfl⟩
    | none =>
      simp only
      constructor
      · rintro ⟨dx, dy, h⟩
        simp only [Option.map_eq_some_iff] at h
        obtain ⟨v, hv, he⟩ := h
        rcases lookup_dims _ _ hv with ⟨g1, g2, g3, _⟩ | ⟨g1, g2, g3, _⟩
        · simp only [Dims.mk.injEq] at he; left; exact ⟨g1, by omega, by omega⟩
        · simp only [Dims.mk.injEq] at he; right; exact ⟨g1, by omega, by omega⟩
      · rintro (⟨g1, rfl, rfl⟩ | ⟨g1, rfl, rfl⟩)
        · exact ⟨_, _, lookup_strip _ g1⟩
        · exact ⟨_, _, lookup_volume _ g1⟩

theorem levels_iff (E : Env) {fs : List Field} :
    (∃ l, levelsOf E (pairs fs).reverse = some l) ↔ ∀ v, value fs (str "LV") = some v → LevelTable v := by
  unfold levelsOf
  rw [find_pairs]
  cases h : value fs (str "LV") with
  | none => simp
  | some v =>
    simp only [Option.map_eq_some_iff, Option.some.injEq, forall_eq']
    constructor
    · rintro ⟨_, l, hl, _⟩; exact ⟨l, (levelOf_iff E).mp hl⟩
    · rintro ⟨l, hl⟩; exact ⟨_, l, (levelOf_iff E).mpr hl, rfl⟩

theorem number_range {text rest : Bytes} {n : Int} (h : Number text n rest) : -(2 ^ 63) ≤ n ∧ n < 2 ^ 63 := by
  obtain ⟨_, _, _, _, _, _, _, _, _, h1, h2⟩ := h
  exact ⟨h1, h2⟩

/-- a readable header is parsed -/
theorem header_of_readable (E : Env) {fs : List Field} (hw : ∀ f ∈ fs, f.WF) {len rows cols : Int}
    (hR : Readable fs len rows cols) (data : Bytes) :
    ∃ h, headerOf E (file fs data) = some (h, data) ∧ HeaderFields E (header fs ++ [3]) (pairs fs).reverse h ∧
      h.px = cols ∧ h.py = rows ∧ h.dataLength = wrap64 (len - ((header fs).length + 1)) := by
  have hlong := hR.long
  have htk : (header fs ++ [3]).take 2 = (header fs).take 2 := List.take_append_of_le_length (by omega)
  have opt : ∀ k ∈ [str "VV", str "INT", str "E", str "VS"], ∀ v, value fs k = some v → ∃ n, sscanfD v = some n := by
    intro k hk v hv
    obtain ⟨n, hn⟩ := hR.numbers k hk v hv
    exact ⟨n, sscanfD_iff.mpr hn⟩
  obtain ⟨by', hby, hn⟩ := hR.length
  have h1 : sscanfD ((Section.find (pairs fs).reverse (str "BY")).getD []) = some len := by
    rw [find_pairs, hby]; exact sscanfD_iff.mpr hn
  obtain ⟨t, h2⟩ := (stamped_iff (by omega)).mpr hR.stamped
  rw [← dateBytes_append (by omega) [3]] at h2
  have h3 : ∃ x, forecastOf (pairs fs).reverse t = some x := by
    unfold forecastOf
    rw [find_pairs]
    cases h : value fs (str "VV") with
    | none => exact ⟨_, rfl⟩
    | some v => obtain ⟨n, hn⟩ := opt _ (by simp) v h; exact ⟨_, by simp only [hn, Option.map_some]; rfl⟩
  have h4 : ∃ x, intervalOf (pairs fs).reverse ((header fs ++ [3]).take 2) = some x := by
    unfold intervalOf
    rw [find_pairs]
    cases h : value fs (str "INT") with
    | none => exact ⟨_, rfl⟩
    | some v => obtain ⟨n, hn⟩ := opt _ (by simp) v h; exact ⟨_, by simp only [hn, Option.map_some]; rfl⟩
  obtain ⟨dx, dy, h5⟩ := (declares_iff hw).mpr hR.grid
  rw [← htk] at h5
  have h6 : ∃ x, precisionOf (pairs fs).reverse = some x := by
    unfold precisionOf
    rw [find_pairs]
    cases h : value fs (str "E") with
    | none => exact ⟨_, rfl⟩
    | some v => obtain ⟨n, hn⟩ := opt _ (by simp) v h; exact ⟨_, hn⟩
  have h8 : ∃ x, formatOf (pairs fs).reverse = some x := by
    unfold formatOf
    rw [find_pairs]
    cases h : value fs (str "VS") with
    | none => exact ⟨_, rfl⟩
    | some v => obtain ⟨n, hn⟩ := opt _ (by simp) v h; exact ⟨_, hn⟩
  obtain ⟨l, h7⟩ := (levels_iff E).mpr hR.levels
  obtain ⟨x3, h3⟩ := h3
  obtain ⟨x4, h4⟩ := h4
  obtain ⟨x6, h6⟩ := h6
  obtain ⟨x8, h8⟩ := h8
  obtain ⟨h, hch⟩ := Option.isSome_iff_exists.mp (headerComposite_isSome (E := E) h1 h2 h3 h4 h5 h6 h7 h8)
  have hF := headerComposite_fields hch
  have hne : fs ≠ [] := by rintro rfl; simp [header] at hlong
  refine ⟨h, ?_, hF, ?_, ?_, ?_⟩
  · unfold headerOf
    rw [readDelim_file hw]
    simp only
    rw [if_neg (by simp; omega), List.dropLast_concat, splitHeader_wf E _ hne hw]
    simp only
    rw [hch]; rfl
  · have q := hF.dims
    rw [h5] at q
    simp only [Option.some.injEq, Dims.mk.injEq] at q
    exact q.1.symm
  · have q := hF.dims
    rw [h5] at q
    simp only [Option.some.injEq, Dims.mk.injEq] at q
    exact q.2.1.symm
  · obtain ⟨m, hm, hl⟩ := hF.length
    rw [h1] at hm
    simp only [Option.some.injEq] at hm
    rw [hl, hm]; simp

/-- a parsed header is readable -/
theorem readable_of_header {E : Env} {fs : List Field} (hw : ∀ f ∈ fs, f.WF) {data rest : Bytes} {h : Composite}
    (hh : headerOf E (file fs data) = some (h, rest)) :
    rest = data ∧ HeaderFields E (header fs ++ [3]) (pairs fs).reverse h ∧
      ∃ len, Readable fs len h.py h.px ∧ h.dataLength = wrap64 (len - ((header fs).length + 1)) ∧
        -(2 ^ 63) ≤ len ∧ len < 2 ^ 63 := by
  obtain ⟨hdr, s, h1, h2, h3, hf, h5⟩ := headerOf_some hh
  rw [readDelim_file hw] at h1
  simp only [Option.some.injEq, Prod.mk.injEq] at h1
  obtain ⟨rfl, rfl⟩ := h1
  simp only [List.length_append, List.length_singleton] at h2
  have hne : fs ≠ [] := by rintro rfl; simp [header] at h2
  rw [List.dropLast_concat, splitHeader_wf E fs hne hw] at h3
  simp only [Option.some.injEq] at h3
  subst h3
  have hlong : 21 ≤ (header fs).length := by omega
  obtain ⟨n, hn, hl⟩ := hf.length
  obtain ⟨by', hby⟩ : ∃ v, value fs (str "BY") = some v := by
    cases h : value fs (str "BY") with
    | some v => exact ⟨v, rfl⟩
    | none => rw [find_pairs, h] at hn; simp only [Option.getD_none] at hn; rw [show sscanfD [] = none by decide] at hn; simp at hn
  rw [find_pairs, hby] at hn
  have hn' := sscanfD_iff.mp hn
  refine ⟨rfl, hf, n, ⟨hlong, ?_, ⟨by', hby, hn'⟩, ?_, ?_, (levels_iff E).mp ⟨_, hf.level⟩⟩, by rw [hl]; simp, ?_⟩
  · have := hf.capture
    rw [dateBytes_append (by omega)] at this
    exact (stamped_iff (by omega)).mp ⟨_, this⟩
  · intro k hk v hv
    have key : ∃ n, sscanfD v = some n := by
      simp only [List.mem_cons, List.not_mem_nil, or_false] at hk
      rcases hk with rfl | rfl | rfl | rfl
      · have := hf.forecast
        unfold forecastOf at this
        rw [find_pairs, hv] at this
        simp only [Option.map_eq_some_iff] at this
        exact ⟨_, this.choose_spec.1⟩
      · have := hf.interval
        unfold intervalOf at this
        rw [find_pairs, hv] at this
        simp only [Option.map_eq_some_iff] at this
        exact ⟨_, this.choose_spec.1⟩
      · have := hf.precision
        unfold precisionOf at this
        rw [find_pairs, hv] at this
        exact ⟨_, this⟩
      · have := hf.format
        unfold formatOf at this
        rw [find_pairs, hv] at this
        exact ⟨_, this⟩
    obtain ⟨n, hn⟩ := key
    exact ⟨n, sscanfD_iff.mp hn⟩
  · have := hf.dims
    rw [List.take_append_of_le_length (by omega)] at this
    exact (declares_iff hw).mp ⟨_, _, this⟩
  · obtain ⟨r, hr⟩ := hn'
    exact number_range hr

theorem alloc_iff {h : Composite} : AllocOK h ↔ Fit h.py h.px := by
  unfold AllocOK Fit
  constructor
  · rintro ⟨a, b, c, d⟩; exact ⟨by omega, d, by omega, b⟩
  · rintro ⟨a, b, c, d⟩; exact ⟨by omega, d, by omega, b⟩

/-- a readable header announces one length and one grid -/
theorem readable_unique {fs : List Field} (hw : ∀ f ∈ fs, f.WF) {E : Env} {data : Bytes}
    {h : Composite} (hh : headerOf E (file fs data) = some (h, data)) {len rows cols : Int} (hR : Readable fs len rows cols) :
    rows = h.py ∧ cols = h.px ∧ h.dataLength = wrap64 (len - ((header fs).length + 1)) ∧ -(2 ^ 63) ≤ len ∧ len < 2 ^ 63 := by
  obtain ⟨h', hh', _, h1, h2, h3⟩ := header_of_readable E hw hR data
  rw [hh] at hh'
  simp only [Option.some.injEq, Prod.mk.injEq, and_true] at hh'
  subst hh'
  obtain ⟨_, _, r, hr⟩ := hR.length
  exact ⟨h2.symm, h1.symm, h3, number_range hr⟩

/-- the data section of a header with allocatable grid -/
theorem data_iff {E : Env} {fs : List Field} {h : Composite} {len : Int} {data : Bytes}
    (hf : HeaderFields E (header fs ++ [3]) (pairs fs).reverse h) (ha : AllocOK h)
    (hl : h.dataLength = wrap64 (len - ((header fs).length + 1))) (h1 : -(2 ^ 63) ≤ len) (h2 : len < 2 ^ 63)
    (hsz : data.length < 2 ^ 62) (hsz' : (header fs).length < 2 ^ 62) :
    (∃ rows rest, dataOf h data = some (rows, rest)) ↔ Complete fs len h.py h.px data := by
  unfold Complete
  have a2 := ha.2.2.1
  have a1 := ha.1
  cases hLV : value fs (str "LV") with
  | none =>
    rw [if_pos rfl]
    have hlv := level_none hf hLV
    have hpos := px_pos ha
    constructor
    · rintro ⟨rows, rest, hd⟩
      obtain ⟨c1, c2⟩ := consumed_fixed ha hd
      unfold identifyEncoding at c1 c2
      unfold dataOf identifyEncoding at hd
      rw [hlv, hl] at hd
      rw [hlv, hl] at c1 c2
      rw [Int.mul_comm h.py h.px]
      generalize h.px * h.py = q at *
      simp only [Option.isSome_none, Bool.false_eq_true, if_false] at hd c1 c2
      by_cases b1 : wrap64 (len - (↑(header fs).length + 1)) = wrap64 (wrap64 q * 2)
      · rw [if_pos b1] at c2
        have hq := c2 rfl
        rw [wrap64_id (x := q) (by omega) (by omega), wrap64_id (x := q * 2) (by omega) (by omega)] at b1
        obtain ⟨k, hk⟩ := wrap64_eq (len - (↑(header fs).length + 1))
        exact ⟨2, Or.inr rfl, by omega, by omega⟩
      · rw [if_neg b1] at c1 hd
        by_cases b2 : wrap64 (len - (↑(header fs).length + 1)) = wrap64 q
        · rw [if_pos b2] at c1
          have hq := c1 rfl
          rw [wrap64_id (x := q) (by omega) (by omega)] at b2
          obtain ⟨k, hk⟩ := wrap64_eq (len - (↑(header fs).length + 1))
          exact ⟨1, Or.inl rfl, by omega, by omega⟩
        · rw [if_neg b2] at hd
          simp at hd
    · rintro ⟨k, hk, hlen, hdata⟩
      obtain ⟨cols, e1⟩ : ∃ k : Nat, h.px = k := ⟨h.px.toNat, by omega⟩
      obtain ⟨rows, e2⟩ : ∃ k : Nat, h.py = k := ⟨h.py.toNat, by omega⟩
      rw [Int.mul_comm h.py h.px] at hlen hdata
      rcases hk with rfl | rfl
      · have e : identifyEncoding h = .singleByte := single_of_length hlv hl hpos h2 (by omega) (by omega)
        have hdata' : cols * rows ≤ data.length := by rw [e1, e2] at hdata; exact_mod_cast (by linarith : (cols : Int) * rows ≤ data.length)
        unfold dataOf
        rw [e, e1, e2]
        simp only [Int.toNat_natCast]
        rw [rowsFrom_fixed (rowSB_fixed _ _ _), if_pos (by rw [Nat.mul_comm]; omega)]
        exact ⟨_, _, rfl⟩
      · have e : identifyEncoding h = .littleEndian := pair_of_length hlv hl hpos h2 (by omega) (by omega)
        have hdata' : 2 * (cols * rows) ≤ data.length := by rw [e1, e2] at hdata; exact_mod_cast hdata
        unfold dataOf
        rw [e, e1, e2]
        simp only [Int.toNat_natCast]
        rw [rowsFrom_fixed (rowLE_fixed _ _ _), if_pos (by
          rw [show rows * (cols * 2) = 2 * (cols * rows) by ring]; exact hdata')]
        exact ⟨_, _, rfl⟩
  | some v =>
    rw [if_neg (by simp)]
    obtain ⟨lv, hlv⟩ := level_some hf hLV
    rw [dataOf_level hlv]
    constructor
    · rintro ⟨rows, rest, hd⟩
      obtain ⟨ls, g1, g2, g3, g4⟩ := rowsRL_iff.mp hd
      refine ⟨ls, rest, g2, by omega, fun l hlm => ⟨g3 l hlm, ?_⟩⟩
      obtain ⟨i, hi, rfl⟩ := List.mem_iff_getElem.mp hlm
      have := g4.get hi (by have := g4.length_eq; omega)
      rcases this with ⟨hb, _⟩ | ⟨gap, runs, hr, hfit, _⟩
      · exact Or.inl hb
      · exact Or.inr ⟨gap, runs, hr, hfit⟩
    · rintro ⟨ls, rest, rfl, g1, g2⟩
      have : ∃ rows, List.Forall₂ (Decodes lv h.px.toNat) ls rows := by
        clear g1 hsz
        induction ls with
        | nil => exact ⟨[], .nil⟩
        | cons l ls ih =>
          obtain ⟨rows, hr⟩ := ih (fun x hx => g2 x (by simp [hx]))
          rcases (g2 l (by simp)).2 with hb | ⟨gap, runs, hr', hfit⟩
          · exact ⟨_ :: rows, .cons (Or.inl ⟨hb, rfl⟩) hr⟩
          · exact ⟨_ :: rows, .cons (Or.inr ⟨gap, runs, hr', hfit, rfl⟩) hr⟩
      obtain ⟨rows, hr⟩ := this
      exact ⟨rows, rest, rowsRL_iff.mpr ⟨ls, by omega, rfl, fun l hlm => (g2 l hlm).1, hr⟩⟩

/-- C63 (a). A file is accepted exactly if its header is readable, its grid can be allocated and its data section is
complete. (Header and data are shorter than 2^62 bytes.) -/
theorem C63_accepted_iff (E : Env) {fs : List Field} (hw : ∀ f ∈ fs, f.WF) {data : Bytes}
    (hsz : data.length < 2 ^ 62) (hsz' : (header fs).length < 2 ^ 62) :
    (∃ c, Success E (file fs data) c) ↔
      ∃ len rows cols, Readable fs len rows cols ∧ Fit rows cols ∧ Complete fs len rows cols data := by
  constructor
  · rintro ⟨c, hS⟩
    obtain ⟨h, rest, rows, rest', hh, ha, hd, rfl⟩ := parsed_iff.mp hS
    obtain ⟨rfl, hf, len, hR, hl, h1, h2⟩ := readable_of_header hw hh
    exact ⟨len, _, _, hR, alloc_iff.mp ha, (data_iff hf ha hl h1 h2 hsz hsz').mp ⟨_, _, hd⟩⟩
  · rintro ⟨len, rows, cols, hR, hF, hC⟩
    obtain ⟨h, hh, hf, rfl, rfl, hl⟩ := header_of_readable E hw hR data
    obtain ⟨_, _, _, h1, h2⟩ := readable_unique hw hh hR
    have ha := alloc_iff.mpr hF
    obtain ⟨rs, rest, hd⟩ := (data_iff hf ha hl h1 h2 hsz hsz').mpr hC
    exact ⟨finish E h rs, parsed_iff.mpr ⟨h, data, rs, rest, hh, ha, hd, rfl⟩⟩

/-- C63 (b). The parser panics exactly if the header is readable and declares a grid without zero dimension that
cannot be allocated. -/
theorem C63_panics_iff (E : Env) {fs : List Field} (hw : ∀ f ∈ fs, f.WF) (data : Bytes) :
    NewComposite E (file fs data) = .panic ↔
      ∃ len rows cols, Readable fs len rows cols ∧ rows ≠ 0 ∧ cols ≠ 0 ∧ ¬ Fit rows cols := by
  have hc := newComposite_cases E (file fs data)
  unfold NewComposite
  constructor
  · intro hp
    generalize newCompositeRest E (file fs data) = r at *
    cases hc with
    | header h e c' hb he => simp at hp
    | zero c' rest h hz hb => simp at hp
    | data c' rest h ha hd e c'' hb he => simp at hp
    | ok c' rest h ha rows rest' hd => simp at hp
    | panic h rest hh hz ha =>
      obtain ⟨rfl, hf, len, hR, hl, h1, h2⟩ := readable_of_header hw hh
      exact ⟨len, _, _, hR, fun e => hz (Or.inr e), fun e => hz (Or.inl e), fun e => ha (alloc_iff.mpr e)⟩
  · rintro ⟨len, rows, cols, hR, hr, hcl, hF⟩
    obtain ⟨h, hh, hf, rfl, rfl, hl⟩ := header_of_readable E hw hR data
    have hna : ¬ AllocOK h := fun e => hF (alloc_iff.mp e)
    generalize newCompositeRest E (file fs data) = r at *
    cases hc with
    | header h' e c' hb he => rw [hh] at h'; simp at h'
    | zero c' rest2 h' hz hb =>
      rw [hh] at h'; simp at h'; obtain ⟨rfl, rfl⟩ := h'
      rcases hz with e | e
      · exact absurd e hcl
      · exact absurd e hr
    | panic c' rest2 h' hz ha' => rfl
    | data c' rest2 h' ha' hd' e c'' hb he =>
      rw [hh] at h'; simp at h'; obtain ⟨rfl, rfl⟩ := h'; exact absurd ha' hna
    | ok c' rest2 h' ha' rows' rest2' hd' =>
      rw [hh] at h'; simp at h'; obtain ⟨rfl, rfl⟩ := h'; exact absurd ha' hna

/-- C63 (c). Every other file is an error. -/
theorem C63_otherwise_error (E : Env) {fs : List Field} (hw : ∀ f ∈ fs, f.WF) {data : Bytes}
    (hsz : data.length < 2 ^ 62) (hsz' : (header fs).length < 2 ^ 62)
    (h : ∀ len rows cols, Readable fs len rows cols →
      rows = 0 ∨ cols = 0 ∨ (Fit rows cols ∧ ¬ Complete fs len rows cols data)) :
    ∃ c e, NewComposite E (file fs data) = .ret c (some e) ∧ e ≠ .unknownUnit := by
  cases hr : NewComposite E (file fs data) with
  | panic =>
    obtain ⟨len, rows, cols, hR, h1, h2, h3⟩ := (C63_panics_iff E hw data).mp hr
    rcases h _ _ _ hR with e | e | ⟨e, _⟩
    · exact absurd e h1
    · exact absurd e h2
    · exact absurd e h3
  | ret c e =>
    have hno : ¬ ∃ c, Success E (file fs data) c := by
      rw [C63_accepted_iff E hw hsz hsz']
      rintro ⟨len, rows, cols, hR, hF, hC⟩
      rcases h _ _ _ hR with e | e | ⟨_, e⟩
      · have := hF.1; omega
      · have := hF.2.2.1; omega
      · exact e hC
    cases e with
    | none => exact absurd ⟨c, Or.inl hr⟩ hno
    | some e =>
      refine ⟨c, e, rfl, ?_⟩
      rintro rfl
      exact hno ⟨c, Or.inr hr⟩

/-! ### the criterion at work -/

theorem reads_blank {d : List Nat} {s : Sign} {rest text : Bytes} {n : Int} (blanks : Nat)
    (h : text = List.replicate blanks 32 ++ s.text ++ asciiDigits d ++ rest) (h1 : d ≠ []) (h2 : ∀ x ∈ d, x < 10)
    (h3 : ∀ b ∈ rest.head?, ¬ IsDigit b) (h4 : n = s.apply (decimal d)) (h5 : -(2 ^ 63) ≤ n ∧ n < 2 ^ 63) : Number text n rest :=
  ⟨List.replicate blanks 32, s, d, h, blank_replicate blanks, h1, h2, h3, h4, h5.1, h5.2⟩

theorem fieldsRX_readable : Readable fieldsRX 52 2 3 where
  levels := by rw [show value fieldsRX (str "LV") = none by decide]; simp
  long := by decide
  stamped := ⟨⟨2017, 2, 2, 13, 10⟩, by decide, by decide, by decide, by decide, by decide, Or.inl (by decide)⟩
  length := ⟨str " 52", by decide, [], reads_blank (d := [5, 2]) (s := .none) 1 (by decide) (by decide) (by decide)
    (by simp) (by decide) (by decide)⟩
  numbers := by
    intro k hk v hv
    simp only [List.mem_cons, List.not_mem_nil, or_false] at hk
    rcases hk with rfl | rfl | rfl | rfl
    · rw [show value fieldsRX (str "VV") = none by decide] at hv; simp at hv
    · rw [show value fieldsRX (str "INT") = some (str " 5") by decide] at hv
      simp only [Option.some.injEq] at hv; subst hv
      exact ⟨5, [], reads_blank (d := [5]) (s := .none) 1 (by decide) (by decide) (by decide) (by simp) (by decide) (by decide)⟩
    · rw [show value fieldsRX (str "E") = some (str "+00") by decide] at hv
      simp only [Option.some.injEq] at hv; subst hv
      exact ⟨0, [], reads_blank (d := [0, 0]) (s := .plus) 0 (by decide) (by decide) (by decide) (by simp) (by decide) (by decide)⟩
    · rw [show value fieldsRX (str "VS") = some (str " 3") by decide] at hv
      simp only [Option.some.injEq] at hv; subst hv
      exact ⟨3, [], reads_blank (d := [3]) (s := .none) 1 (by decide) (by decide) (by decide) (by simp) (by decide) (by decide)⟩
  grid := by
    unfold Declares
    rw [show value fieldsRX (str "GP") = some (str " 2x 3") by decide]
    exact ⟨str " 3", [], reads_blank (d := [2]) (s := .none) 1 (by decide) (by decide) (by decide)
        (by unfold IsDigit; decide) (by decide) (by decide),
      reads_blank (d := [3]) (s := .none) 1 (by decide) (by decide) (by decide) (by simp) (by decide) (by decide)⟩

/-- any six bytes complete the sample header; five do not -/
example (data : Bytes) (h : data.length = 6) : ∃ c, Success env0 (file fieldsRX data) c := by
  rw [C63_accepted_iff env0 fieldsRX_wf (by omega) (by decide)]
  refine ⟨52, 2, 3, fieldsRX_readable, by unfold Fit; decide, ?_⟩
  unfold Complete
  rw [if_pos (by decide)]
  exact ⟨1, Or.inl rfl, by decide, by omega⟩

example (data : Bytes) (h : data.length = 5) :
    ∃ c e, NewComposite env0 (file fieldsRX data) = .ret c (some e) ∧ e ≠ .unknownUnit := by
  refine C63_otherwise_error env0 fieldsRX_wf (by omega) (by decide) ?_
  intro len rows cols hR
  obtain ⟨c, hh, _, h1, h2, h3⟩ := header_of_readable env0 fieldsRX_wf fieldsRX_readable data
  obtain ⟨rfl, rfl, _⟩ := readable_unique fieldsRX_wf hh hR
  rw [h1, h2]
  refine Or.inr (Or.inr ⟨by unfold Fit; decide, ?_⟩)
  unfold Complete
  rw [if_pos (by decide)]
  rintro ⟨k, hk, _, hd⟩
  rcases hk with rfl | rfl <;> omega

/-- the sample with a negative number of rows -/
def fieldsNeg : List Field :=
  [⟨str "RX", str "021310100000217"⟩, ⟨str "BY", str " 49"⟩, ⟨str "GP", str " -1x 5"⟩]

example (data : Bytes) : NewComposite env0 (file fieldsNeg data) = .panic := by
  rw [C63_panics_iff env0 (by decide)]
  refine ⟨49, -1, 5, ⟨by decide, ⟨⟨2017, 2, 2, 13, 10⟩, by decide, by decide, by decide, by decide, by decide,
    Or.inl (by decide)⟩, ⟨str " 49", by decide, [], reads_blank (d := [4, 9]) (s := .none) 1 (by decide) (by decide)
    (by decide) (by simp) (by decide) (by decide)⟩, ?_, ?_, by
    rw [show value fieldsNeg (str "LV") = none by decide]; simp⟩, by decide, by decide, by unfold Fit; decide⟩
  · intro k hk v hv
    simp only [List.mem_cons, List.not_mem_nil, or_false] at hk
    have : ∀ k ∈ [str "VV", str "INT", str "E", str "VS"], value fieldsNeg k = none := by decide
    rw [this k (by simpa using hk)] at hv; simp at hv
  · unfold Declares
    rw [show value fieldsNeg (str "GP") = some (str " -1x 5") by decide]
    exact ⟨str " 5", [], reads_blank (d := [1]) (s := .minus) 1 (by decide) (by decide) (by decide)
        (by unfold IsDigit; decide) (by decide) (by decide),
      reads_blank (d := [5]) (s := .none) 1 (by decide) (by decide) (by decide) (by simp) (by decide) (by decide)⟩

end Props
