/-
C21: capture time.
-/
import Verif.Lemmas.Time
import Verif.Props.Header

namespace Props
open Go Radolan Spec

theorem two_length (n : Nat) : (two n).length = 2 := rfl

theorem stamp_length {label wmo : Bytes} {t : Civil} (h1 : label.length = 2) (h2 : wmo.length = 5) :
    (stamp label wmo t).length = 17 := by
  simp [stamp, two_length, h1, h2]

theorem dateBytes_stamp {label wmo : Bytes} {t : Civil} (h1 : label.length = 2) (h2 : wmo.length = 5) (rest : Bytes) :
    dateBytes (stamp label wmo t ++ rest)
      = two t.day ++ two t.hour ++ two t.minute ++ (two t.month ++ two (t.year % 100)) := by
  unfold dateBytes stamp two asciiDigits
  obtain ⟨a, b, rfl⟩ : ∃ a b, label = [a, b] := by
    match label, h1 with
    | [a, b], _ => exact ⟨a, b, rfl⟩
  obtain ⟨c, d, e, f, g, rfl⟩ : ∃ c d e f g, wmo = [c, d, e, f, g] := by
    match wmo, h2 with
    | [c, d, e, f, g], _ => exact ⟨c, d, e, f, g, rfl⟩
  rfl

/-- C21 (a). Whatever the input, the capture time of a parsed composite is the UTC instant of a valid civil
time between 1969 and 2068 whose day, hour and minute are bytes 2-7, whose month is bytes 13-14 and whose year
is given by bytes 15-16: the last two digits, or (as Go's number parser admits a sign) '+k' for 2000+k and '-k'
for 2000-k. -/
theorem C21_capture_time {E : Env} {input : Bytes} {c : Composite} (hS : Success E input c) :
    ∃ t : Civil, t.Valid ∧ 1969 ≤ t.year ∧ t.year ≤ 2068 ∧ c.captureTime = t.instant ∧
      (input.drop 2).take 6 = two t.day ++ two t.hour ++ two t.minute ∧
      (input.drop 13).take 2 = two t.month ∧
      ((input.drop 15).take 2 = two (t.year % 100) ∨
        ∃ k < 10, ((input.drop 15).take 2 = [43, UInt8.ofNat (48 + k)] ∧ t.year = 2000 + k) ∨
          ((input.drop 15).take 2 = [45, UInt8.ofNat (48 + k)] ∧ t.year = 2000 - k)) := by
  obtain ⟨h, rest, rows, rest', hh, ha, hd, rfl⟩ := parsed_iff.mp hS
  obtain ⟨hdr, s, h1, h2, h3, hf, h5⟩ := headerOf_some hh
  obtain ⟨t, yy, hv, hy1, hy2, hs, hyy, hx⟩ := parseTime_some hf.capture
  rw [readDelim_some] at h1
  obtain ⟨pre, rfl, rfl, _⟩ := h1
  simp only [List.length_append, List.length_singleton] at h2
  have hlen : 21 ≤ pre.length := by omega
  unfold dateBytes at hs
  rw [List.take_append_of_le_length (by omega), List.take_append_of_le_length (by omega)] at hs
  have hl1 : ((pre.take 8).drop 2).length = (two t.day ++ two t.hour ++ two t.minute).length := by
    simp [two_length]; omega
  obtain ⟨g1, g2⟩ := List.append_inj hs hl1
  have hin : ∀ a n, a + n ≤ 17 → ((pre ++ 3 :: rest).drop a).take n = (pre.take (a + n)).drop a := by
    intro a n han
    rw [List.drop_append_of_le_length (by omega), List.take_append_of_le_length (by simp; omega), List.drop_take]
    rw [show a + n - a = n by omega]
  have e13 : (pre.take 15).drop 13 = two t.month ∧ (pre.take 17).drop 15 = yy := by
    have hsplit : (pre.take 17).drop 13 = (pre.take 15).drop 13 ++ (pre.take 17).drop 15 := by
      rw [List.drop_take, List.drop_take, List.drop_take]
      rw [show 17 - 13 = 2 + 2 by rfl, List.take_add, List.drop_drop]
    rw [hsplit] at g2
    exact List.append_inj g2 (by simp [two_length]; omega)
  refine ⟨t, hv, hy1, hy2, hx, ?_, ?_, ?_⟩
  · rw [hin 2 6 (by omega)]; exact g1
  · rw [hin 13 2 (by omega)]; exact e13.1
  · rw [hin 15 2 (by omega), e13.2]; exact hyy

example : ∃ c, Success env0 sampleRX c := let ⟨c, h, _⟩ := sampleRX_ok; ⟨c, h⟩

theorem value_cons_unknown {f f' : Field} (hk : f.key ∉ knownKeys) (hk' : f'.key ∉ knownKeys) (fs : List Field)
    {k : Bytes} (h : k ∈ knownKeys) : value (f :: fs) k = value (f' :: fs) k := by
  simp only [value]
  have h1 : f.key ≠ k := fun e => hk (e ▸ h)
  have h2 : f'.key ≠ k := fun e => hk' (e ▸ h)
  rw [if_neg h1, if_neg h2]

/-- C21 (b). Every valid civil time from 1969 to 2068 is recovered from its header: replacing the time stamp
(and the WMO number) of an accepted file by any other valid one gives an accepted file whose capture time is that
instant, and changes nothing else but the forecast time, which moves along. (c) An impossible date is rejected. -/
theorem C21_every_time {E : Env} {f f' : Field} {fs : List Field} {data label wmo wmo' : Bytes} {t t' : Civil}
    {c : Composite} (hw : ∀ g ∈ f :: fs, g.WF) (hw' : f'.WF)
    (hl : label.length = 2) (hwmo : wmo.length = 5) (hwmo' : wmo'.length = 5)
    (hf : f.key ++ f.val = stamp label wmo t) (hf' : f'.key ++ f'.val = stamp label wmo' t')
    (hk : f.key ∉ knownKeys) (hk' : f'.key ∉ knownKeys)
    (hy' : 1969 ≤ t'.year ∧ t'.year ≤ 2068)
    (hd' : t'.day < 100 ∧ t'.hour < 100 ∧ t'.minute < 100 ∧ t'.month < 100)
    (hS : Success E (file (f :: fs) data) c) :
    (t'.Valid → ∃ c', Success E (file (f' :: fs) data) c' ∧ c'.captureTime = t'.instant ∧
      c'.forecastTime - c'.captureTime = c.forecastTime - c.captureTime ∧
      c'.product = c.product ∧ c'.plainData = c.plainData ∧ c'.dataZ = c.dataZ ∧ c'.interval = c.interval ∧
      c'.format = c.format ∧ c'.dx = c.dx ∧ c'.dy = c.dy ∧ c'.level = c.level ∧ c'.precision = c.precision) ∧
    (¬ t'.Valid → ∀ c', ¬ Success E (file (f' :: fs) data) c') := by
  have hwf' : ∀ g ∈ f' :: fs, g.WF := by
    intro g hg
    rcases List.mem_cons.mp hg with rfl | hg
    · exact hw'
    · exact hw g (List.mem_cons_of_mem _ hg)
  have hhd : ∀ f0 : Field, header (f0 :: fs) = (f0.key ++ f0.val) ++ header fs := fun _ => rfl
  have hdate : dateBytes (header (f' :: fs) ++ [3]) =
      two t'.day ++ two t'.hour ++ two t'.minute ++ (two t'.month ++ two (t'.year % 100)) := by
    rw [hhd, hf', List.append_assoc]; exact dateBytes_stamp hl hwmo' _
  have hpt := parseTime_digits hy' hd'
  rw [← hdate] at hpt
  obtain ⟨h, rows, rest', hh, ha, hd, rfl, hF, hlen⟩ := success_fields hw hS
  constructor
  · intro hv
    rw [if_pos hv] at hpt
    have hfind : ∀ k ∈ knownKeys, Section.find (pairs (f' :: fs)).reverse k = Section.find (pairs (f :: fs)).reverse k := by
      intro k hkk
      rw [find_pairs, find_pairs]
      exact value_cons_unknown hk' hk fs hkk
    have htk : (header (f' :: fs) ++ [3]).take 2 = (header (f :: fs) ++ [3]).take 2 := by
      rw [hhd, hhd, hf, hf']
      unfold stamp
      simp only [List.append_assoc]
      rw [List.take_append_of_le_length (by omega), List.take_append_of_le_length (by omega)]
    have hln : (header (f' :: fs) ++ [3]).length = (header (f :: fs) ++ [3]).length := by
      rw [hhd, hhd, hf, hf']
      simp only [List.length_append, stamp_length hl hwmo, stamp_length hl hwmo']
    obtain ⟨n, hn, hnl⟩ := hF.length
    have hBY : Section.find (pairs (f' :: fs)).reverse (str "BY") = Section.find (pairs (f :: fs)).reverse (str "BY") :=
      hfind _ (by decide)
    -- forecast relative to capture
    have hfc : forecastOf (pairs (f' :: fs)).reverse t'.instant
        = some (t'.instant + (h.forecastTime - h.captureTime)) := by
      have := hF.forecast
      unfold forecastOf at this ⊢
      rw [hfind (str "VV") (by decide)]
      cases hvv : Section.find (pairs (f :: fs)).reverse (str "VV") with
      | none =>
        rw [hvv] at this
        simp only [Option.some.injEq] at this ⊢
        omega
      | some v =>
        rw [hvv] at this
        simp only [Option.map_eq_some_iff, Option.some.injEq] at this ⊢
        obtain ⟨m, hm, he⟩ := this
        refine ⟨m, hm, ?_⟩
        rw [← he]; ring
    have hint : intervalOf (pairs (f' :: fs)).reverse ((header (f' :: fs) ++ [3]).take 2) = some h.interval := by
      rw [htk, ← hF.interval]; unfold intervalOf; rw [hfind (str "INT") (by decide)]
    have hdim : dimsOf (pairs (f' :: fs)).reverse ((header (f' :: fs) ++ [3]).take 2) = some ⟨h.px, h.py, h.dx, h.dy⟩ := by
      rw [htk, ← hF.dims]; unfold dimsOf
      rw [hfind (str "GP") (by decide), hfind (str "BG") (by decide)]
    have hpre : precisionOf (pairs (f' :: fs)).reverse = some h.precision := by
      rw [← hF.precision]; unfold precisionOf; rw [hfind (str "E") (by decide)]
    have hlev : levelsOf E (pairs (f' :: fs)).reverse = some h.level := by
      rw [← hF.level]; unfold levelsOf; rw [hfind (str "LV") (by decide)]
    have hfor : formatOf (pairs (f' :: fs)).reverse = some h.format := by
      rw [← hF.format]; unfold formatOf; rw [hfind (str "VS") (by decide)]
    have hsome := headerComposite_isSome (E := E) (header := header (f' :: fs) ++ [3])
      (s := (pairs (f' :: fs)).reverse) (by rw [hBY]; exact hn) hpt hfc hint hdim hpre hlev hfor
    obtain ⟨h', hc'⟩ := Option.isSome_iff_exists.mp hsome
    have hF' := headerComposite_fields hc'
    have hho : headerOf E (file (f' :: fs) data) = some (h', data) := by
      unfold headerOf
      rw [readDelim_file hwf']
      simp only
      rw [if_neg]
      · rw [List.dropLast_concat, splitHeader_wf E _ (by simp) hwf']
        simp only
        rw [hc']; rfl
      · rw [hln]; simp only [List.length_append, List.length_singleton]; omega
    have q1 : h'.dataUnit = h.dataUnit := by rw [hF'.unit, hF.unit, htk]
    have q2 : h'.dataLength = h.dataLength := by
      obtain ⟨n', hn', hnl'⟩ := hF'.length
      rw [hBY, hn] at hn'
      simp only [Option.some.injEq] at hn'
      rw [hnl', hnl, hln, hn']
    have q3 := hF'.dims
    rw [hdim] at q3
    simp only [Option.some.injEq, Dims.mk.injEq] at q3
    have q4 : h'.precision = h.precision := by
      have := hF'.precision; rw [hpre] at this; simpa using this.symm
    have q5 : h'.level = h.level := by
      have := hF'.level; rw [hlev] at this; simpa using this.symm
    have q6 : h'.format = h.format := by
      have := hF'.format; rw [hfor] at this; simpa using this.symm
    have q7 : h'.interval = h.interval := by
      have := hF'.interval; rw [hint] at this; simpa using this.symm
    have q8 : h'.captureTime = t'.instant := by
      have := hF'.capture; rw [hpt] at this; simpa using this.symm
    have q9 : h'.forecastTime = t'.instant + (h.forecastTime - h.captureTime) := by
      have := hF'.forecast; rw [q8, hfc] at this; simpa using this.symm
    have hdat : dataOf h' data = some (rows, rest') := by
      rw [← hd]; unfold dataOf identifyEncoding
      rw [q1, q2, q4, q5, q3.1, q3.2.1]
    have hall : AllocOK h' := by
      unfold AllocOK at ha ⊢
      rw [← q3.1, ← q3.2.1]; exact ha
    refine ⟨finish E h' rows, parsed_iff.mpr ⟨h', data, rows, rest', hho, hall, hdat, rfl⟩, q8, ?_, ?_, rfl, ?_, q7, q6,
      q3.2.2.1.symm, q3.2.2.2.symm, q5, q4⟩
    · show h'.forecastTime - h'.captureTime = h.forecastTime - h.captureTime
      rw [q8, q9]; ring
    · show h'.product = h.product
      rw [hF'.product, hF.product, htk]
    · show layersOf h'.py.toNat h'.dy.toNat rows = layersOf h.py.toNat h.dy.toNat rows
      rw [q3.2.1, q3.2.2.2]
  · intro hv c' hS'
    rw [if_neg hv] at hpt
    obtain ⟨h', rows', rest'', hh', ha', hd', _, hF', _⟩ := success_fields hwf' hS'
    have := hF'.capture
    rw [hpt] at this
    simp at this

/-- leap day instead of the sample's date -/
example : ∃ c, Success env0 (file (⟨str "RX", str "292359" ++ str "10000" ++ str "0224"⟩ :: fieldsRX.tail)
    [10, 20, 30, 40, 250, 60, 99]) c ∧ c.captureTime = (⟨2024, 2, 29, 23, 59⟩ : Civil).instant := by
  obtain ⟨c, h, _⟩ := sampleRX_ok
  rw [← fieldsRX_file] at h
  obtain ⟨c', h1, h2, _⟩ := (C21_every_time (E := env0) (f := fieldsRX.head (by decide)) (fs := fieldsRX.tail)
    (f' := ⟨str "RX", str "292359" ++ str "10000" ++ str "0224"⟩) (label := str "RX") (wmo := str "10000")
    (wmo' := str "10000") (t := ⟨2017, 2, 2, 13, 10⟩) (t' := ⟨2024, 2, 29, 23, 59⟩)
    (by simpa using fieldsRX_wf) (by decide) (by decide) (by decide) (by decide) (by decide) (by decide) (by decide)
    (by decide) (by decide) (by decide) h).1 (by decide)
  exact ⟨c', h1, h2⟩

/-- the calendar specification on known dates -/
example : (⟨1970, 1, 1, 0, 0⟩ : Civil).instant = 0 ∧ (⟨2017, 2, 2, 13, 10⟩ : Civil).instant = 1486041000 * 1000000000 ∧
    ¬ (⟨2023, 2, 29, 0, 0⟩ : Civil).Valid := by decide

end Props
