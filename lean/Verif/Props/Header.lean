/-
C18, C19, C20, C22, C23, C25: header fields.
-/
import Verif.Lemmas.Fields
import Verif.Lemmas.Numbers
import Verif.Props.Shape
import Verif.Spec.Units

namespace Props
open Go Radolan Spec

/-! ### fields of the sample file -/

def fieldsRX : List Field :=
  [⟨str "RX", str "021310100000217"⟩, ⟨str "BY", str " 52"⟩, ⟨str "VS", str " 3"⟩, ⟨str "INT", str " 5"⟩,
   ⟨str "PR", str " "⟩, ⟨str "E", str "+00"⟩, ⟨str "GP", str " 2x 3"⟩]

theorem fieldsRX_wf : ∀ f ∈ fieldsRX, f.WF := by decide

theorem fieldsRX_file : file fieldsRX [10, 20, 30, 40, 250, 60, 99] = sampleRX := by decide

/-- the sample with a forecast offset and another order of fields -/
def fieldsVV : List Field :=
  [⟨str "W", str "3021310100000217"⟩, ⟨str "GP", str " 2x 3"⟩, ⟨str "BY", str " 51"⟩, ⟨str "VV", str " 015"⟩,
   ⟨str "INT", str " 5"⟩, ⟨str "E", str "-01"⟩]

theorem fieldsVV_wf : ∀ f ∈ fieldsVV, f.WF := by decide

theorem fieldsVV_ok : ∃ c, Success env0 (file fieldsVV [10, 20, 30, 40, 250, 60, 99]) c ∧
    (c.forecastTime == c.captureTime + 15 * 60000000000 && c.interval == 3000000000000 && c.dy == 2) = true :=
  success_of_okWith (by decide +kernel)

/-! ### splitting -/

/-- C18. A header made of upper-case keys with non-empty values is split into exactly these values, the last
field winning among equal keys; no other key has a value. -/
theorem C18_split_header (E : Env) (fs : List Field) (hne : fs ≠ []) (hw : ∀ f ∈ fs, f.WF) :
    ∃ sec, splitHeader E (header fs) = some sec ∧ (∀ k, sec.find k = value fs k) ∧
      sec.length = fs.length ∧ (∀ k v, (k, v) ∈ sec ↔ ⟨k, v⟩ ∈ fs) := by
  refine ⟨_, splitHeader_wf E fs hne hw, find_pairs fs, by simp [pairs], ?_⟩
  intro k v
  simp only [pairs, List.mem_reverse, List.mem_map, Prod.mk.injEq]
  constructor
  · rintro ⟨f, hf, rfl, rfl⟩; exact hf
  · intro h; exact ⟨_, h, rfl, rfl⟩

example : ∃ sec, splitHeader env0 (header fieldsRX) = some sec ∧ sec.find (str "GP") = some (str " 2x 3") ∧
    sec.find (str "VV") = none := by
  obtain ⟨sec, h, hv, _⟩ := C18_split_header env0 fieldsRX (by decide) fieldsRX_wf
  exact ⟨sec, h, by rw [hv]; decide, by rw [hv]; decide⟩

/-! ### order of fields -/

theorem value_some_mem {fs : List Field} {k v : Bytes} (h : value fs k = some v) : ⟨k, v⟩ ∈ fs := by
  induction fs with
  | nil => simp [value] at h
  | cons f fs ih =>
    simp only [value] at h
    split at h
    · rename_i w hw
      simp only [Option.some.injEq] at h; subst h
      exact List.mem_cons_of_mem _ (ih hw)
    · split at h
      · rename_i hk
        simp only [Option.some.injEq] at h; subst h; subst hk
        exact List.mem_cons_self
      · simp at h

theorem value_none {fs : List Field} {k : Bytes} (h : value fs k = none) : ∀ f ∈ fs, f.key ≠ k := by
  induction fs with
  | nil => simp
  | cons f fs ih =>
    simp only [value] at h
    split at h
    · simp at h
    · rename_i hw
      split at h
      · simp at h
      · rename_i hk
        intro g hg
        rcases List.mem_cons.mp hg with rfl | hg
        · exact hk
        · exact ih hw g hg

theorem value_of_mem {fs : List Field} (hn : (fs.map Field.key).Nodup) {k v : Bytes} (h : ⟨k, v⟩ ∈ fs) :
    value fs k = some v := by
  cases hv : value fs k with
  | none => exact absurd rfl (value_none hv _ h)
  | some w =>
    have h2 := value_some_mem hv
    have := List.inj_on_of_nodup_map hn h h2 rfl
    simp only [Field.mk.injEq, true_and] at this
    rw [this]

theorem value_perm {fs fs' : List Field} (hp : fs.Perm fs') (hn : (fs.map Field.key).Nodup) (k : Bytes) :
    value fs k = value fs' k := by
  have hn' : (fs'.map Field.key).Nodup := (hp.map _).nodup_iff.mp hn
  cases hv : value fs k with
  | some v => exact (value_of_mem hn' (hp.mem_iff.mp (value_some_mem hv))).symm
  | none =>
    cases hv' : value fs' k with
    | none => rfl
    | some v =>
      rw [value_of_mem hn (hp.mem_iff.mpr (value_some_mem hv'))] at hv
      simp at hv

theorem header_length_perm {fs fs' : List Field} (hp : fs.Perm fs') :
    (header fs).length = (header fs').length := by
  induction hp with
  | nil => rfl
  | cons x _ ih => simp only [header, List.length_append]; omega
  | swap x y l => simp only [header, List.length_append]; omega
  | trans _ _ ih1 ih2 => omega

/-- C19. Permuting the fields after the product and time prefix does not change the result of NewComposite
(composite, error and panic alike). -/
theorem C19_field_order (E : Env) (f0 : Field) (fs fs' : List Field) (data : Bytes)
    (hw : ∀ f ∈ f0 :: fs, f.WF) (hpre : 17 ≤ (f0.key ++ f0.val).length)
    (hn : (fs.map Field.key).Nodup) (hp : fs.Perm fs') :
    NewComposite E (file (f0 :: fs) data) = NewComposite E (file (f0 :: fs') data) := by
  apply newComposite_congr
  have hw' : ∀ f ∈ f0 :: fs', f.WF := by
    intro f hf
    rcases List.mem_cons.mp hf with rfl | hf
    · exact hw _ (by simp)
    · exact hw f (List.mem_cons_of_mem _ (hp.mem_iff.mpr hf))
  have hl := header_length_perm hp
  have ht : ∀ n ≤ 17, (header (f0 :: fs)).take n = (header (f0 :: fs')).take n := by
    intro n hn
    have e : ∀ l, header (f0 :: l) = (f0.key ++ f0.val) ++ header l := fun l => rfl
    rw [e, e, List.take_append_of_le_length (by omega), List.take_append_of_le_length (l₁ := f0.key ++ f0.val) (by omega)]
  apply parseHeader_congr E (by simp) (by simp) hw hw'
  · simp only [header, List.length_append]; omega
  · exact ht 8 (by omega)
  · rw [ht 17 (by omega)]
  · intro k
    simp only [value]
    rw [value_perm hp hn k]

example : ∃ c, Success env0 (file (fieldsRX.head (by decide) :: fieldsRX.tail.reverse) [10, 20, 30, 40, 250, 60, 99]) c := by
  obtain ⟨c, h, _⟩ := sampleRX_ok
  rw [← fieldsRX_file] at h
  refine ⟨c, ?_⟩
  unfold Success
  rw [← C19_field_order env0 _ fieldsRX.tail _ _ (by simpa using fieldsRX_wf) (by decide) (by decide)
    (List.reverse_perm _).symm]
  exact h

/-! ### a key without value at the end of the header -/

/-- C20. A key without value at the end of the header takes the value of the preceding field; all other keys
are as without it. -/
theorem C20_trailing_key (E : Env) (fs : List Field) (g : Field) (hw : ∀ f ∈ fs ++ [g], f.WF)
    (k : Bytes) (hk : k ≠ []) (hu : ∀ b ∈ k, upper b) :
    ∃ sec, splitHeader E (header (fs ++ [g]) ++ k) = some sec ∧ sec.find k = some g.val ∧
      ∀ k', k' ≠ k → sec.find k' = value (fs ++ [g]) k' := by
  refine ⟨_, splitHeader_trailing E fs g hw k hk hu, ?_, ?_⟩
  · simp [Section.find]
  · intro k' hk'
    rw [← find_pairs]
    unfold Section.find
    rw [List.lookup_cons]
    have : (k' == k) = false := by simpa using hk'
    rw [this]

/-- parsed header of a file whose header ends with a key without value -/
theorem success_trailing {E : Env} {fs : List Field} {g : Field} {k data : Bytes} {c : Composite}
    (hw : ∀ f ∈ fs ++ [g], f.WF) (hk : k ≠ []) (hu : ∀ b ∈ k, upper b)
    (hS : Success E (header (fs ++ [g]) ++ k ++ [3] ++ data) c) :
    ∃ h rows, c = finish E h rows ∧
      HeaderFields E (header (fs ++ [g]) ++ k ++ [3]) ((k, g.val) :: (pairs (fs ++ [g])).reverse) h := by
  obtain ⟨h, rest, rows, rest', hh, ha, hd, hc⟩ := parsed_iff.mp hS
  obtain ⟨hdr, s, h1, h2, h3, h4, h5⟩ := headerOf_some hh
  have hr : readDelim 3 (header (fs ++ [g]) ++ k ++ [3] ++ data) = some (header (fs ++ [g]) ++ k ++ [3], data) := by
    rw [readDelim_some]
    refine ⟨header (fs ++ [g]) ++ k, rfl, by simp, ?_⟩
    intro hm
    rcases List.mem_append.mp hm with hm | hm
    · exact header_no_delim hw hm
    · have := (hu 3 hm).1; revert this; decide
  rw [hr] at h1
  simp only [Option.some.injEq, Prod.mk.injEq] at h1
  obtain ⟨rfl, rfl⟩ := h1
  rw [List.dropLast_concat, splitHeader_trailing E fs g hw k hk hu] at h3
  simp only [Option.some.injEq] at h3
  subst h3
  exact ⟨h, rows, hc, h4⟩

theorem minutes_exact {n : Int} (h1 : -153722867 ≤ n) (h2 : n ≤ 153722867) :
    wrap64 (n * minuteNs) = n * 60000000000 := by
  unfold minuteNs
  rw [wrap64_id] <;> omega

/-- C20, seen through the API: a forecast key without value at the end of the header silently shifts the
forecast time by the number of the preceding field. -/
theorem C20_trailing_forecast {E : Env} {fs : List Field} {g : Field} {data : Bytes} {c : Composite} {n : Int}
    (hw : ∀ f ∈ fs ++ [g], f.WF) (hS : Success E (header (fs ++ [g]) ++ str "VV" ++ [3] ++ data) c)
    (hg : IsInt g.val n) (h1 : -153722867 ≤ n) (h2 : n ≤ 153722867) :
    c.forecastTime = c.captureTime + n * 60000000000 := by
  obtain ⟨h, rows, rfl, hf⟩ := success_trailing hw (by decide) (by decide) hS
  have := hf.forecast
  unfold forecastOf at this
  simp only [Section.find, List.lookup_cons_self, sscanfD_isInt hg, Option.map_some, Option.some.injEq] at this
  rw [minutes_exact h1 h2] at this
  exact this.symm

/-- an interval of five minutes becomes a forecast of five minutes -/
theorem sampleTrailing_ok : ∃ c, Success env0 (str "RX021310100000217BY 43GP 2x 3INT 5VV" ++ [3] ++ [1,2,3,4,5,6,7,8,9,10]) c ∧
    (c.forecastTime == c.captureTime + 5 * 60000000000) = true :=
  success_of_okWith (by decide +kernel)

/-! ### forecast time -/

theorem isDigit_of_sscanfD {v : Bytes} {n : Int} (ha : ∀ b ∈ v, b < 128) (h : sscanfD v = some n) :
    ∃ b ∈ v, 48 ≤ b ∧ b ≤ 57 := by
  by_contra hno
  have hall : ∀ r ∈ runes v, isDigit r = false := by
    rw [runes_ascii ha]
    intro r hr
    rw [List.mem_map] at hr
    obtain ⟨b, hb, rfl⟩ := hr
    have : ¬ (48 ≤ b ∧ b ≤ 57) := fun hc => hno ⟨b, hb, hc⟩
    rw [UInt8.le_iff_toNat_le, UInt8.le_iff_toNat_le] at this
    have e1 : (48 : UInt8).toNat = 48 := rfl
    have e2 : (57 : UInt8).toNat = 57 := rfl
    rw [e1, e2] at this
    unfold isDigit; simp; omega
  have hsk : ∀ l l', skipSpace l = some l' → ∀ r ∈ l', r ∈ l := by
    intro l
    induction l with
    | nil => intro l' h; simp [skipSpace] at h; subst h; simp
    | cons a l ih =>
      intro l' h
      rw [skipSpace] at h
      split at h
      · simp at h
      · split at h
        · intro r hr; exact List.mem_cons_of_mem _ (ih l' h r hr)
        · simp only [Option.some.injEq] at h; subst h; exact fun r hr => hr
  unfold sscanfD scanD scanInt at h
  cases h1 : skipSpace (runes v) with
  | none => rw [h1] at h; simp at h
  | some l =>
    rw [h1] at h
    simp only [Option.bind_eq_bind, Option.bind_some] at h
    cases h2 : skipSpace l with
    | none => rw [h2] at h; simp at h
    | some l2 =>
      rw [h2] at h
      simp only [Option.bind_some] at h
      have hd : ∀ r ∈ l2, isDigit r = false := fun r hr => hall r (hsk _ _ h1 r (hsk _ _ h2 r hr))
      have hs : ∀ r ∈ (signSplit l2).2, r ∈ l2 := by
        unfold signSplit
        split
        · intro r hr; exact List.mem_cons_of_mem _ hr
        · intro r hr; exact List.mem_cons_of_mem _ hr
        · exact fun r hr => hr
      have : (signSplit l2).2.takeWhile isDigit = [] := by
        cases h3 : (signSplit l2).2 with
        | nil => rfl
        | cons r t =>
          have := hd r (hs r (by rw [h3]; simp))
          simp [this]
      rw [this, if_pos rfl] at h
      simp at h

theorem value_wf {fs : List Field} (hw : ∀ f ∈ fs, f.WF) {k v : Bytes} (h : value fs k = some v) :
    ∀ b ∈ v, b < 128 := fun b hb => ((hw _ (value_some_mem h)).2.2.2 b hb).1

/-- C22. The forecast time is the capture time plus VV minutes; nanoseconds are counted modulo 2^64, so the
sum is exact up to 153722867 minutes; without VV both times are equal; a VV without any digit is rejected. -/
theorem C22_forecast_time {E : Env} {fs : List Field} {data : Bytes} {c : Composite} (hw : ∀ f ∈ fs, f.WF)
    (hS : Success E (file fs data) c) :
    (value fs (str "VV") = none → c.forecastTime = c.captureTime) ∧
    (∀ v n, value fs (str "VV") = some v → IsInt v n →
      (-153722867 ≤ n → n ≤ 153722867 → c.forecastTime = c.captureTime + n * 60000000000) ∧
      (0 ≤ n → n ≤ 153722867 → c.captureTime ≤ c.forecastTime) ∧
      (∃ k : Int, c.forecastTime - c.captureTime = n * 60000000000 + k * 2 ^ 64) ∧
      -(2 ^ 63) ≤ c.forecastTime - c.captureTime ∧ c.forecastTime - c.captureTime < 2 ^ 63) ∧
    (∀ v, value fs (str "VV") = some v → ∃ b ∈ v, 48 ≤ b ∧ b ≤ 57) := by
  obtain ⟨h, rows, rest', hh, ha, hd, rfl, hf, _⟩ := success_fields hw hS
  have h1 := hf.forecast
  unfold forecastOf at h1
  rw [find_pairs] at h1
  refine ⟨?_, ?_, ?_⟩
  · intro hv
    rw [hv] at h1
    simp only [Option.some.injEq] at h1
    exact h1.symm
  · intro v n hv hi
    rw [hv] at h1
    simp only [sscanfD_isInt hi, Option.map_some, Option.some.injEq] at h1
    have e : (finish E h rows).forecastTime = (finish E h rows).captureTime + wrap64 (n * minuteNs) := h1.symm
    rw [e]
    have hr := wrap64_range (n * minuteNs)
    refine ⟨?_, ?_, ?_, ?_, ?_⟩
    · intro ha hb; rw [minutes_exact ha hb]
    · intro ha hb; rw [minutes_exact (by omega) hb]; omega
    · obtain ⟨k, hk⟩ : ∃ k : Int, wrap64 (n * minuteNs) = n * minuteNs + k * 2 ^ 64 := by
        refine ⟨-((n * minuteNs).bdiv (2 ^ 64)), ?_⟩
        have := Int.bmod_add_bdiv (n * minuteNs) (2 ^ 64)
        unfold wrap64
        push_cast at this ⊢
        linarith
      refine ⟨k, ?_⟩
      rw [hk]; unfold minuteNs; ring
    · generalize wrap64 (n * minuteNs) = w at *; omega
    · generalize wrap64 (n * minuteNs) = w at *; omega
  · intro v hv
    rw [hv] at h1
    simp only [Option.map_eq_some_iff] at h1
    obtain ⟨n, hn, _⟩ := h1
    exact isDigit_of_sscanfD (value_wf hw hv) hn

example : ∃ c, Success env0 (file fieldsVV [10, 20, 30, 40, 250, 60, 99]) c ∧
    value fieldsVV (str "VV") = some (str " 015") ∧ IsInt (str " 015") 15 := by
  obtain ⟨c, h, _⟩ := fieldsVV_ok
  exact ⟨c, h, by decide, 1, .none, [0, 1, 5], [], by decide, by decide, by decide, by decide, by decide,
    by decide, by decide, by decide⟩

/-! ### interval -/

/-- C23. The interval is INT minutes, ten times as much for W1, W2, W3, W4 and no other product, zero without
INT; an INT without any digit is rejected. -/
theorem C23_interval {E : Env} {fs : List Field} {data : Bytes} {c : Composite} (hw : ∀ f ∈ fs, f.WF)
    (hS : Success E (file fs data) c) :
    (value fs (str "INT") = none → c.interval = 0) ∧
    (∀ v n, value fs (str "INT") = some v → IsInt v n → -15372286 ≤ n → n ≤ 15372286 →
      c.interval = n * 60000000000 *
        (if c.product ∈ [str "W1", str "W2", str "W3", str "W4"] then 10 else 1)) ∧
    (∀ v, value fs (str "INT") = some v → ∃ b ∈ v, 48 ≤ b ∧ b ≤ 57) := by
  obtain ⟨h, rows, rest', hh, ha, hd, rfl, hf, _⟩ := success_fields hw hS
  have h1 := hf.interval
  have hp := hf.product
  rw [← hp] at h1
  unfold intervalOf at h1
  rw [find_pairs] at h1
  refine ⟨?_, ?_, ?_⟩
  · intro hv
    rw [hv] at h1
    simp only [Option.some.injEq] at h1
    exact h1.symm
  · intro v n hv hi hn1 hn2
    rw [hv] at h1
    simp only [sscanfD_isInt hi, Option.map_some, Option.some.injEq] at h1
    have e : (finish E h rows).interval = h.interval := rfl
    have e2 : (finish E h rows).product = h.product := rfl
    rw [e, e2, ← h1, minutes_exact (by omega) (by omega)]
    have e3 : h.product ∈ [str "W1", str "W2", str "W3", str "W4"] ↔ isW h.product = true := by
      rw [isW_iff]; simp
    by_cases hW : isW h.product = true
    · rw [if_pos hW, if_pos (e3.mpr hW), wrap64_id] <;> omega
    · rw [if_neg hW, if_neg (fun hc => hW (e3.mp hc))]; omega
  · intro v hv
    rw [hv] at h1
    simp only [Option.map_eq_some_iff] at h1
    obtain ⟨n, hn, _⟩ := h1
    exact isDigit_of_sscanfD (value_wf hw hv) hn

example : ∃ c, Success env0 (file fieldsVV [10, 20, 30, 40, 250, 60, 99]) c ∧
    value fieldsVV (str "INT") = some (str " 5") ∧ IsInt (str " 5") 5 := by
  obtain ⟨c, h, _⟩ := fieldsVV_ok
  exact ⟨c, h, by decide, 1, .none, [5], [], by decide, by decide, by decide, by decide, by decide,
    by decide, by decide, by decide⟩

/-! ### product and unit -/

theorem lookup_unit_iff (p : Bytes) (u : Int) : unitCatalog.lookup p = some u ↔ (p, u) ∈ unitCatalog := by
  constructor
  · intro h
    rw [List.lookup_eq_some_iff] at h
    obtain ⟨l1, l2, hl, _⟩ := h
    rw [hl]; simp
  · intro h
    have hall : ∀ q ∈ unitCatalog, unitCatalog.lookup q.1 = some q.2 := by decide
    exact hall _ h

/-- C25. The product is the first two bytes of the input, the unit the catalogued unit of the product, and
ErrUnknownUnit is returned exactly when everything else parsed and the product is not catalogued. -/
theorem C25_product_unit (E : Env) (input : Bytes) (c : Composite) :
    (Success E input c →
      c.product = input.take 2 ∧
      (∀ label ∈ productsIn .mm, c.product = label → c.dataUnit = Unit_mm) ∧
      (∀ label ∈ productsIn .dBZ, c.product = label → c.dataUnit = Unit_dBZ) ∧
      (∀ label ∈ productsIn .km, c.product = label → c.dataUnit = Unit_km) ∧
      (∀ label ∈ productsIn .mps, c.product = label → c.dataUnit = Unit_mps) ∧
      ((∀ u, c.product ∉ productsIn u) → c.dataUnit = Unit_unknown)) ∧
    (NewComposite E input = .ret c (some .unknownUnit) ↔
      Success E input c ∧ ∀ u, c.product ∉ productsIn u) := by
  have hunit : ∀ u, ∀ label ∈ productsIn u, (label, u.code) ∈ unitCatalog := by
    intro u; cases u <;> decide
  have hback : ∀ q ∈ unitCatalog, ∃ u, q.1 ∈ productsIn u := by
    have h4 : ∀ q ∈ unitCatalog, q.1 ∈ productsIn .mm ∨ q.1 ∈ productsIn .dBZ ∨ q.1 ∈ productsIn .km ∨
        q.1 ∈ productsIn .mps := by decide
    intro q hq
    rcases h4 q hq with h | h | h | h
    exacts [⟨_, h⟩, ⟨_, h⟩, ⟨_, h⟩, ⟨_, h⟩]
  have hfacts : ∀ h rest, headerOf E input = some (h, rest) → h.product = input.take 2 ∧
      h.dataUnit = (unitCatalog.lookup h.product).getD Unit_unknown := by
    intro h rest hh
    obtain ⟨hdr, s, h1, h2, h3, hf, h5⟩ := headerOf_some hh
    rw [readDelim_some] at h1
    obtain ⟨pre, rfl, rfl, _⟩ := h1
    have : (pre ++ [3]).take 2 = (pre ++ 3 :: rest).take 2 := by
      simp only [List.length_append, List.length_singleton] at h2
      rw [List.take_append_of_le_length (by omega), List.take_append_of_le_length (by omega)]
    refine ⟨by rw [hf.product, this], by rw [hf.unit, hf.product]⟩
  have hsucc : Success E input c → c.product = input.take 2 ∧
      c.dataUnit = (unitCatalog.lookup c.product).getD Unit_unknown := by
    intro hS
    obtain ⟨h, rest, rows, rest', hh, ha, hd, rfl⟩ := parsed_iff.mp hS
    exact hfacts h rest hh
  have hpos : ∀ u p, p ∈ productsIn u → (unitCatalog.lookup p).getD Unit_unknown = u.code := by
    intro u p hp
    rw [(lookup_unit_iff p u.code).mpr (hunit u p hp)]; rfl
  have hneg : ∀ p, (∀ u, p ∉ productsIn u) → (unitCatalog.lookup p).getD Unit_unknown = Unit_unknown := by
    intro p hp
    cases hl : unitCatalog.lookup p with
    | none => rfl
    | some u =>
      obtain ⟨w, hw⟩ := hback _ ((lookup_unit_iff p u).mp hl)
      exact absurd hw (hp w)
  refine ⟨?_, ?_⟩
  · intro hS
    obtain ⟨h1, h2⟩ := hsucc hS
    refine ⟨h1, ?_, ?_, ?_, ?_, ?_⟩
    · rintro l hl rfl; rw [h2]; exact hpos .mm _ hl
    · rintro l hl rfl; rw [h2]; exact hpos .dBZ _ hl
    · rintro l hl rfl; rw [h2]; exact hpos .km _ hl
    · rintro l hl rfl; rw [h2]; exact hpos .mps _ hl
    · intro hp; rw [h2]; exact hneg _ hp
  · have hc := newComposite_cases E input
    have key : NewComposite E input = .ret c (some .unknownUnit) → c.dataUnit = Unit_unknown := by
      intro h
      have h' : (newCompositeRest E input).1 = .ret c (some .unknownUnit) := h
      generalize newCompositeRest E input = r at *
      cases hc with
      | header h1 e c' hb he => simp at h'; exact absurd h'.2 he
      | zero c' rest h1 hz hb => simp at h'
      | panic c' rest h1 hz ha => simp at h'
      | data c' rest h1 ha hd e c'' hb he => simp at h'; exact absurd h'.2 he
      | ok c' rest h1 ha rows rest' hd =>
        simp only [Outcome.ret.injEq] at h'
        obtain ⟨rfl, h''⟩ := h'
        split at h''
        · assumption
        · simp at h''
    constructor
    · intro h
      refine ⟨Or.inr h, ?_⟩
      intro u hu
      have hS : Success E input c := Or.inr h
      have := key h
      rw [(hsucc hS).2, hpos u _ hu] at this
      revert this; cases u <;> decide
    · rintro ⟨hS, hp⟩
      rcases hS with h | h
      · exfalso
        have hS : Success E input c := Or.inl h
        have hu := (hsucc hS).2
        rw [hneg _ hp] at hu
        have h' : (newCompositeRest E input).1 = .ret c none := h
        generalize newCompositeRest E input = r at *
        cases hc with
        | header h1 e c' hb he => simp at h'
        | zero c' rest h1 hz hb => simp at h'
        | panic c' rest h1 hz ha => simp at h'
        | data c' rest h1 ha hd e c'' hb he => simp at h'
        | ok c' rest h1 ha rows rest' hd =>
          simp only [Outcome.ret.injEq] at h'
          obtain ⟨rfl, h''⟩ := h'
          have : c'.dataUnit = Unit_unknown := hu
          rw [if_pos this] at h''
          simp at h''
      · exact h

/-- a catalogued product, and an unknown one for which only the warning is returned -/
example : (∃ c, Success env0 sampleRX c ∧ c.dataUnit = Unit_dBZ) ∧
    (∃ c, NewComposite env0 (str "XX" ++ sampleRX.drop 2) = .ret c (some .unknownUnit) ∧ c.dataUnit = Unit_unknown) := by
  constructor
  · obtain ⟨c, h, _⟩ := sampleRX_ok
    have := (C25_product_unit env0 sampleRX c).1 h
    refine ⟨c, h, this.2.2.1 (str "RX") (by decide) (by rw [this.1]; decide)⟩
  · obtain ⟨c, h, hc⟩ := success_of_okWith (E := env0) (input := str "XX" ++ sampleRX.drop 2)
      (p := fun c => c.product == str "XX") (by decide +kernel)
    simp only [beq_iff_eq] at hc
    have hp : ∀ u, c.product ∉ productsIn u := by intro u; rw [hc]; cases u <;> decide
    exact ⟨c, (C25_product_unit env0 _ c).2.mpr ⟨h, hp⟩, ((C25_product_unit env0 _ c).1 h).2.2.2.2.2 hp⟩

end Props
