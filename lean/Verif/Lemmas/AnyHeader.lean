/- The checks of the parser for every header text (the proofs of Lemmas/Diagnosis in terms of text and values only). -/
import Verif.Spec.Reading
import Verif.Lemmas.LongHeader

namespace Radolan.Any
open Go
open _root_.Spec _root_.Props

/-- the header `H` is split into the section `s` -/
structure Split (E : Env) (H : Head) (s : Section) : Prop where
  split : splitHeader E H.text = some s
  find : ∀ k, Section.find s k = H.val k
  clear : (3 : UInt8) ∉ H.text

theorem Split.delim {E : Env} {H : Head} {s : Section} (hw : Split E H s) (data : Bytes) :
    readDelim 3 (H.file data) = some (H.text ++ [3], data) := by
  rw [readDelim_some]
  exact ⟨H.text, rfl, by simp [Head.file], hw.clear⟩

theorem declares_iff {E : Env} {H : Head} {s : Section} (hw : Split E H s) {rows cols : Int} :
    (∃ dx dy, dimsOf s ((H.text).take 2) = some ⟨cols, rows, dx, dy⟩) ↔ H.Declares rows cols := by
  unfold dimsOf Head.Declares
  rw [hw.find, hw.find]
  cases h1 : H.val (str "GP") with
  | some v =>
    simp only
    rw [← sscanfDxD_iff, ← both_iff]
    simp only [Option.map_eq_some_iff, Prod.exists, Dims.mk.injEq]
    constructor
    · rintro ⟨_, _, a, b, h, rfl, rfl, _⟩; exact h
    · intro h; exact ⟨_, _, _, _, h, rfl, rfl, rfl, rfl⟩
  | none =>
    cases h2 : H.val (str "BG") with
    | some v =>
      simp only
      rw [← sscanf3D3D_iff, ← both_iff]
      simp only [Option.map_eq_some_iff, Prod.exists, Dims.mk.injEq]
      constructor
      · rintro ⟨_, _, a, b, h, rfl, rfl, _⟩; exact h
      · intro h; exact ⟨_, _, _, _, h, rfl, rfl, rfl, rfl⟩
    | none =>
      simp only
      constructor
      · rintro ⟨dx, dy, h⟩
        simp only [Option.map_eq_some_iff] at h
        obtain ⟨v, hv, he⟩ := h
        rcases lookup_dims _ _ hv with ⟨g1, g2, g3, _⟩ | ⟨g1, g2, g3, _⟩
        · simp only [Dims.mk.injEq] at he; left; exact ⟨g1, by omega, by omega⟩
        · simp only [Dims.mk.injEq] at he; right; exact ⟨g1, by omega, by omega⟩
      · rintro (⟨g1, rfl, rfl⟩ | ⟨g1, rfl, rfl⟩)
        · exact ⟨_, _, lookup_strip _ g1⟩
        · exact ⟨_, _, lookup_volume _ g1⟩

theorem level_none {E : Env} {H : Head} {s : Section} (hw : Split E H s) {h : Composite}
    (hf : HeaderFields E (H.text ++ [3]) s h) (hLV : H.val (str "LV") = none) :
    h.level = none := by
  have h1 := hf.level
  unfold levelsOf at h1
  rw [hw.find, hLV] at h1
  simpa using h1.symm

theorem level_some {E : Env} {H : Head} {s : Section} (hw : Split E H s) {h : Composite} {v : Bytes}
    (hf : HeaderFields E (H.text ++ [3]) s h) (hLV : H.val (str "LV") = some v) :
    ∃ l, h.level = some l := by
  have h1 := hf.level
  unfold levelsOf at h1
  rw [hw.find, hLV] at h1
  simp only [Option.map_eq_some_iff] at h1
  obtain ⟨l, _, hl⟩ := h1
  exact ⟨l, hl.symm⟩

theorem numeric_iff {E : Env} {H : Head} {s : Section} (hw : Split E H s) {k : String} {v : Bytes} (hv : H.val (str k) = some v) :
    (∃ n, sscanfD v = some n) ↔ H.Numeric k := by
  unfold Head.Numeric
  constructor
  · rintro ⟨n, hn⟩ w hw'
    rw [hv] at hw'
    simp only [Option.some.injEq] at hw'
    subst hw'
    exact ⟨n, sscanfD_iff.mp hn⟩
  · intro h
    obtain ⟨n, hn⟩ := h v hv
    exact ⟨n, sscanfD_iff.mpr hn⟩

theorem numeric_none {H : Head} {k : String} (hv : H.val (str k) = none) : H.Numeric k := by
  intro v h; rw [hv] at h; simp at h

theorem performs_length {p : Bytes} {E : Env} {H : Head} {s : Section} (hw : Split E H s) (hdr : Bytes) :
    Performs p [("radolan.parseHeader: could not parse data length: ", ∃ n, H.Announces n)]
      (stageLength hdr s) := by
  unfold stageLength
  refine performs_orErr (by rfl) ?_ (fun _ _ => rfl)
  rw [hw.find]
  unfold Head.Announces
  cases hv : H.val (str "BY") with
  | none => rw [Option.getD_none, show sscanfD [] = none by decide]; simp
  | some v =>
    simp only [Option.getD_some, Option.some.injEq, exists_eq_left']
    constructor
    · rintro ⟨n, hn⟩; exact ⟨n, sscanfD_iff.mp hn⟩
    · rintro ⟨n, hn⟩; exact ⟨n, sscanfD_iff.mpr hn⟩

theorem performs_forecast {p : Bytes} {E : Env} {H : Head} {s : Section} (hw : Split E H s) :
    Performs p [("radolan.parseHeader: could not parse forecast time: ", H.Numeric "VV")]
      (stageForecast s) := by
  intro c hc
  unfold stageForecast
  rw [hw.find]
  simp only [M.modify_bind]
  cases hv : H.val (str "VV") with
  | none => exact ⟨hc, passed_one (numeric_none hv)⟩
  | some v =>
    exact performs_orErr (e := .forecastTime) (by rfl) (numeric_iff hw hv) (by intro _ _; rfl) _ hc

theorem performs_interval {p : Bytes} {E : Env} {H : Head} {s : Section} (hw : Split E H s) :
    Performs p [("radolan.parseHeader: could not parse interval: ", H.Numeric "INT")]
      (stageInterval s) := by
  intro c hc
  unfold stageInterval
  rw [hw.find]
  cases hv : H.val (str "INT") with
  | none => exact ⟨hc, passed_one (numeric_none hv)⟩
  | some v =>
    exact performs_orErr (e := .interval) (by rfl) (numeric_iff hw hv) (by intro _ _; simp only; split <;> rfl) _ hc

theorem performs_precision {p : Bytes} {E : Env} {H : Head} {s : Section} (hw : Split E H s) :
    Performs p [("radolan.parseHeader: could not parse precision: ", H.Numeric "E")]
      (stagePrecision s) := by
  intro c hc
  unfold stagePrecision
  rw [hw.find]
  cases hv : H.val (str "E") with
  | none => exact ⟨hc, passed_one (numeric_none hv)⟩
  | some v =>
    exact performs_orErr (e := .precision) (by rfl) (numeric_iff hw hv) (by intro _ _; rfl) _ hc

theorem performs_format {p : Bytes} {E : Env} {H : Head} {s : Section} (hw : Split E H s) :
    Performs p [("radolan.parseHeader: invalid format value: ", H.Numeric "VS")]
      (stageFormat s) := by
  intro c hc
  unfold stageFormat
  rw [hw.find]
  cases hv : H.val (str "VS") with
  | none => exact ⟨hc, passed_one (numeric_none hv)⟩
  | some v =>
    exact performs_orErr (e := .format) (by rfl) (numeric_iff hw hv) (by intro _ _; rfl) _ hc

theorem performs_dims {E : Env} {H : Head} {s : Section} (hw : Split E H s) :
    Performs ((H.text).take 2) [
      ("radolan.parseHeader: could not parse dimensions (GP): ",
        ∀ v, H.val (str "GP") = some v → ∃ rows cols, ReadsGrid v rows cols),
      ("radolan.parseHeader: could not parse dimensions (BG): ",
        H.val (str "GP") = none → ∀ v, H.val (str "BG") = some v → ∃ rows cols, ReadsGrid3 v rows cols),
      ("radolan.parseHeader: no dimension information available",
        H.val (str "GP") = none → H.val (str "BG") = none →
          (H.text).take 2 ∈ stripProducts ∨ (H.text).take 2 ∈ volumeProducts)]
      (stageDims s) := by
  intro c hc
  unfold stageDims
  rw [hw.find, hw.find]
  cases h1 : H.val (str "GP") with
  | some v =>
    have := performs_assign (p := (H.text).take 2) (e := .dimGP) (r := sscanfDxD v)
      (P := ∀ w, some v = some w → ∃ rows cols, ReadsGrid w rows cols) rfl (by
        simp only [Option.some.injEq, forall_eq']
        constructor
        · rintro ⟨x, hx⟩
          obtain ⟨y, hy⟩ := dxd_second hx
          exact ⟨y, x, sscanfDxD_iff.mp hy⟩
        · rintro ⟨y, x, h⟩
          exact ⟨x, by rw [sscanfDxD_iff.mpr h]⟩) c hc
    refine Sat.mono this ?_ ?_ id
    · rintro _ c' ⟨g1, g2⟩
      refine ⟨g1, ?_⟩
      rw [passed_cons] at g2
      rw [passed_cons, passed_cons]
      exact ⟨g2.1, by simp, passed_one (by simp)⟩
    · intro e _ h; exact FirstFailing.left h _
  | none =>
    cases h2 : H.val (str "BG") with
    | some v =>
      have := performs_assign (p := (H.text).take 2) (e := .dimBG) (r := sscanf3D3D v)
        (P := (none : Option Bytes) = none → ∀ w, some v = some w → ∃ rows cols, ReadsGrid3 w rows cols) rfl (by
          simp only [Option.some.injEq, forall_eq', forall_const]
          constructor
          · rintro ⟨x, hx⟩
            obtain ⟨y, hy⟩ := d3_second hx
            exact ⟨y, x, sscanf3D3D_iff.mp hy⟩
          · rintro ⟨y, x, h⟩
            exact ⟨x, by rw [sscanf3D3D_iff.mpr h]⟩) c hc
      refine Sat.mono this ?_ ?_ id
      · rintro _ c' ⟨g1, g2⟩
        refine ⟨g1, ?_⟩
        rw [passed_cons] at g2
        rw [passed_cons, passed_cons]
        exact ⟨by simp, g2.1, passed_one (by simp)⟩
      · intro e _ h; exact FirstFailing.later (by simp) (FirstFailing.left h _)
    | none =>
      simp only [M.get_bind]
      rw [hc]
      have hin : (∃ v, dimensionCatalog.lookup ((H.text).take 2) = some v) ↔
          ((H.text).take 2 ∈ stripProducts ∨ (H.text).take 2 ∈ volumeProducts) := by
        constructor
        · rintro ⟨v, hv⟩
          rcases lookup_dims _ _ hv with ⟨g1, _⟩ | ⟨g1, _⟩
          exacts [Or.inl g1, Or.inr g1]
        · rintro (g | g)
          · have := lookup_strip _ g
            rw [Option.map_eq_some_iff] at this
            exact ⟨_, this.choose_spec.1⟩
          · have := lookup_volume _ g
            rw [Option.map_eq_some_iff] at this
            exact ⟨_, this.choose_spec.1⟩
      cases hl : dimensionCatalog.lookup ((H.text).take 2) with
      | none =>
        refine FirstFailing.later (by simp) (FirstFailing.later (by simp) (FirstFailing.here ?_))
        intro h
        obtain ⟨v, hv⟩ := hin.mpr (by simpa using h)
        rw [hl] at hv; simp at hv
      | some v =>
        refine ⟨hc, ?_⟩
        rw [passed_cons, passed_cons]
        exact ⟨by simp, by simp, passed_one (fun _ _ => hin.mp ⟨v, hl⟩)⟩

theorem performs_level {p : Bytes} {E : Env} {H : Head} {s : Section} (hw : Split E H s) :
    Performs p [
      ("radolan.parseHeader: level field too short", ∀ v, H.val (str "LV") = some v → 2 ≤ v.length),
      ("radolan.parseHeader: could not parse level count: ",
        ∀ v, H.val (str "LV") = some v → ∃ n, ReadsInt (v.take 2) n),
      ("radolan.parseHeader: invalid level format: ",
        ∀ v, H.val (str "LV") = some v → ∀ n, ReadsInt (v.take 2) n → (v.length : Int) = 2 + 5 * n),
      ("radolan.parseHeader: invalid level value: ",
        ∀ v, H.val (str "LV") = some v → ∀ i, 2 + 5 * i < v.length → IsLevelText ((v.drop (2 + 5 * i)).take 5))]
      (stageLevel E s) := by
  intro c hc
  unfold stageLevel
  rw [hw.find]
  cases hv : H.val (str "LV") with
  | none =>
    refine ⟨hc, ?_⟩
    rw [passed_cons, passed_cons, passed_cons]
    exact ⟨by simp, by simp, by simp, passed_one (by simp)⟩
  | some v =>
    simp only [Option.some.injEq, forall_eq']
    by_cases hl : v.length < 2
    · rw [if_pos hl]
      exact FirstFailing.here (by omega)
    · rw [if_neg hl, slice?_some (by omega) (by omega)]
      simp only [M.orPanic_some_bind, List.drop_zero]
      cases h2 : sscanfD (v.take 2) with
      | none =>
        refine FirstFailing.later (by omega) (FirstFailing.here ?_)
        rintro ⟨n, hn⟩
        rw [sscanfD_iff.mpr hn] at h2; simp at h2
      | some cnt =>
        simp only [M.orErr_some_bind]
        have hrd := sscanfD_iff.mp h2
        have habs := sscanfD_abs h2
        have hlen : (v.take 2).length = 2 := by simp; omega
        rw [hlen] at habs
        have hwr : wrap64 (wrap64 (cnt * 5) + 2) = cnt * 5 + 2 := by
          rw [wrap64_id (x := cnt * 5) (by omega) (by omega), wrap64_id (by omega) (by omega)]
        have huniq : ∀ n, ReadsInt (v.take 2) n → n = cnt := by
          intro n hn
          have := sscanfD_iff.mpr hn
          rw [h2] at this; simpa using this.symm
        rw [hwr]
        by_cases he : (v.length : Int) = cnt * 5 + 2
        · simp only [if_neg (not_not_intro he)]
          have hm : makeOK 4 cnt = true := makeOK_iff.mpr ⟨by omega, by omega⟩
          rw [hm]
          simp only [Bool.not_true, Bool.false_eq_true, if_false, M.modify_bind]
          refine Sat.mono (levelLoop_checks E p v cnt.toNat cnt.toNat 0 (by omega) (by omega) _ (by exact hc)) ?_ ?_ id
          · rintro _ c' ⟨g1, g2⟩
            rw [passed_cons] at g2
            refine ⟨g1, ?_⟩
            rw [passed_cons, passed_cons, passed_cons]
            exact ⟨by omega, ⟨cnt, hrd⟩, fun n hn => by rw [huniq n hn]; omega,
              passed_one (fun i hi => g2.1 i (by omega) hi)⟩
          · intro e _ hf
            refine FirstFailing.later (by omega) (FirstFailing.later ⟨cnt, hrd⟩ (FirstFailing.later
              (fun n hn => by rw [huniq n hn]; omega) ?_))
            simpa using hf
        · simp only [if_pos he]
          refine FirstFailing.later (by omega) (FirstFailing.later ⟨cnt, hrd⟩ (FirstFailing.here ?_))
          intro h
          have := h cnt hrd
          omega

theorem header_checks {E : Env} {H : Head} {s : Section} (hw : Split E H s) (data : Bytes) :
    (parseHeader E (H.file data) Composite.zero).Sat (fun _ _ => Passed H.headerChecks)
      (fun e _ => FirstFailing H.headerChecks e.text) True := by
  unfold parseHeader
  rw [hw.delim]
  simp only [M.orErr_some_bind]
  by_cases hl : (H.text ++ [3]).length < 22
  · rw [if_pos hl]
    simp only [List.length_append, List.length_singleton] at hl
    exact FirstFailing.here (by omega)
  · rw [if_neg hl]
    simp only [List.length_append, List.length_singleton] at hl
    rw [slice?_zero_pred, List.dropLast_concat]
    simp only [M.orPanic_some_bind]
    rw [hw.split]
    simp only [M.orPanic_some_bind]
    unfold stageProduct
    rw [slice?_some (by omega) (by simp; omega)]
    have htk : ((H.text ++ [3]).take 2).drop 0 = (H.text).take 2 := by
      rw [List.drop_zero]; exact List.take_append_of_le_length (by omega)
    rw [htk]
    have key := Performs.seq (performs_length (p := (H.text).take 2) hw (H.text ++ [3]))
      (Performs.seq (performs_capture (p := (H.text).take 2) (pre := H.text) (by omega))
      (Performs.seq (performs_forecast hw) (Performs.seq (performs_interval hw) (Performs.seq (performs_dims hw)
      (Performs.seq (performs_precision hw) (Performs.seq (performs_level hw) (Performs.seq (performs_format hw)
      (k := pure data) (b := []) (R := fun _ => True) (fun c hc => ⟨trivial, passed_nil⟩))))))))
    refine Sat.mono (key _ rfl) ?_ ?_ id
    · rintro _ _ ⟨_, g⟩
      exact passed_cons.mpr ⟨by omega, g⟩
    · intro e _ g
      exact FirstFailing.later (by omega) g

theorem data_checks {E : Env} {H : Head} {s : Section} (hw : Split E H s) {h : Composite} {len : Int} {data : Bytes}
    (hf : HeaderFields E (H.text ++ [3]) s h) (hb : Blank h) (hdx : h.dx = h.px)
    (hl : h.dataLength = wrap64 (len - ((H.text).length + 1))) :
    (parseData data h).Sat (fun _ _ => Passed (H.dataChecks len h.py h.px data))
      (fun e _ => FirstFailing (H.dataChecks len h.py h.px data) e.text) True := by
  by_cases hz : h.px = 0 ∨ h.py = 0
  · rw [parseData_zero h data hz]
    exact FirstFailing.here (by omega)
  by_cases ha : AllocOK h
  swap
  · rw [parseData_panic h data hz ha]; trivial
  have hnz : h.py ≠ 0 ∧ h.px ≠ 0 := by omega
  have hD : DimsOK h := ⟨⟨ha.1, ha.2.1⟩, ⟨ha.2.2.1, ha.2.2.2⟩, hdx⟩
  obtain ⟨a1, a2, a3, a4⟩ := ha
  obtain ⟨cols, e1⟩ : ∃ k : Nat, h.px = k := ⟨h.px.toNat, by omega⟩
  obtain ⟨rows, e2⟩ : ∃ k : Nat, h.py = k := ⟨h.py.toNat, by omega⟩
  unfold Head.dataChecks
  cases hLV : H.val (str "LV") with
  | none =>
    rw [if_pos rfl]
    have hlv := level_none hw hf hLV
    have s2 : h.dataLength = wrap64 (wrap64 (h.px * h.py) * 2) ↔ H.Sized len h.py h.px 2 := by
      unfold Head.Sized
      obtain ⟨k, hk⟩ := wrap64_eq (h.px * h.py)
      rw [hl, wrap64_eq_iff, hk, Int.mul_comm h.py h.px]
      generalize h.px * h.py = q
      constructor
      · rintro ⟨m, hm⟩; exact ⟨m + k * 2, by omega⟩
      · rintro ⟨m, hm⟩; exact ⟨m - k * 2, by omega⟩
    have s1 : h.dataLength = wrap64 (h.px * h.py) ↔ H.Sized len h.py h.px 1 := by
      unfold Head.Sized
      rw [hl, wrap64_eq_iff, Int.mul_comm h.py h.px]
      generalize h.px * h.py = q
      constructor
      · rintro ⟨m, hm⟩; exact ⟨m, by omega⟩
      · rintro ⟨m, hm⟩; exact ⟨m, by omega⟩
    have hpd := parseData_eq h data hb hD
    have hsh := parseData_short h data hb hD
    unfold StageV GoodRes at hpd
    have ht1 : h.px.toNat = cols := by omega
    have ht2 : h.py.toNat = rows := by omega
    by_cases t2 : H.Sized len h.py h.px 2
    · have hid : identifyEncoding h = .littleEndian := by
        unfold identifyEncoding
        rw [hlv]
        simp only [Option.isSome_none, Bool.false_eq_true, if_false]
        rw [if_pos (s2.mpr t2)]
      have hdo : dataOf h data = none ↔ ¬ 2 * (h.py * h.px) ≤ data.length := by
        unfold dataOf
        rw [hid]
        simp only [Option.map_eq_none_iff, ht1, ht2]
        rw [rowsFrom_fixed (rowLE_fixed _ _ _), e1, e2]
        have : rows * (cols * 2) ≤ data.length ↔ 2 * ((rows : Int) * cols) ≤ data.length := by
          rw [show rows * (cols * 2) = 2 * (rows * cols) by ring]; exact_mod_cast Iff.rfl
        by_cases hle : rows * (cols * 2) ≤ data.length
        · rw [if_pos hle]; simpa using this.mp hle
        · rw [if_neg hle]; simpa using fun h => hle (this.mpr h)
      cases hdat : dataOf h data with
      | none =>
        obtain ⟨c', hc'⟩ := (hsh hdat).2 hid
        rw [hc']
        exact FirstFailing.later hnz (FirstFailing.later (Or.inl t2) (FirstFailing.here (fun g => hdo.mp hdat (g t2))))
      | some q =>
        rw [hdat] at hpd
        obtain ⟨h1, _⟩ := hpd
        rw [h1]
        refine passed_cons.mpr ⟨hnz, passed_cons.mpr ⟨Or.inl t2, passed_cons.mpr ⟨fun _ => ?_, passed_one (fun g => absurd t2 g)⟩⟩⟩
        by_contra hn
        rw [hdo.mpr hn] at hdat; simp at hdat
    · by_cases t1 : H.Sized len h.py h.px 1
      · have hid : identifyEncoding h = .singleByte := by
          unfold identifyEncoding
          rw [hlv]
          simp only [Option.isSome_none, Bool.false_eq_true, if_false]
          rw [if_neg (fun g => t2 (s2.mp g)), if_pos (s1.mpr t1)]
        have hdo : dataOf h data = none ↔ ¬ h.py * h.px ≤ data.length := by
          unfold dataOf
          rw [hid]
          simp only [Option.map_eq_none_iff, ht1, ht2]
          rw [rowsFrom_fixed (rowSB_fixed _ _ _), e1, e2]
          have : rows * cols ≤ data.length ↔ (rows : Int) * cols ≤ data.length := by exact_mod_cast Iff.rfl
          by_cases hle : rows * cols ≤ data.length
          · rw [if_pos hle]; simpa using this.mp hle
          · rw [if_neg hle]; simpa using fun h => hle (this.mpr h)
        cases hdat : dataOf h data with
        | none =>
          obtain ⟨c', hc'⟩ := (hsh hdat).1 hid
          rw [hc']
          exact FirstFailing.later hnz (FirstFailing.later (Or.inr t1) (FirstFailing.later (fun g => absurd g t2)
            (FirstFailing.here (fun g => hdo.mp hdat (g t2)))))
        | some q =>
          rw [hdat] at hpd
          obtain ⟨h1, _⟩ := hpd
          rw [h1]
          refine passed_cons.mpr ⟨hnz, passed_cons.mpr ⟨Or.inr t1, passed_cons.mpr ⟨fun g => absurd g t2, passed_one (fun _ => ?_)⟩⟩⟩
          by_contra hn
          rw [hdo.mpr hn] at hdat; simp at hdat
      · have hid : identifyEncoding h = .unknown := by
          unfold identifyEncoding
          rw [hlv]
          simp only [Option.isSome_none, Bool.false_eq_true, if_false]
          rw [if_neg (fun g => t2 (s2.mp g)), if_neg (fun g => t1 (s1.mp g))]
        have : ∃ c', parseData data h = .err .unknownEncoding c' := by
          unfold parseData
          have m1 : makeOK 24 h.py = true := makeOK_iff.mpr ⟨by omega, a4⟩
          have m2 : makeOK 4 h.px = true := makeOK_iff.mpr ⟨by omega, a2⟩
          simp only [M.get_bind]
          rw [if_neg (by omega), m1, m2]
          simp only [Bool.not_true, Bool.false_eq_true, if_false, M.modify_bind, M.get_bind]
          generalize hc' : ({ h with
            plainData := List.replicate h.py.toNat (List.replicate h.px.toNat Fl.zero) } : Composite) = c'
          have hid' : identifyEncoding c' = .unknown := by subst hc'; exact hid
          rw [hid']
          exact ⟨_, rfl⟩
        obtain ⟨c', hc'⟩ := this
        rw [hc']
        refine FirstFailing.later hnz (FirstFailing.here ?_)
        rintro (g | g)
        exacts [t2 g, t1 g]
  | some v => 
    rw [if_neg (by simp)]
    obtain ⟨lv, hlv⟩ := level_some hw hf hLV
    have hid : identifyEncoding h = .runlength := by unfold identifyEncoding; rw [hlv]; rfl
    unfold parseData
    have m1 : makeOK 24 h.py = true := makeOK_iff.mpr ⟨by omega, a4⟩
    have m2 : makeOK 4 h.px = true := makeOK_iff.mpr ⟨by omega, a2⟩
    simp only [M.get_bind]
    rw [if_neg (by omega), m1, m2]
    simp only [Bool.not_true, Bool.false_eq_true, if_false, M.modify_bind, M.get_bind]
    generalize hc' : ({ h with
      plainData := List.replicate h.py.toNat (List.replicate h.px.toNat Fl.zero) } : Composite) = c'
    have hid' : identifyEncoding c' = .runlength := by subst hc'; exact hid
    have hpl : c'.plainData = List.replicate h.py.toNat (List.replicate h.px.toNat Fl.zero) := by subst hc'; rfl
    rw [hid']
    unfold parseWith parseRunlength
    simp only [M.get_bind]
    have := rows_checks (level := c'.level.getD []) (w := h.px.toNat) (cols := h.px) rfl h.py.toNat [] data c' (by simp) rfl
      (by rw [hpl]; simp) (by intro r hr; rw [hpl] at hr; rw [List.eq_of_mem_replicate hr]; simp)
    rw [hpl, List.length_replicate]
    rw [List.range_eq_range']
    exact Sat.mono this (fun _ _ g => passed_cons.mpr ⟨hnz, g⟩) (fun _ _ g => FirstFailing.later hnz g) id

end Radolan.Any
