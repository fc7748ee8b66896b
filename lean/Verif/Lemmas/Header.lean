/- Lemmas about the header parser: it never panics, and it is equal to a pure function of the header. -/
import Verif.Lemmas.Scan

namespace Radolan
open Go

/-! ### splitHeader never slices out of range -/

theorem SplitState.store_some {header : Bytes} {s : SplitState}
    (h1 : s.beginKey ≤ s.endKey) (h2 : s.endKey ≤ header.length)
    (h3 : s.beginValue ≤ s.endValue) (h4 : s.endValue ≤ header.length) :
    s.store header = some { s with m :=
      ((header.take s.endKey).drop s.beginKey, (header.take s.endValue).drop s.beginValue) :: s.m } := by
  unfold SplitState.store
  rw [slice?_some h1 h2, slice?_some h3 h4]; rfl

theorem splitLoop_isSome (E : Env) (header : Bytes) (rs : List (Nat × Nat)) (s : SplitState) (j : Nat)
    (hb : ∀ p ∈ rs, j ≤ p.1 ∧ p.1 < header.length)
    (hs : rs.Pairwise (fun p q => p.1 < q.1)) (hj : j ≤ header.length)
    (h1 : s.beginKey ≤ s.endKey) (h2 : s.endKey ≤ j)
    (h3 : s.beginValue ≤ s.endValue) (h4 : s.endValue ≤ j) :
    (splitLoop E header rs s).isSome := by
  induction rs generalizing s j with
  | nil =>
    unfold splitLoop
    rw [SplitState.store_some h1 (by omega) h3 (by omega)]; rfl
  | cons p rest ih =>
    obtain ⟨i, r⟩ := p
    have hi := hb (i, r) (by simp)
    simp only at hi
    have hb' : ∀ p ∈ rest, i + 1 ≤ p.1 ∧ p.1 < header.length := by
      intro p hp
      have := (List.pairwise_cons.mp hs).1 p hp
      have := hb p (by simp [hp])
      simp only at *; omega
    have hs' := (List.pairwise_cons.mp hs).2
    unfold splitLoop
    rw [SplitState.store_some h1 (by omega) h3 (by omega)]
    split
    · split
      · exact ih _ (i + 1) hb' hs' (by omega) (by simp) (by simp) (by simpa using h3) (by simp; omega)
      · exact ih _ (i + 1) hb' hs' (by omega) (by simp; omega) (by simp) (by simpa using h3)
          (by simp; omega)
    · split
      · rfl
      · split
        · exact ih _ (i + 1) hb' hs' (by omega) (by simpa using h1) (by simp; omega) (by simp) (by simp)
        · exact ih _ (i + 1) hb' hs' (by omega) (by simpa using h1) (by simp; omega) (by simp; omega)
            (by simp)

theorem splitHeader_isSome (E : Env) (header : Bytes) : (splitHeader E header).isSome := by
  unfold splitHeader
  refine splitLoop_isSome E header _ _ 0 ?_ (runesFrom_sorted _ _ _) (by omega) (by simp) (by simp)
    (by simp) (by simp)
  intro p hp
  have := runesFrom_bounds hp
  omega

/-! ### the stages as pure functions -/

/-- what every composite of a failed parse looks like -/
structure Blank (c : Composite) : Prop where
  dz : c.dz = 0
  dataZ : c.dataZ = []
  data : c.data = []
  proj : c.hasProjection = false
  unit : 0 ≤ c.dataUnit ∧ c.dataUnit ≤ 4

/-- `m` started in `c` ends with the composite `r`, or with an error if `r` is `none`; it never panics. -/
def Stage (m : M Unit) (c : Composite) (r : Option Composite) : Prop :=
  Blank c → match r with
    | some c' => m c = .ok () c' ∧ Blank c'
    | none => ∃ e c', m c = .err e c' ∧ Blank c' ∧ e ≠ .unknownUnit

def fProduct (header : Bytes) (c : Composite) : Composite :=
  { c with product := header.take 2, dataUnit := (unitCatalog.lookup (header.take 2)).getD Unit_unknown }

def fLength (header : Bytes) (s : Section) (c : Composite) : Option Composite :=
  (sscanfD ((s.find (str "BY")).getD [])).map
    fun n => { c with dataLength := wrap64 (n - header.length) }

/-- the ten bytes holding the capture time -/
def dateBytes (header : Bytes) : Bytes := (header.take 8).drop 2 ++ (header.take 17).drop 13

def fCapture (header : Bytes) (c : Composite) : Option Composite :=
  (parseTime (dateBytes header)).map fun t => { c with captureTime := t }

def forecastOf (s : Section) (capture : Int) : Option Int :=
  match s.find (str "VV") with
  | none => some capture
  | some vv => (sscanfD vv).map fun m => capture + wrap64 (m * minuteNs)

def fForecast (s : Section) (c : Composite) : Option Composite :=
  (forecastOf s c.captureTime).map fun t => { c with forecastTime := t }

/-- products whose interval is announced in units of ten minutes -/
def isW (p : Bytes) : Bool := p == str "W1" || p == str "W2" || p == str "W3" || p == str "W4"

theorem isW_iff {p : Bytes} :
    isW p = true ↔ (p = str "W1" ∨ p = str "W2" ∨ p = str "W3" ∨ p = str "W4") := by
  simp [isW, or_assoc]

def intervalOf (s : Section) (p : Bytes) : Option Int :=
  match s.find (str "INT") with
  | none => some 0
  | some iv => (sscanfD iv).map fun m =>
      if isW p then wrap64 (wrap64 (m * minuteNs) * 10) else wrap64 (m * minuteNs)

def fInterval (s : Section) (c : Composite) : Option Composite :=
  match s.find (str "INT") with
  | none => some c
  | some _ => (intervalOf s c.product).map fun t => { c with interval := t }

/-- dimensions found in the header or the catalog -/
structure Dims where
  px : Int
  py : Int
  dx : Int
  dy : Int
  deriving DecidableEq

def both : Option Int × Option Int → Option (Int × Int)
  | (some a, some b) => some (a, b)
  | _ => none

def dimsOf (s : Section) (p : Bytes) : Option Dims :=
  match s.find (str "GP") with
  | some dim => (both (sscanfDxD dim)).map fun q => ⟨q.2, q.1, q.2, q.1⟩
  | none =>
    match s.find (str "BG") with
    | some dim => (both (sscanf3D3D dim)).map fun q => ⟨q.2, q.1, q.2, q.1⟩
    | none => (dimensionCatalog.lookup p).map fun v => ⟨v.px, v.py, v.dx, v.dy⟩

/-- the resolution fields after the dimension stage -/
def resOf (s : Section) (p : Bytes) (c : Composite) : F64 × F64 :=
  match s.find (str "GP"), s.find (str "BG"), dimensionCatalog.lookup p with
  | none, none, some v => (Fl.lit f64 (v.rx : ℚ), Fl.lit f64 (v.ry : ℚ))
  | _, _, _ => (c.rx, c.ry)

def fDims (s : Section) (c : Composite) : Option Composite :=
  (dimsOf s c.product).map fun d => { c with px := d.px, py := d.py, dx := d.dx, dy := d.dy,
                                             rx := (resOf s c.product c).1, ry := (resOf s c.product c).2 }

def precisionOf (s : Section) : Option Int :=
  match s.find (str "E") with
  | none => some 0
  | some p => sscanfD p

def fPrecision (s : Section) (c : Composite) : Option Composite :=
  match s.find (str "E") with
  | none => some c
  | some p => (sscanfD p).map fun p => { c with precision := p }

/-- `n` values of five characters each -/
def levelVals (E : Env) : (n : Nat) → Bytes → Option (List F32)
  | 0, _ => some []
  | n + 1, b => do
    let v ← sscanfF (b.take 5)
    let vs ← levelVals E n (b.drop 5)
    some (v :: vs)

def levelOf (E : Env) (lv : Bytes) : Option (List F32) :=
  if lv.length < 2 then none
  else do
    let cnt ← sscanfD (lv.take 2)
    if (lv.length : Int) = cnt * 5 + 2 then levelVals E cnt.toNat (lv.drop 2) else none

def levelsOf (E : Env) (s : Section) : Option (Option (List F32)) :=
  match s.find (str "LV") with
  | none => some none
  | some lv => (levelOf E lv).map some

def fLevel (E : Env) (s : Section) (c : Composite) : Option Composite :=
  match s.find (str "LV") with
  | none => some c
  | some lv => (levelOf E lv).map fun l => { c with level := some l }

def formatOf (s : Section) : Option Int :=
  match s.find (str "VS") with
  | none => some 0
  | some v => sscanfD v

def fFormat (s : Section) (c : Composite) : Option Composite :=
  match s.find (str "VS") with
  | none => some c
  | some v => (sscanfD v).map fun v => { c with format := v }

/-! ### each stage equals its pure function -/

theorem Stage.seq {m k : M Unit} {c : Composite} {r : Option Composite}
    {g : Composite → Option Composite} (h1 : Stage m c r) (h2 : ∀ c', Stage k c' (g c')) :
    Stage (m >>= fun _ => k) c (r.bind g) := by
  intro hc
  have h1 := h1 hc
  cases r with
  | none =>
    obtain ⟨e, c', he, hb, hu⟩ := h1
    exact ⟨e, c', by rw [M.bind_err he], hb, hu⟩
  | some c' =>
    obtain ⟨he, hb⟩ := h1
    have := h2 c' hb
    simp only [Option.bind_some]
    rw [M.bind_ok he]; exact this

theorem unitCatalog_range (p : Bytes) :
    0 ≤ (unitCatalog.lookup p).getD Unit_unknown ∧ (unitCatalog.lookup p).getD Unit_unknown ≤ 4 := by
  cases h : unitCatalog.lookup p with
  | none => simp [Unit_unknown]
  | some u =>
    have hall : ∀ q ∈ unitCatalog, 0 ≤ q.2 ∧ q.2 ≤ 4 := by decide
    have hm : (p, u) ∈ unitCatalog := by
      rw [List.lookup_eq_some_iff] at h
      obtain ⟨l1, l2, hl, _⟩ := h
      rw [hl]; simp
    exact hall _ hm

theorem stageProduct_eq {header : Bytes} (hl : 2 ≤ header.length) (c : Composite) :
    Stage (stageProduct header) c (some (fProduct header c)) := by
  intro hb
  refine ⟨?_, ?_⟩
  · unfold stageProduct
    rw [slice?_some (by omega) hl]; simp; rfl
  · exact ⟨hb.dz, hb.dataZ, hb.data, hb.proj, unitCatalog_range _⟩

theorem stageLength_eq (header : Bytes) (s : Section) (c : Composite) :
    Stage (stageLength header s) c (fLength header s c) := by
  intro hb
  unfold stageLength fLength
  cases sscanfD ((s.find (str "BY")).getD []) with
  | none => exact ⟨_, _, rfl, hb, by decide⟩
  | some n => exact ⟨rfl, ⟨hb.dz, hb.dataZ, hb.data, hb.proj, hb.unit⟩⟩

theorem stageCapture_eq {header : Bytes} (hl : 17 ≤ header.length) (c : Composite) :
    Stage (stageCapture header) c (fCapture header c) := by
  intro hb
  unfold stageCapture fCapture
  rw [slice?_some (by omega) (by omega), slice?_some (by omega) (by omega)]
  simp only [M.orPanic_some_bind]
  rw [← dateBytes]
  cases parseTime (dateBytes header) with
  | none => exact ⟨_, _, rfl, ⟨hb.dz, hb.dataZ, hb.data, hb.proj, hb.unit⟩, by decide⟩
  | some n => exact ⟨rfl, ⟨hb.dz, hb.dataZ, hb.data, hb.proj, hb.unit⟩⟩

theorem stageForecast_eq (s : Section) (c : Composite) :
    Stage (stageForecast s) c (fForecast s c) := by
  intro hb
  unfold stageForecast fForecast forecastOf
  cases s.find (str "VV") with
  | none => exact ⟨rfl, ⟨hb.dz, hb.dataZ, hb.data, hb.proj, hb.unit⟩⟩
  | some vv =>
    simp only
    cases h : sscanfD vv with
    | none =>
      exact ⟨.forecastTime, { c with forecastTime := c.captureTime }, by simp,
        ⟨hb.dz, hb.dataZ, hb.data, hb.proj, hb.unit⟩, by decide⟩
    | some n => exact ⟨by simp, ⟨hb.dz, hb.dataZ, hb.data, hb.proj, hb.unit⟩⟩

theorem stageInterval_eq (s : Section) (c : Composite) :
    Stage (stageInterval s) c (fInterval s c) := by
  intro hb
  unfold stageInterval fInterval intervalOf
  cases h1 : s.find (str "INT") with
  | none => exact ⟨rfl, hb⟩
  | some vv =>
    simp only
    cases h : sscanfD vv with
    | none => exact ⟨.interval, c, by simp, hb, by decide⟩
    | some n =>
      refine ⟨?_, ⟨hb.dz, hb.dataZ, hb.data, hb.proj, hb.unit⟩⟩
      simp only [M.orErr_some_bind, M.modify_apply]
      by_cases hw : c.product = str "W1" ∨ c.product = str "W2" ∨ c.product = str "W3" ∨ c.product = str "W4"
      · simp only [if_pos hw, isW_iff.mpr hw, if_true]
      · have hw' : isW c.product = false := by
          rw [← Bool.not_eq_true, isW_iff]; exact hw
        simp only [if_neg hw, hw', Bool.false_eq_true, if_false]

theorem assignDims_eq {e : Err} (he : e ≠ .unknownUnit) (r : Option Int × Option Int)
    (hr : ∀ b, r.2 = some b → ∃ a, r.1 = some a) (c : Composite) :
    Stage (assignDims e r) c ((both r).map fun q => { c with px := q.2, py := q.1, dx := q.2, dy := q.1 }) := by
  intro hb
  obtain ⟨a, b⟩ := r
  cases b with
  | none =>
    have : both (a, none) = none := by cases a <;> rfl
    rw [this]
    exact ⟨e, _, rfl, ⟨hb.dz, hb.dataZ, hb.data, hb.proj, hb.unit⟩, he⟩
  | some b =>
    obtain ⟨a', ha⟩ := hr b rfl
    simp only at ha; subst ha
    exact ⟨rfl, ⟨hb.dz, hb.dataZ, hb.data, hb.proj, hb.unit⟩⟩

theorem stageDims_eq (s : Section) (c : Composite) :
    Stage (stageDims s) c (fDims s c) := by
  unfold stageDims fDims dimsOf
  cases h1 : s.find (str "GP") with
  | some dim =>
    have := assignDims_eq (e := .dimGP) (by decide) (sscanfDxD dim) (fun b hb => sscanfDxD_fst hb) c
    simpa [Option.map_map, Function.comp_def, resOf, h1] using this
  | none =>
    cases h2 : s.find (str "BG") with
    | some dim =>
      have := assignDims_eq (e := .dimBG) (by decide) (sscanf3D3D dim) (fun b hb => sscanf3D3D_fst hb) c
      simpa [Option.map_map, Function.comp_def, resOf, h1, h2] using this
    | none =>
      intro hb
      simp only [M.get_bind]
      cases h3 : dimensionCatalog.lookup c.product with
      | none => exact ⟨_, _, rfl, hb, by decide⟩
      | some v =>
        refine ⟨?_, ⟨hb.dz, hb.dataZ, hb.data, hb.proj, hb.unit⟩⟩
        simp [resOf, h1, h2, h3]

theorem stagePrecision_eq (s : Section) (c : Composite) :
    Stage (stagePrecision s) c (fPrecision s c) := by
  intro hb
  unfold stagePrecision fPrecision
  cases h1 : s.find (str "E") with
  | none => exact ⟨rfl, hb⟩
  | some vv =>
    simp only
    cases h : sscanfD vv with
    | none => exact ⟨.precision, c, by simp, hb, by decide⟩
    | some n => exact ⟨by simp, ⟨hb.dz, hb.dataZ, hb.data, hb.proj, hb.unit⟩⟩

theorem stageFormat_eq (s : Section) (c : Composite) :
    Stage (stageFormat s) c (fFormat s c) := by
  intro hb
  unfold stageFormat fFormat
  cases h1 : s.find (str "VS") with
  | none => exact ⟨rfl, hb⟩
  | some vv =>
    simp only
    cases h : sscanfD vv with
    | none => exact ⟨.format, c, by simp, hb, by decide⟩
    | some n => exact ⟨by simp, ⟨hb.dz, hb.dataZ, hb.data, hb.proj, hb.unit⟩⟩

theorem levelVals_length {E : Env} {n : Nat} {b : Bytes} {l : List F32}
    (h : levelVals E n b = some l) : l.length = n := by
  induction n generalizing b l with
  | zero => simp [levelVals] at h; simp [← h]
  | succ n ih =>
    unfold levelVals at h
    simp only [Option.bind_eq_bind, Option.bind_eq_some_iff] at h
    obtain ⟨v, _, vs, hvs, h⟩ := h
    simp only [Option.some.injEq] at h
    rw [← h]; simp [ih hvs]

theorem levelLoop_eq (E : Env) (lv : Bytes) (n i : Nat) (done : List F32) (c : Composite)
    (hlen : (i + n) * 5 + 2 ≤ lv.length) (hd : done.length = i)
    (hc : c.level = some (done ++ List.replicate n Fl.zero)) :
    Stage (levelLoop E lv n i) c
      ((levelVals E n (lv.drop (i * 5 + 2))).map fun l => { c with level := some (done ++ l) }) := by
  induction n generalizing i done c with
  | zero =>
    intro hb
    refine ⟨?_, ⟨hb.dz, hb.dataZ, hb.data, hb.proj, hb.unit⟩⟩
    simp only [List.replicate_zero] at hc
    unfold levelLoop
    show PRes.ok () c = PRes.ok () { c with level := some (done ++ []) }
    rw [← hc]
  | succ n ih =>
    intro hb
    unfold levelLoop levelVals
    rw [slice?_some (by omega) (by omega)]
    simp only [M.orPanic_some_bind]
    have hsl : (lv.take (i * 5 + 7)).drop (i * 5 + 2) = (lv.drop (i * 5 + 2)).take 5 := by
      rw [List.drop_take]; congr 1; omega
    rw [hsl]
    cases h : sscanfF ((lv.drop (i * 5 + 2)).take 5) with
    | none => exact ⟨_, _, rfl, hb, by decide⟩
    | some v =>
      simp only [M.orErr_some_bind, M.modify_bind]
      have hc' : ({ c with level := c.level.map (·.set i v) } : Composite).level
          = some ((done ++ [v]) ++ List.replicate n Fl.zero) := by
        simp only [hc, Option.map_some, Option.some.injEq]
        rw [List.set_append_right (h := by omega)]
        simp [hd, List.replicate_succ]
      have := ih (i + 1) (done ++ [v]) _ (by omega) (by simp [hd]) hc'
        ⟨hb.dz, hb.dataZ, hb.data, hb.proj, hb.unit⟩
      rw [List.drop_drop]
      have e1 : i * 5 + 2 + 5 = (i + 1) * 5 + 2 := by ring
      rw [e1]
      cases hv : levelVals E n (lv.drop ((i + 1) * 5 + 2)) with
      | none => rw [hv] at this; simpa using this
      | some l => rw [hv] at this; simpa using this

theorem stageLevel_eq (E : Env) (s : Section) (c : Composite) :
    Stage (stageLevel E s) c (fLevel E s c) := by
  intro hb
  unfold stageLevel fLevel
  cases h1 : s.find (str "LV") with
  | none => exact ⟨rfl, hb⟩
  | some lv =>
    unfold levelOf
    simp only
    by_cases hl : lv.length < 2
    · rw [if_pos hl, if_pos hl]
      exact ⟨_, _, rfl, hb, by decide⟩
    · rw [if_neg hl, if_neg hl, slice?_some (by omega) (by omega)]
      simp only [M.orPanic_some_bind, List.drop_zero]
      cases h2 : sscanfD (lv.take 2) with
      | none => exact ⟨_, _, rfl, hb, by decide⟩
      | some cnt =>
        simp only [M.orErr_some_bind, Option.bind_eq_bind, Option.bind_some]
        have habs := sscanfD_abs h2
        have hlen : (lv.take 2).length = 2 := by simp; omega
        rw [hlen] at habs
        have hw : wrap64 (wrap64 (cnt * 5) + 2) = cnt * 5 + 2 := by
          rw [wrap64_id (x := cnt * 5) (by omega) (by omega), wrap64_id (by omega) (by omega)]
        rw [hw]
        by_cases he : (lv.length : Int) = cnt * 5 + 2
        · simp only [if_pos he, if_neg (not_not_intro he)]
          have h0 : 0 ≤ cnt := by omega
          have hm : makeOK 4 cnt = true := makeOK_iff.mpr ⟨h0, by omega⟩
          rw [hm]
          simp only [Bool.not_true, Bool.false_eq_true, if_false, M.modify_bind]
          have := levelLoop_eq E lv cnt.toNat 0 []
            { c with level := some (List.replicate cnt.toNat Fl.zero) } (by omega) rfl (by simp)
            ⟨hb.dz, hb.dataZ, hb.data, hb.proj, hb.unit⟩
          simpa using this
        · simp only [if_pos he, if_neg he]
          exact ⟨_, _, rfl, hb, by decide⟩

/-! ### the whole header -/

/-- the composite described by a header (with delimiter) and its sections -/
def headerComposite (E : Env) (header : Bytes) (s : Section) (c : Composite) : Option Composite :=
  some (fProduct header c) |>.bind (fLength header s) |>.bind (fCapture header) |>.bind (fForecast s)
    |>.bind (fInterval s) |>.bind (fDims s) |>.bind (fPrecision s) |>.bind (fLevel E s)
    |>.bind (fFormat s)

theorem zero_blank : Blank Composite.zero := ⟨rfl, rfl, rfl, rfl, by decide⟩

/-- the pure content of parseHeader: composite and unread bytes -/
def headerOf (E : Env) (input : Bytes) : Option (Composite × Bytes) :=
  match readDelim 3 input with
  | none => none
  | some (header, rest) =>
    if header.length < 22 then none
    else match splitHeader E header.dropLast with
      | none => none
      | some s => (headerComposite E header s Composite.zero).map fun c => (c, rest)

theorem parseHeader_eq (E : Env) (input : Bytes) :
    match headerOf E input with
    | some (c, rest) => parseHeader E input Composite.zero = .ok rest c ∧ Blank c
    | none => ∃ e c, parseHeader E input Composite.zero = .err e c ∧ Blank c ∧ e ≠ .unknownUnit := by
  unfold headerOf parseHeader
  cases h1 : readDelim 3 input with
  | none => exact ⟨_, _, rfl, zero_blank, by decide⟩
  | some q =>
    obtain ⟨header, rest⟩ := q
    simp only [M.orErr_some_bind]
    by_cases hl : header.length < 22
    · rw [if_pos hl, if_pos hl]
      exact ⟨_, _, rfl, zero_blank, by decide⟩
    · rw [if_neg hl, if_neg hl, slice?_zero_pred]
      simp only [M.orPanic_some_bind]
      obtain ⟨s, hs⟩ := Option.isSome_iff_exists.mp (splitHeader_isSome E header.dropLast)
      rw [hs]
      simp only [M.orPanic_some_bind]
      have S1 := stageProduct_eq (header := header) (by omega) Composite.zero
      have S2 := S1.seq (stageLength_eq header s)
      have S3 := S2.seq (fun c => stageCapture_eq (header := header) (by omega) c)
      have S4 := S3.seq (stageForecast_eq s)
      have S5 := S4.seq (stageInterval_eq s)
      have S6 := S5.seq (stageDims_eq s)
      have S7 := S6.seq (stagePrecision_eq s)
      have S8 := S7.seq (stageLevel_eq E s)
      have S9 := S8.seq (stageFormat_eq s)
      have R := S9 zero_blank
      clear S1 S2 S3 S4 S5 S6 S7 S8 S9
      rw [← headerComposite] at R
      have key : ∀ (m1 m2 m3 m4 m5 m6 m7 m8 m9 : M Unit) (c : Composite) (r : Bytes),
          (m1 >>= fun _ => m2 >>= fun _ => m3 >>= fun _ => m4 >>= fun _ => m5 >>= fun _ => m6 >>= fun _ =>
            m7 >>= fun _ => m8 >>= fun _ => m9 >>= fun _ => (pure r : M Bytes)) c =
          match (((((((((m1 >>= fun _ => m2) >>= fun _ => m3) >>= fun _ => m4) >>= fun _ => m5)
            >>= fun _ => m6) >>= fun _ => m7) >>= fun _ => m8) >>= fun _ => m9) : M Unit) c with
          | .ok _ c' => .ok r c'
          | .err e c' => .err e c'
          | .panic => .panic := by
        intro m1 m2 m3 m4 m5 m6 m7 m8 m9 c r
        simp only [M.bind_apply]
        cases m1 c <;> simp only
        rename_i a c
        cases m2 c <;> simp only
        rename_i a c
        cases m3 c <;> simp only
        rename_i a c
        cases m4 c <;> simp only
        rename_i a c
        cases m5 c <;> simp only
        rename_i a c
        cases m6 c <;> simp only
        rename_i a c
        cases m7 c <;> simp only
        rename_i a c
        cases m8 c <;> simp only
        rename_i a c
        cases m9 c <;> rfl
      rw [key]
      cases hc : headerComposite E header s Composite.zero with
      | none =>
        rw [hc] at R
        obtain ⟨e, c', h, hb, hu⟩ := R
        rw [h]; exact ⟨e, c', rfl, hb, hu⟩
      | some c' =>
        rw [hc] at R
        obtain ⟨h, hb⟩ := R
        rw [h]; exact ⟨rfl, hb⟩

/-- every field of the parsed header -/
structure HeaderFields (E : Env) (header : Bytes) (s : Section) (c : Composite) : Prop where
  product : c.product = header.take 2
  unit : c.dataUnit = (unitCatalog.lookup (header.take 2)).getD Unit_unknown
  length : ∃ n, sscanfD ((s.find (str "BY")).getD []) = some n ∧ c.dataLength = wrap64 (n - header.length)
  capture : parseTime (dateBytes header) = some c.captureTime
  forecast : forecastOf s c.captureTime = some c.forecastTime
  interval : intervalOf s (header.take 2) = some c.interval
  dims : dimsOf s (header.take 2) = some ⟨c.px, c.py, c.dx, c.dy⟩
  rx : c.rx = (resOf s (header.take 2) Composite.zero).1
  ry : c.ry = (resOf s (header.take 2) Composite.zero).2
  precision : precisionOf s = some c.precision
  level : levelsOf E s = some c.level
  format : formatOf s = some c.format
  plainData : c.plainData = []
  dataZ : c.dataZ = []
  data : c.data = []
  dz : c.dz = 0
  proj : c.hasProjection = false
  offx : c.offx = Fl.zero
  offy : c.offy = Fl.zero
  wgs84 : c.projWgs84 = none

theorem headerComposite_fields {E : Env} {header : Bytes} {s : Section} {c : Composite}
    (h : headerComposite E header s Composite.zero = some c) : HeaderFields E header s c := by
  unfold headerComposite at h
  simp only [Option.bind_eq_some_iff] at h
  obtain ⟨c8, ⟨c7, ⟨c6, ⟨c5, ⟨c4, ⟨c3, ⟨c2, ⟨c1, h1, h2⟩, h3⟩, h4⟩, h5⟩, h6⟩, h7⟩, h8⟩, h9⟩ := h
  simp only [Option.some.injEq] at h1
  unfold fLength at h2; unfold fCapture at h3; unfold fForecast at h4
  unfold fDims at h6
  simp only [Option.map_eq_some_iff] at h2 h3 h4 h6
  obtain ⟨n, hn, h2⟩ := h2
  obtain ⟨t, ht, h3⟩ := h3
  obtain ⟨f, hf, h4⟩ := h4
  obtain ⟨d, hd, h6⟩ := h6
  have e5 : intervalOf s c4.product = some c5.interval ∧ c5 = { c4 with interval := c5.interval } := by
    unfold fInterval at h5
    cases hi : s.find (str "INT") with
    | none =>
      rw [hi] at h5; simp only [Option.some.injEq] at h5
      subst h5
      refine ⟨?_, rfl⟩
      unfold intervalOf; rw [hi]
      subst h4 h3 h2 h1; rfl
    | some v =>
      rw [hi] at h5; simp only [Option.map_eq_some_iff] at h5
      obtain ⟨iv, hiv, h5⟩ := h5
      subst h5; exact ⟨hiv, rfl⟩
  have e7 : precisionOf s = some c7.precision ∧ c7 = { c6 with precision := c7.precision } := by
    unfold fPrecision at h7; unfold precisionOf
    cases hi : s.find (str "E") with
    | none =>
      rw [hi] at h7; simp only [Option.some.injEq] at h7
      subst h7
      refine ⟨?_, rfl⟩
      subst h6
      rw [e5.2]
      subst h4 h3 h2 h1; rfl
    | some v =>
      rw [hi] at h7; simp only [Option.map_eq_some_iff] at h7
      obtain ⟨iv, hiv, h7⟩ := h7
      subst h7; exact ⟨hiv, rfl⟩
  have e8 : levelsOf E s = some c8.level ∧ c8 = { c7 with level := c8.level } := by
    unfold fLevel at h8; unfold levelsOf
    cases hi : s.find (str "LV") with
    | none =>
      rw [hi] at h8; simp only [Option.some.injEq] at h8
      subst h8
      refine ⟨?_, rfl⟩
      rw [e7.2]
      subst h6
      rw [e5.2]
      subst h4 h3 h2 h1; rfl
    | some v =>
      rw [hi] at h8; simp only [Option.map_eq_some_iff] at h8
      obtain ⟨iv, hiv, h8⟩ := h8
      subst h8; simp [hiv]
  have e9 : formatOf s = some c.format ∧ c = { c8 with format := c.format } := by
    unfold fFormat at h9; unfold formatOf
    cases hi : s.find (str "VS") with
    | none =>
      rw [hi] at h9; simp only [Option.some.injEq] at h9
      subst h9
      refine ⟨?_, rfl⟩
      rw [e8.2, e7.2]
      subst h6
      rw [e5.2]
      subst h4 h3 h2 h1; rfl
    | some v =>
      rw [hi] at h9; simp only [Option.map_eq_some_iff] at h9
      obtain ⟨iv, hiv, h9⟩ := h9
      subst h9; exact ⟨hiv, rfl⟩
  obtain ⟨e9a, e9⟩ := e9
  obtain ⟨e8a, e8⟩ := e8
  obtain ⟨e7a, e7⟩ := e7
  obtain ⟨e5a, e5⟩ := e5
  generalize c.format = F at *
  generalize c8.level = L at *
  generalize c7.precision = P at *
  generalize c5.interval = I at *
  subst e9 e8 e7 h6 e5 h4 h3 h2 h1
  exact {
    product := rfl, unit := rfl, length := ⟨n, hn, rfl⟩, capture := ht, forecast := hf, interval := e5a,
    dims := by simpa [fProduct] using hd,
    rx := by simp [resOf, fProduct], ry := by simp [resOf, fProduct],
    precision := e7a, level := e8a, format := e9a,
    plainData := rfl, dataZ := rfl, data := rfl, dz := rfl, proj := rfl, offx := rfl, offy := rfl,
    wgs84 := rfl }

/-- if every field can be read, the header is accepted -/
theorem headerComposite_isSome {E : Env} {header : Bytes} {s : Section} {n t f i : Int} {d : Dims} {p v : Int}
    {l : Option (List F32)}
    (hn : sscanfD ((s.find (str "BY")).getD []) = some n) (ht : parseTime (dateBytes header) = some t)
    (hf : forecastOf s t = some f) (hi : intervalOf s (header.take 2) = some i)
    (hd : dimsOf s (header.take 2) = some d) (hp : precisionOf s = some p) (hl : levelsOf E s = some l)
    (hv : formatOf s = some v) : (headerComposite E header s Composite.zero).isSome := by
  unfold headerComposite fLength fCapture
  simp only [hn, Option.bind_some, Option.map_some, ht]
  have e4 : ∀ c : Composite, c.captureTime = t →
      fForecast s c = some { c with forecastTime := f } := by
    intro c hc; unfold fForecast; rw [hc, hf]; rfl
  rw [e4 _ rfl]
  simp only [Option.bind_some]
  have e5 : ∀ c : Composite, c.product = header.take 2 → ∃ c', fInterval s c = some c' ∧ c'.product = c.product := by
    intro c hc
    unfold fInterval
    cases s.find (str "INT") with
    | none => exact ⟨c, rfl, rfl⟩
    | some _ => rw [hc, hi]; exact ⟨_, rfl, hc.symm ▸ rfl⟩
  generalize hc4 : ({ fProduct header Composite.zero with
      dataLength := wrap64 (n - header.length), captureTime := t, forecastTime := f } : Composite) = c4
  have hc4' : c4.product = header.take 2 := by subst hc4; rfl
  clear hc4
  obtain ⟨c5, h5, hp5⟩ := e5 c4 hc4'
  rw [h5]
  simp only [Option.bind_some]
  unfold fDims
  rw [hp5, hc4', hd]
  simp only [Option.map_some, Option.bind_some]
  have e7 : ∀ c : Composite, ∃ c', fPrecision s c = some c' := by
    intro c; unfold fPrecision
    unfold precisionOf at hp
    cases h : s.find (str "E") with
    | none => exact ⟨_, rfl⟩
    | some x => rw [h] at hp; simp only at hp ⊢; rw [hp]; exact ⟨_, rfl⟩
  have e8 : ∀ c : Composite, ∃ c', fLevel E s c = some c' := by
    intro c; unfold fLevel
    unfold levelsOf at hl
    cases h : s.find (str "LV") with
    | none => exact ⟨_, rfl⟩
    | some x =>
      rw [h] at hl; simp only [Option.map_eq_some_iff] at hl ⊢
      obtain ⟨a, ha, _⟩ := hl
      exact ⟨_, a, ha, rfl⟩
  have e9 : ∀ c : Composite, ∃ c', fFormat s c = some c' := by
    intro c; unfold fFormat
    unfold formatOf at hv
    cases h : s.find (str "VS") with
    | none => exact ⟨_, rfl⟩
    | some x => rw [h] at hv; simp only at hv ⊢; rw [hv]; exact ⟨_, rfl⟩
  have fin : ∀ c : Composite, (((fPrecision s c).bind (fLevel E s)).bind (fFormat s)).isSome := by
    intro c
    obtain ⟨c7, h7⟩ := e7 c
    obtain ⟨c8, h8⟩ := e8 c7
    obtain ⟨c9, h9⟩ := e9 c8
    rw [h7, Option.bind_some, h8, Option.bind_some, h9]; rfl
  exact fin _

theorem headerOf_some {E : Env} {input rest : Bytes} {c : Composite}
    (h : headerOf E input = some (c, rest)) :
    ∃ header s, readDelim 3 input = some (header, rest) ∧ 22 ≤ header.length ∧
      splitHeader E header.dropLast = some s ∧ HeaderFields E header s c ∧
      headerComposite E header s Composite.zero = some c := by
  unfold headerOf at h
  split at h
  · simp at h
  · rename_i header rest' h1
    split at h
    · simp at h
    · split at h
      · simp at h
      · rename_i s hs
        simp only [Option.map_eq_some_iff, Prod.mk.injEq] at h
        obtain ⟨c', hc, rfl, rfl⟩ := h
        exact ⟨header, s, h1, by omega, hs, headerComposite_fields hc, hc⟩

/-- the header result depends on the sections only through the values of the known keys -/
theorem headerComposite_congr {E : Env} {h h' : Bytes} {s s' : Section}
    (h1 : h.take 2 = h'.take 2) (h2 : h.length = h'.length) (h3 : dateBytes h = dateBytes h')
    (hs : ∀ k, s.find k = s'.find k) :
    headerComposite E h s Composite.zero = headerComposite E h' s' Composite.zero := by
  have e1 : fProduct h = fProduct h' := by funext c; unfold fProduct; rw [h1]
  have e2 : fLength h s = fLength h' s' := by funext c; unfold fLength; rw [hs, h2]
  have e3 : fCapture h = fCapture h' := by funext c; unfold fCapture; rw [h3]
  have e4 : fForecast s = fForecast s' := by funext c; unfold fForecast forecastOf; rw [hs]
  have e5 : fInterval s = fInterval s' := by funext c; unfold fInterval intervalOf; rw [hs]
  have e6 : fDims s = fDims s' := by funext c; unfold fDims dimsOf resOf; rw [hs, hs]
  have e7 : fPrecision s = fPrecision s' := by funext c; unfold fPrecision; rw [hs]
  have e8 : fLevel E s = fLevel E s' := by funext c; unfold fLevel; rw [hs]
  have e9 : fFormat s = fFormat s' := by funext c; unfold fFormat; rw [hs]
  unfold headerComposite
  rw [e1, e2, e3, e4, e5, e6, e7, e8, e9]

end Radolan
