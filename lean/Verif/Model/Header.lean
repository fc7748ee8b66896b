/-
Model of /repo/header.go.
-/
import Verif.Model.Catalog

namespace Radolan
open Go

/-- `unicode.IsUpper`: exact on ASCII, arbitrary elsewhere. -/
def isUpper (E : Env) (r : Nat) : Bool :=
  if r < 128 then 65 ≤ r && r ≤ 90 else E.isUpperNA r

/-- A Go `map[string]string`; the most recent binding of a key comes first. -/
abbrev Section := List (Bytes × Bytes)

/-- local variables of splitHeader (header.go:14-15) -/
structure SplitState where
  m : Section
  beginKey : Nat
  endKey : Nat
  beginValue : Nat
  endValue : Nat
  dispatch : Bool

/-- header.go:20, 36: `m[header[beginKey:endKey]] = header[beginValue:endValue]`; `none` is a slice panic -/
def SplitState.store (header : Bytes) (s : SplitState) : Option SplitState := do
  let k ← slice? header s.beginKey s.endKey
  let v ← slice? header s.beginValue s.endValue
  some { s with m := (k, v) :: s.m }

/-- header.go:17-36: the loop over the runes of the header and the final store. -/
def splitLoop (E : Env) (header : Bytes) : List (Nat × Nat) → SplitState → Option Section
  | [], s => do
    let s ← s.store header
    some s.m
  | (i, r) :: rest, s =>
    if isUpper E r then
      if s.dispatch then do
        let s ← s.store header
        splitLoop E header rest { s with beginKey := i, dispatch := false, endKey := i + 1 }
      else splitLoop E header rest { s with endKey := i + 1 }
    else if i = 0 then some s.m
    else if !s.dispatch then
      splitLoop E header rest { s with beginValue := i, dispatch := true, endValue := i + 1 }
    else splitLoop E header rest { s with endValue := i + 1 }

/-- header.go:12-39 -/
def splitHeader (E : Env) (header : Bytes) : Option Section :=
  splitLoop E header (runesFrom 0 0 header) ⟨[], 0, 0, 0, 0, false⟩

/-- `section[key]` with presence -/
def Section.find (s : Section) (k : Bytes) : Option Bytes := s.lookup k

/-- header.go:52-59: product label and unit -/
def stageProduct (header : Bytes) : M Unit := do
  let p ← M.orPanic (slice? header 0 2)
  M.modify fun c =>
    { c with product := p, dataUnit := (unitCatalog.lookup p).getD Unit_unknown }

/-- header.go:61-65: data length -/
def stageLength (header : Bytes) (s : Section) : M Unit := do
  let n ← M.orErr .dataLength (sscanfD ((s.find (str "BY")).getD []))
  M.modify fun c => { c with dataLength := wrap64 (n - header.length) }

/-- header.go:67-72: capture time -/
def stageCapture (header : Bytes) : M Unit := do
  let d1 ← M.orPanic (slice? header 2 8)
  let d2 ← M.orPanic (slice? header 13 17)
  match parseTime (d1 ++ d2) with
  | some t => M.modify fun c => { c with captureTime := t }
  | none => do
    M.modify fun c => { c with captureTime := zeroTime }
    M.fail .captureTime

/-- header.go:74-82: forecast time -/
def stageForecast (s : Section) : M Unit := do
  M.modify fun c => { c with forecastTime := c.captureTime }
  match s.find (str "VV") with
  | some vv => do
    let min ← M.orErr .forecastTime (sscanfD vv)
    M.modify fun c => { c with forecastTime := c.captureTime + wrap64 (min * minuteNs) }
  | none => pure ()

/-- header.go:84-96: interval -/
def stageInterval (s : Section) : M Unit := do
  match s.find (str "INT") with
  | some intr => do
    let min ← M.orErr .interval (sscanfD intr)
    M.modify fun c =>
      let iv := wrap64 (min * minuteNs)
      if c.product = str "W1" ∨ c.product = str "W2" ∨ c.product = str "W3" ∨ c.product = str "W4"
      then { c with interval := wrap64 (iv * 10) }
      else { c with interval := iv }
  | none => pure ()

/-- the assignments of `Sscanf(dim, ..., &c.Dy, &c.Dx)`: variables not reached keep their value -/
def assignDims (e : Err) (r : Option Int × Option Int) : M Unit := do
  M.modify fun c => { c with dy := r.1.getD c.dy }
  let dx ← M.orErr e r.2
  M.modify fun c => { c with dx := dx }
  M.modify fun c => { c with px := c.dx, py := c.dy }

/-- header.go:98-120: dimensions -/
def stageDims (s : Section) : M Unit := do
  match s.find (str "GP") with
  | some dim => assignDims .dimGP (sscanfDxD dim)
  | none =>
    match s.find (str "BG") with
    | some dim => assignDims .dimBG (sscanf3D3D dim)
    | none => do
      let c ← M.get
      let v ← M.orErr .noDimension (dimensionCatalog.lookup c.product)
      M.modify fun c => { c with
        px := v.px, py := v.py, dx := v.dx, dy := v.dy,
        rx := Fl.lit f64 (v.rx : ℚ), ry := Fl.lit f64 (v.ry : ℚ) }

/-- header.go:122-127: precision -/
def stagePrecision (s : Section) : M Unit := do
  match s.find (str "E") with
  | some prec => do
    let p ← M.orErr .precision (sscanfD prec)
    M.modify fun c => { c with precision := p }
  | none => pure ()

/-- header.go:146-151: the loop filling `c.level`, `i` being the loop index and `todo` the number of
entries left -/
def levelLoop (E : Env) (lv : Bytes) : (todo i : Nat) → M Unit
  | 0, _ => pure ()
  | todo + 1, i => do
    let f ← M.orPanic (slice? lv (i * 5 + 2) (i * 5 + 7))
    let v ← M.orErr .levelValue (sscanfF f)
    M.modify fun c => { c with level := c.level.map (·.set i v) }
    levelLoop E lv todo (i + 1)

/-- header.go:129-152: level table -/
def stageLevel (E : Env) (s : Section) : M Unit := do
  match s.find (str "LV") with
  | some lv =>
    if lv.length < 2 then M.fail .levelTooShort
    else do
      let f ← M.orPanic (slice? lv 0 2)
      let cnt ← M.orErr .levelCount (sscanfD f)
      if (lv.length : Int) ≠ wrap64 (wrap64 (cnt * 5) + 2) then M.fail .levelFormat
      else if !makeOK 4 cnt then M.panic
      else do
        M.modify fun c => { c with level := some (List.replicate cnt.toNat Fl.zero) }
        levelLoop E lv cnt.toNat 0
  | none => pure ()

/-- header.go:154-159: format version -/
def stageFormat (s : Section) : M Unit := do
  match s.find (str "VS") with
  | some vs => do
    let v ← M.orErr .format (sscanfD vs)
    M.modify fun c => { c with format := v }
  | none => pure ()

/-- header.go:43-162: parse the header, return the bytes following it -/
def parseHeader (E : Env) (input : Bytes) : M Bytes := do
  let (header, rest) ← M.orErr .headerTooShort (readDelim 3 input)
  if header.length < 22 then M.fail .headerTooShort
  else do
    let body ← M.orPanic (slice? header 0 (header.length - 1))
    let sec ← M.orPanic (splitHeader E body)
    stageProduct header
    stageLength header sec
    stageCapture header
    stageForecast sec
    stageInterval sec
    stageDims sec
    stagePrecision sec
    stageLevel E sec
    stageFormat sec
    pure rest

end Radolan
