/-
The parser of /repo on a *bufio.Reader over an arbitrary io.Reader. The functions below are the reader-passing
versions of those in Model/Header.lean, Model/Data.lean and Model/Composite.lean; everything that does not touch the
reader is shared.
-/
import Verif.Go.Bufio
import Verif.Model.Composite

namespace Radolan
open Go Go.Bufio

/-- methods on *Composite that may also fail to terminate (`none`) -/
def MR (α : Type) := Composite → Option (PRes α)

namespace MR

def pure (a : α) : MR α := fun c => some (.ok a c)

def bind (m : MR α) (k : α → MR β) : MR β := fun c =>
  match m c with
  | none => none
  | some (.ok a c') => k a c'
  | some (.err e c') => some (.err e c')
  | some .panic => some .panic

instance : Monad MR where
  pure := MR.pure
  bind := MR.bind

/-- code that does not use the reader -/
def lift (m : M α) : MR α := fun c => some (m c)

/-- a reader operation that yields bytes and an error: its error is returned as `e` -/
def orErr (e : Err) (x : Option (Bytes × Option IOErr × α)) : MR (Bytes × α) := fun c =>
  match x with
  | none => none
  | some (l, none, r) => some (.ok (l, r) c)
  | some (_, some _, _) => some (.err e c)

end MR

variable {S : Source}

/-- header.go:43-162 -/
def parseHeaderR (E : Env) (N : Nat) (r : Reader S) : MR (Reader S) := do
  let (header, r) ← MR.orErr .headerTooShort (readBytes N 3 [] r)
  MR.lift (if header.length < 22 then M.fail .headerTooShort
  else do
    let body ← M.orPanic (slice? header 0 (header.length - 1))
    let sec ← M.orPanic (splitHeader E body)
    stageProduct header
    stageLength header sec
    stageCapture header
    stageForecast sec
    stageInterval sec
    stageDims sec
    stagePrecision sec
    stageLevel E sec
    stageFormat sec)
  pure r

/-- `for i := range c.PlainData { body(i) }`: `todo` iterations from `i` -/
def rowLoopR (body : Nat → Reader S → MR (Reader S)) : (todo i : Nat) → Reader S → MR (Reader S)
  | 0, _, r => pure r
  | todo + 1, i, r => do
    let r' ← body i r
    rowLoopR body todo (i + 1) r'

/-- singlebyte.go:12-22, 29-36 -/
def rowSingleByteR (N : Nat) (last : Nat) (i : Nat) (r : Reader S) : MR (Reader S) := do
  let c ← MR.lift M.get
  if !makeOK 1 c.dx then MR.lift M.panic
  else do
    let (line, r) ← MR.orErr .readSingleByte (Bufio.readFull N c.dx.toNat [] none r)
    MR.lift (do
      let dst ← M.orPanic (index? c.plainData ((last : Int) - i))
      let row ← M.orErr .decodeSingleByte (decodeSingleByte c.dataUnit c.precision dst line)
      M.modify fun c => { c with plainData := c.plainData.set (last - i) row })
    pure r

/-- singlebyte.go:10-25 -/
def parseSingleByteR (N : Nat) (r : Reader S) : MR (Reader S) := do
  let c ← MR.lift M.get
  rowLoopR (rowSingleByteR N (c.plainData.length - 1)) c.plainData.length 0 r

/-- littleendian.go:12-22, 29-36 -/
def rowLittleEndianR (N : Nat) (last : Nat) (i : Nat) (r : Reader S) : MR (Reader S) := do
  let c ← MR.lift M.get
  if !makeOK 1 (wrap64 (c.dx * 2)) then MR.lift M.panic
  else do
    let (line, r) ← MR.orErr .readLittleEndian (Bufio.readFull N (wrap64 (c.dx * 2)).toNat [] none r)
    MR.lift (do
      let dst ← M.orPanic (index? c.plainData ((last : Int) - i))
      let row ← M.orErr .decodeLittleEndian (decodeLittleEndian c.dataUnit c.precision dst line)
      M.modify fun c => { c with plainData := c.plainData.set (last - i) row })
    pure r

/-- littleendian.go:10-25 -/
def parseLittleEndianR (N : Nat) (r : Reader S) : MR (Reader S) := do
  let c ← MR.lift M.get
  rowLoopR (rowLittleEndianR N (c.plainData.length - 1)) c.plainData.length 0 r

/-- runlength.go:10-20, 27-37 -/
def rowRunlengthR (N : Nat) (i : Nat) (r : Reader S) : MR (Reader S) := do
  let c ← MR.lift M.get
  let (line, r) ← MR.orErr .readRunlength (readBytes N 10 [] r)
  MR.lift (do
    let dst ← M.orPanic (index? c.plainData i)
    let d := decodeRunlength (c.level.getD []) dst line.dropLast
    M.modify fun c => { c with plainData := c.plainData.set i d.1 }
    match d.2 with
    | some e => M.fail e
    | none => pure ())
  pure r

/-- runlength.go:9-23 -/
def parseRunlengthR (N : Nat) (r : Reader S) : MR (Reader S) := do
  let c ← MR.lift M.get
  rowLoopR (rowRunlengthR N) c.plainData.length 0 r

/-- data.go:18-26, 80-82 -/
def parseWithR (N : Nat) (e : Encoding) (r : Reader S) : MR (Reader S) :=
  match e with
  | .runlength => parseRunlengthR N r
  | .littleEndian => parseLittleEndianR N r
  | .singleByte => parseSingleByteR N r
  | .unknown => MR.lift (M.fail .unknownEncoding)

/-- data.go:49-61 -/
def parseDataR (N : Nat) (r : Reader S) : MR (Reader S) := do
  let c ← MR.lift M.get
  if c.px = 0 ∨ c.py = 0 then MR.lift (M.fail .headerRequired)
  else if !makeOK 24 c.py then MR.lift M.panic
  else if !makeOK 4 c.px then MR.lift M.panic
  else do
    MR.lift (M.modify fun c => { c with
      plainData := List.replicate c.py.toNat (List.replicate c.px.toNat Fl.zero) })
    let c ← MR.lift M.get
    parseWithR N (identifyEncoding c) r

/-- radolan.go:136-147 -/
def newCompositeMR (E : Env) (N : Nat) (r : Reader S) : MR (Reader S) := do
  let r ← parseHeaderR E N r
  let r ← parseDataR N r
  MR.lift arrangeData
  MR.lift (M.modify (calibrateProjection E))
  pure r

/-- radolan.go:134-154 on a given `*bufio.Reader` with buffer size `N`; `none`: the call does not return -/
def newCompositeFrom (E : Env) (N : Nat) (r : Reader S) : Option Outcome :=
  match newCompositeMR E N r Composite.zero with
  | none => none
  | some (.ok _ c) => some (.ret c (if c.dataUnit = Unit_unknown then some .unknownUnit else none))
  | some (.err e c) => some (.ret c (some e))
  | some .panic => some .panic

/-- radolan.go:132-154: NewComposite(rd) for an `rd` in state `s` that is not a `*bufio.Reader` itself
(`bufio.NewReader` allocates a buffer of 4096 bytes); `none`: the call does not return -/
def NewCompositeReader (E : Env) (S : Source) (s : S.State) : Option Outcome :=
  newCompositeFrom E 4096 (newReader S s)

end Radolan
