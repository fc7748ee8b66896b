/-
Model of /repo/data.go, singlebyte.go, littleendian.go, runlength.go.
-/
import Verif.Model.Header
import Verif.Model.Conversion

namespace Radolan
open Go

/-! ### singlebyte.go -/

/-- singlebyte.go:54-67 -/
def rvp6SingleByte (unit precision : Int) (value : UInt8) : F32 :=
  if value = 250 then .nan
  else
    let conv := rvp6Raw precision value.toNat
    if unit ≠ Unit_dBZ then conv else toDBZ conv

/-- singlebyte.go:39-49: the new contents of `dst`, `none` for the size error -/
def decodeSingleByte (unit precision : Int) (dst : List F32) (line : Bytes) : Option (List F32) :=
  if dst.length ≠ line.length then none
  else some (line.map (rvp6SingleByte unit precision))

/-- `for i := range c.PlainData { body(i) }`, the body consuming input: `todo` iterations from `i` -/
def rowLoop (body : Nat → Bytes → M Bytes) : (todo i : Nat) → Bytes → M Bytes
  | 0, _, b => pure b
  | todo + 1, i, b => do
    let b' ← body i b
    rowLoop body todo (i + 1) b'

/-- singlebyte.go:12-22, one iteration: read a line (lines 29-36), decode it into row `last-i` -/
def rowSingleByte (last : Nat) (i : Nat) (b : Bytes) : M Bytes := do
  let c ← M.get
  if !makeOK 1 c.dx then M.panic
  else do
    let (line, rest) ← M.orErr .readSingleByte (readFull c.dx.toNat b)
    let dst ← M.orPanic (index? c.plainData ((last : Int) - i))
    let row ← M.orErr .decodeSingleByte (decodeSingleByte c.dataUnit c.precision dst line)
    M.modify fun c => { c with plainData := c.plainData.set (last - i) row }
    pure rest

/-- singlebyte.go:10-25. (`len(c.PlainData) - 1` is only used when there is a row.) -/
def parseSingleByte (b : Bytes) : M Bytes := do
  let c ← M.get
  rowLoop (rowSingleByte (c.plainData.length - 1)) c.plainData.length 0 b

/-! ### littleendian.go -/

/-- littleendian.go:54-77 -/
def rvp6LittleEndian (unit precision : Int) (t0 t1 : UInt8) : F32 :=
  let value : Int := (0x0F &&& t1).toNat
  let value : Int := value * 256 + t0.toNat
  if t1 &&& ((1 : UInt8) <<< 5) ≠ 0 then .nan
  else
    let value := if t1 &&& ((1 : UInt8) <<< 6) ≠ 0 then value * (-1) else value
    let conv := rvp6Raw precision value
    if unit ≠ Unit_dBZ then conv else toDBZ conv

/-- littleendian.go:44-47: the loop over the destination, two bytes per value -/
def decodePairs (unit precision : Int) : Bytes → List F32
  | a :: b :: rest => rvp6LittleEndian unit precision a b :: decodePairs unit precision rest
  | _ => []

/-- littleendian.go:39-50 -/
def decodeLittleEndian (unit precision : Int) (dst : List F32) (line : Bytes) : Option (List F32) :=
  if line.length % 2 ≠ 0 ∨ dst.length * 2 ≠ line.length then none
  else some (decodePairs unit precision line)

/-- littleendian.go:12-22, one iteration: read a line (lines 29-36), decode it into row `last-i` -/
def rowLittleEndian (last : Nat) (i : Nat) (b : Bytes) : M Bytes := do
  let c ← M.get
  if !makeOK 1 (wrap64 (c.dx * 2)) then M.panic
  else do
    let (line, rest) ← M.orErr .readLittleEndian (readFull (wrap64 (c.dx * 2)).toNat b)
    let dst ← M.orPanic (index? c.plainData ((last : Int) - i))
    let row ← M.orErr .decodeLittleEndian (decodeLittleEndian c.dataUnit c.precision dst line)
    M.modify fun c => { c with plainData := c.plainData.set (last - i) row }
    pure rest

/-- littleendian.go:10-25 -/
def parseLittleEndian (b : Bytes) : M Bytes := do
  let c ← M.get
  rowLoop (rowLittleEndian (c.plainData.length - 1)) c.plainData.length 0 b

/-! ### runlength.go -/

/-- runlength.go:79-89. `value` is the low nibble. -/
def rvp6Runlength (level : List F32) (value : UInt8) : F32 :=
  if value = 0 then .nan
  else
    let v := (value - 1).toNat
    (level[v]?).getD .nan

/-- runlength.go:63-70: the inner loop writing `n` copies of a value -/
def writeRun (v : F32) : (n : Nat) → (dst : List F32) → (pos : Nat) → Except (List F32) (List F32 × Nat)
  | 0, dst, pos => .ok (dst, pos)
  | n + 1, dst, pos =>
    if dst.length ≤ pos then .error dst
    else writeRun v n (dst.set pos v) (pos + 1)

/-- runlength.go:48-72: the loop over the line. `i` is the index of the next byte. Returns the row
written so far and the error, if any. -/
def rlLoop (level : List F32) : (i : Nat) → (dst : List F32) → (pos : Nat) → (offset : Bool) →
    Bytes → List F32 × Option Err
  | _, dst, _, _, [] => (dst, none)
  | i, dst, pos, offset, value :: rest =>
    if i = 0 then rlLoop level (i + 1) dst pos offset rest
    else if offset then
      if value < 16 then (dst, some .invalidOffset)
      else rlLoop level (i + 1) dst (pos + (value.toNat - 16)) (value == 255) rest
    else
      match writeRun (rvp6Runlength level (value &&& 0x0F)) (value >>> 4).toNat dst pos with
      | .ok (dst', pos') => rlLoop level (i + 1) dst' pos' offset rest
      | .error dst' => (dst', some .destinationExceeded)

/-- runlength.go:40-75 -/
def decodeRunlength (level : List F32) (dst : List F32) (line : Bytes) : List F32 × Option Err :=
  rlLoop level 0 (List.replicate dst.length .nan) 0 true line

/-- runlength.go:10-20, one iteration: read a line (lines 27-37), decode it into row `i` -/
def rowRunlength (i : Nat) (b : Bytes) : M Bytes := do
  let c ← M.get
  let (line, rest) ← M.orErr .readRunlength (readDelim 10 b)
  let line := line.dropLast
  let dst ← M.orPanic (index? c.plainData i)
  let r := decodeRunlength (c.level.getD []) dst line
  M.modify fun c => { c with plainData := c.plainData.set i r.1 }
  match r.2 with
  | some e => M.fail e
  | none => pure rest

/-- runlength.go:9-23 -/
def parseRunlength (b : Bytes) : M Bytes := do
  let c ← M.get
  rowLoop rowRunlength c.plainData.length 0 b

/-! ### data.go -/

/-- data.go:8-15 -/
inductive Encoding where
  | runlength | littleEndian | singleByte | unknown
  deriving DecidableEq, Repr

/-- data.go:31-45 -/
def identifyEncoding (c : Composite) : Encoding :=
  let values := wrap64 (c.px * c.py)
  if c.level.isSome then .runlength
  else if c.dataLength = wrap64 (values * 2) then .littleEndian
  else if c.dataLength = values then .singleByte
  else .unknown

/-- data.go:18-26, the dispatch table, and data.go:80-82 -/
def parseWith (e : Encoding) (b : Bytes) : M Bytes :=
  match e with
  | .runlength => parseRunlength b
  | .littleEndian => parseLittleEndian b
  | .singleByte => parseSingleByte b
  | .unknown => M.fail .unknownEncoding

/-- data.go:49-61: returns the bytes left after the data section -/
def parseData (b : Bytes) : M Bytes := do
  let c ← M.get
  if c.px = 0 ∨ c.py = 0 then M.fail .headerRequired
  else if !makeOK 24 c.py then M.panic
  else if !makeOK 4 c.px then M.panic -- `c.Py ≥ 1` here, so at least one row is made
  else do
    M.modify fun c => { c with
      plainData := List.replicate c.py.toNat (List.replicate c.px.toNat Fl.zero) }
    let c ← M.get
    parseWith (identifyEncoding c) b

/-- slice expression with Go int bounds -/
def sliceI? (l : List α) (a b : Int) : Option (List α) :=
  if 0 ≤ a ∧ a ≤ b then slice? l a.toNat b.toNat else none

/-- data.go:68-70: the loop splitting layers, `todo` layers from index `i` -/
def layerLoop (plain : List (List F32)) (dy : Int) : (todo i : Nat) → Option (List (List (List F32)))
  | 0, _ => some []
  | todo + 1, i => do
    let l ← sliceI? plain (wrap64 (dy * i)) (wrap64 (dy * (i + 1)))
    let ls ← layerLoop plain dy todo (i + 1)
    some (l :: ls)

/-- data.go:65-77 -/
def arrangeData : M Unit := do
  let c ← M.get
  if c.dy = 0 then M.panic
  else do
    let dz ←
      if c.py.tmod c.dy = 0 then
        if !makeOK 24 (c.py.tdiv c.dy) then M.panic
        else M.orPanic (layerLoop c.plainData c.dy (c.py.tdiv c.dy).toNat 0)
      else do
        let l ← M.orPanic (sliceI? c.plainData (wrap64 (c.py - c.dy)) c.plainData.length)
        pure [l]
    let d0 ← M.orPanic (index? dz 0)
    M.modify fun c => { c with dataZ := dz, dz := dz.length, data := d0 }

end Radolan
