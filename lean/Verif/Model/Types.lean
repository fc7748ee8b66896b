/-
The Composite type, error values, and the parser monad (methods on *Composite that may return an
error, leaving the composite partly filled, or panic).
-/
import Verif.Go.Basic
import Verif.Go.Scan
import Verif.Go.Time
import Verif.Model.Projection

namespace Radolan
open Go

/-- catalog.go:34-40 -/
def Unit_unknown : Int := 0
def Unit_mm : Int := 1
def Unit_dBZ : Int := 2
def Unit_km : Int := 3
def Unit_mps : Int := 4

/-- One constructor per error exit; the message texts are in Model/Errors.lean. -/
inductive Err where
  | headerTooShort | dataLength | captureTime | forecastTime | interval
  | dimGP | dimBG | noDimension | precision
  | levelTooShort | levelCount | levelFormat | levelValue | format
  | headerRequired | unknownEncoding
  | readSingleByte | decodeSingleByte | readLittleEndian | decodeLittleEndian
  | readRunlength | invalidOffset | destinationExceeded
  | unknownUnit
  deriving DecidableEq, Repr

/-- radolan.go:84-120. `level` is `none` for the nil slice. -/
structure Composite where
  product : Bytes
  captureTime : Int
  forecastTime : Int
  interval : Int
  dataUnit : Int
  plainData : List (List F32)
  px : Int
  py : Int
  dataZ : List (List (List F32))
  data : List (List F32)
  dx : Int
  dy : Int
  dz : Int
  rx : F64
  ry : F64
  hasProjection : Bool
  format : Int
  dataLength : Int
  precision : Int
  level : Option (List F32)
  offx : F64
  offy : F64
  projWgs84 : Option (Projection F64)

/-- `&Composite{}` (radolan.go:134) -/
def Composite.zero : Composite where
  product := []
  captureTime := zeroTime
  forecastTime := zeroTime
  interval := 0
  dataUnit := 0
  plainData := []
  px := 0
  py := 0
  dataZ := []
  data := []
  dx := 0
  dy := 0
  dz := 0
  rx := Fl.zero
  ry := Fl.zero
  hasProjection := false
  format := 0
  dataLength := 0
  precision := 0
  level := none
  offx := Fl.zero
  offy := Fl.zero
  projWgs84 := none

/-- What the code takes from its environment and the model leaves arbitrary. -/
structure Env where
  /-- `unicode.IsUpper` on runes ≥ 0x80 -/
  isUpperNA : Nat → Bool
  /-- transcendental functions of package math -/
  math : MathLib

/-- Result of a method on *Composite: value, error, or panic. -/
inductive PRes (α : Type) where
  | ok (a : α) (c : Composite)
  | err (e : Err) (c : Composite)
  | panic

/-- methods on *Composite -/
def M (α : Type) := Composite → PRes α

namespace M

def pure (a : α) : M α := fun c => .ok a c

def bind (m : M α) (k : α → M β) : M β := fun c =>
  match m c with
  | .ok a c' => k a c'
  | .err e c' => .err e c'
  | .panic => .panic

instance : Monad M where
  pure := M.pure
  bind := M.bind

/-- return an error -/
def fail (e : Err) : M α := fun c => .err e c
/-- run-time panic -/
def panic : M α := fun _ => .panic
/-- `c.f = ...` -/
def modify (g : Composite → Composite) : M Unit := fun c => .ok () (g c)
/-- read the composite -/
def get : M Composite := fun c => .ok c c

/-- unwrap a value whose absence is an error return -/
def orErr (e : Err) : Option α → M α
  | some a => M.pure a
  | none => fail e

/-- unwrap a value whose absence is a run-time panic -/
def orPanic : Option α → M α
  | some a => M.pure a
  | none => panic

end M

/-- `bufio.Reader.ReadString(d)` / `ReadBytes(d)` on the remaining bytes: everything up to and
including the first `d`, and the rest; `none` if there is no `d` (an error is returned). -/
def readDelim (d : UInt8) : Bytes → Option (Bytes × Bytes)
  | [] => none
  | b :: bs =>
    if b = d then some ([b], bs)
    else match readDelim d bs with
      | some (l, r) => some (b :: l, r)
      | none => none

/-- `io.ReadFull(rd, buf)` with `len(buf) = n`: `none` if fewer than `n` bytes remain. -/
def readFull (n : Nat) (b : Bytes) : Option (Bytes × Bytes) :=
  if n ≤ b.length then some (b.take n, b.drop n) else none

end Radolan
