/-
Model of /repo/radolan.go.
-/
import Verif.Model.Data

namespace Radolan
open Go

/-- what a call of NewComposite does: return a composite and an error value, or panic -/
inductive Outcome where
  | ret (c : Composite) (err : Option Err)
  | panic

/-- projection.go:92-130 on a composite -/
def calibrateProjection (E : Env) (c : Composite) : Composite :=
  let k := calibrate (f64Arith E.math) c.format c.dx c.dy
  { c with rx := k.rx, ry := k.ry, hasProjection := k.hasProjection, offx := k.offx, offy := k.offy,
           projWgs84 := k.wgs84 }

/-- radolan.go:132-147: header, data, arrangement, calibration -/
def newCompositeM (E : Env) (input : Bytes) : M Bytes := do
  let rest ← parseHeader E input
  let rest ← parseData rest
  arrangeData
  M.modify (calibrateProjection E)
  pure rest

/-- radolan.go:132-154, also returning the unread rest of the input -/
def newCompositeRest (E : Env) (input : Bytes) : Outcome × Bytes :=
  match newCompositeM E input Composite.zero with
  | .ok rest c => (.ret c (if c.dataUnit = Unit_unknown then some .unknownUnit else none), rest)
  | .err e c => (.ret c (some e), [])
  | .panic => (.panic, [])

/-- radolan.go:132-154. The reader is the byte sequence it delivers; a terminal read error other than
io.EOF behaves like the end of the input (only the error text differs). -/
def NewComposite (E : Env) (input : Bytes) : Outcome := (newCompositeRest E input).1

/-- radolan.go:187-191 -/
def NewDummy (E : Env) (product : Bytes) (format dx dy : Int) : Composite :=
  calibrateProjection E { Composite.zero with product := product, format := format, dx := dx, dy := dy }

/-- radolan.go:203-208; `none` is an index panic -/
def Composite.AtZ (c : Composite) (x y z : Int) : Option F32 :=
  if x < 0 ∨ y < 0 ∨ z < 0 ∨ c.dx ≤ x ∨ c.dy ≤ y ∨ c.dz ≤ z then some .nan
  else do
    let layer ← index? c.dataZ z
    let row ← index? layer y
    index? row x

/-- radolan.go:196-198 -/
def Composite.At (c : Composite) (x y : Int) : Option F32 := c.AtZ x y 0

/-- projection.go:135-145 on a composite -/
def Composite.Project (E : Env) (c : Composite) (north east : F64) : F64 × F64 :=
  project (f64Arith E.math)
    ⟨c.rx, c.ry, c.hasProjection, c.offx, c.offy, c.projWgs84⟩ north east

/-! ### Archives -/

/-- What the tar reader delivers: entries, each the bytes readable for that entry, and then either a
clean end (`io.EOF`) or a damaged archive. (Model/Tar.lean has the tar reader.) -/
structure Archive where
  entries : List Bytes
  damaged : Bool

/-- error results of NewComposites -/
inductive ArchErr where
  | tar
  | composite (e : Err)
  deriving DecidableEq, Repr

/-- results of NewComposites before sorting (radolan.go:163-178); `none` is a panic -/
def readEntries (E : Env) (damaged : Bool) : List Bytes → Option (Except ArchErr (List Composite))
  | [] => if damaged then some (.error .tar) else some (.ok [])
  | b :: bs =>
    match NewComposite E b with
    | .panic => none
    | .ret _ (some e) => some (.error (.composite e))
    | .ret c none =>
      match readEntries E damaged bs with
      | none => none
      | some (.error e) => some (.error e)
      | some (.ok cs) => some (.ok (c :: cs))

/-- radolan.go:158-183. `sortSlice` stands for `sort.Slice` with the given less function. -/
def NewComposites (E : Env) (sortSlice : (Composite → Composite → Bool) → List Composite → List Composite)
    (a : Archive) : Option (Except ArchErr (List Composite)) :=
  match readEntries E a.damaged a.entries with
  | none => none
  | some (.error e) => some (.error e)
  | some (.ok cs) => some (.ok (sortSlice (fun x y => decide (x.forecastTime < y.forecastTime)) cs))

end Radolan
