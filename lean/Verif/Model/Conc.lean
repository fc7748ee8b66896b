/-
Goroutines sharing one memory: NewComposite, At and AtZ as sequences of single memory accesses, and all their
interleavings. (Model/Data.lean and Model/Composite.lean say what these functions compute, Model/Heap.lean how the slices
of one composite overlap; this file says which memory is touched, when, and what other goroutines may do in between.)

Not shared and therefore not part of the memory here: the input of a call and its buffered reader, the header strings and
maps, the line buffers (singlebyte.go:30, littleendian.go:30, runlength.go:28), the level table (header.go:129-152), the
struct fields of the composite under construction. The package variables (catalogs, tables, ErrUnknownUnit, NaN) are never
assigned to after initialisation.
-/
import Verif.Model.Heap
import Verif.Model.Composite

namespace Radolan.Conc
open Go
open Radolan.Heap (Win View)

abbrev Addr := Nat

/-- a slice header of type []float32 (of a row; it spans its whole array); `⟨0, 0⟩` is nil -/
structure Row where
  addr : Addr
  len : Nat

/-- the zero value of a row -/
def Row.nil : Row := ⟨0, 0⟩

/-- an allocated array -/
inductive Obj where
  /-- of type [...][]float32 -/
  | heads (l : List Row)
  /-- of type [...]float32 -/
  | floats (l : List F32)

/-- the memory of the process -/
abbrev Mem := Addr → Option Obj

/-- a program making one memory access after the other -/
inductive Prog (α : Type) : Type where
  | ret (a : α)
  /-- run-time panic -/
  | panic
  /-- allocate an array -/
  | alloc (o : Obj) (k : Addr → Prog α)
  /-- load a row header -/
  | head (a : Addr) (i : Nat) (k : Row → Prog α)
  /-- store a row header -/
  | setHead (a : Addr) (i : Nat) (r : Row) (k : Prog α)
  /-- load a value -/
  | load (a : Addr) (i : Nat) (k : F32 → Prog α)
  /-- store a value -/
  | store (a : Addr) (i : Nat) (v : F32) (k : Prog α)

/-- first `p`, then `k` with its result -/
def Prog.bind (k : α → Prog β) : Prog α → Prog β
  | .ret a => k a
  | .panic => .panic
  | .alloc o l => .alloc o fun a => (l a).bind k
  | .head a i l => .head a i fun r => (l r).bind k
  | .setHead a i r l => .setHead a i r (l.bind k)
  | .load a i l => .load a i fun v => (l v).bind k
  | .store a i v l => .store a i v (l.bind k)

/-- one step of a program; `fresh` is the address an allocation gets. An index outside the array panics; an address that
is not allocated, or with the wrong type, has no meaning (`none`), and neither has a finished program. -/
def Prog.step (fresh : Addr) (m : Mem) : Prog α → Option (Mem × Prog α)
  | .ret _ => none
  | .panic => none
  | .alloc o k => match m fresh with
    | none => some (Function.update m fresh (some o), k fresh)
    | some _ => none
  | .head a i k => match m a with
    | some (.heads l) => match l[i]? with
      | some r => some (m, k r)
      | none => some (m, .panic)
    | _ => none
  | .setHead a i r k => match m a with
    | some (.heads l) => if i < l.length then some (Function.update m a (some (.heads (l.set i r))), k) else some (m, .panic)
    | _ => none
  | .load a i k => match m a with
    | some (.floats l) => match l[i]? with
      | some v => some (m, k v)
      | none => some (m, .panic)
    | _ => none
  | .store a i v k => match m a with
    | some (.floats l) => if i < l.length then some (Function.update m a (some (.floats (l.set i v))), k) else some (m, .panic)
    | _ => none

/-- goroutines `i : ι`, each with what it still has to do, and the memory -/
structure State (ι α : Type) where
  mem : Mem
  prog : ι → Prog α

/-- some goroutine makes one step -/
def Step [DecidableEq ι] (s s' : State ι α) : Prop :=
  ∃ i fresh m p, (s.prog i).step fresh s.mem = some (m, p) ∧ s' = ⟨m, Function.update s.prog i p⟩

/-- the address a program accesses next, and whether it writes there -/
def Prog.access : Prog α → Option (Addr × Bool)
  | .head a _ _ => some (a, false)
  | .setHead a _ _ _ => some (a, true)
  | .load a _ _ => some (a, false)
  | .store a _ _ _ => some (a, true)
  | _ => none

/-! ### rows -/

/-- `dst[i] = v` -/
def storeAt (dst : Row) (i : Nat) (v : F32) (k : Prog α) : Prog α :=
  if i < dst.len then .store dst.addr i v k else .panic

/-- `dst[i] = v` for consecutive indices (the values are computed in between, without touching the memory) -/
def storeAll (dst : Row) : Nat → List F32 → Prog Unit
  | _, [] => .ret ()
  | i, v :: vs => storeAt dst i v (storeAll dst (i + 1) vs)

/-- indexing a slice of rows whose array is at `base`: `s[i]` -/
def rowAt (base : Addr) (s : Win) (i : Int) (k : Row → Prog α) : Prog α :=
  if 0 ≤ i ∧ i < s.len then .head base (s.off + i.toNat) k else .panic

/-- singlebyte.go:39-49 -/
def decodeSingleByte (unit precision : Int) (dst : Row) (line : Bytes) : Prog (Except Err Unit) :=
  if dst.len ≠ line.length then .ret (.error .decodeSingleByte)
  else (storeAll dst 0 (line.map (rvp6SingleByte unit precision))).bind fun _ => .ret (.ok ())

/-- littleendian.go:39-50 -/
def decodeLittleEndian (unit precision : Int) (dst : Row) (line : Bytes) : Prog (Except Err Unit) :=
  if line.length % 2 ≠ 0 ∨ dst.len * 2 ≠ line.length then .ret (.error .decodeLittleEndian)
  else (storeAll dst 0 (decodePairs unit precision line)).bind fun _ => .ret (.ok ())

/-- runlength.go:63-70: the inner loop; the new position -/
def writeRun (dst : Row) (v : F32) : (n : Nat) → (pos : Nat) → Prog (Except Err Nat)
  | 0, pos => .ret (.ok pos)
  | n + 1, pos =>
    if dst.len ≤ pos then .ret (.error .destinationExceeded)
    else storeAt dst pos v (writeRun dst v n (pos + 1))

/-- runlength.go:48-72: the loop over the line -/
def rlLoop (level : List F32) (dst : Row) : (i : Nat) → (pos : Nat) → (offset : Bool) → Bytes → Prog (Except Err Unit)
  | _, _, _, [] => .ret (.ok ())
  | i, pos, offset, value :: rest =>
    if i = 0 then rlLoop level dst (i + 1) pos offset rest
    else if offset then
      if value < 16 then .ret (.error .invalidOffset)
      else rlLoop level dst (i + 1) (pos + (value.toNat - 16)) (value == 255) rest
    else
      (writeRun dst (rvp6Runlength level (value &&& 0x0F)) (value >>> 4).toNat pos).bind fun
        | .ok pos' => rlLoop level dst (i + 1) pos' offset rest
        | .error e => .ret (.error e)

/-- runlength.go:40-75 -/
def decodeRunlength (level : List F32) (dst : Row) (line : Bytes) : Prog (Except Err Unit) :=
  (storeAll dst 0 (List.replicate dst.len .nan)).bind fun _ => rlLoop level dst 0 0 true line

/-- an error return, or the rest of the input -/
def thenRest (rest : Bytes) : Except Err Unit → Prog (Except Err Bytes)
  | .ok _ => .ret (.ok rest)
  | .error e => .ret (.error e)

/-- singlebyte.go:12-22: one iteration -/
def rowSingleByte (c : Composite) (base : Addr) (plain : Win) (i : Nat) (b : Bytes) : Prog (Except Err Bytes) :=
  if !makeOK 1 c.dx then .panic
  else match readFull c.dx.toNat b with
    | none => .ret (.error .readSingleByte)
    | some (line, rest) => rowAt base plain (((plain.len - 1 : Nat) : Int) - i) fun dst =>
        (decodeSingleByte c.dataUnit c.precision dst line).bind (thenRest rest)

/-- littleendian.go:12-22: one iteration -/
def rowLittleEndian (c : Composite) (base : Addr) (plain : Win) (i : Nat) (b : Bytes) : Prog (Except Err Bytes) :=
  if !makeOK 1 (wrap64 (c.dx * 2)) then .panic
  else match readFull (wrap64 (c.dx * 2)).toNat b with
    | none => .ret (.error .readLittleEndian)
    | some (line, rest) => rowAt base plain (((plain.len - 1 : Nat) : Int) - i) fun dst =>
        (decodeLittleEndian c.dataUnit c.precision dst line).bind (thenRest rest)

/-- runlength.go:10-20: one iteration -/
def rowRunlength (c : Composite) (base : Addr) (plain : Win) (i : Nat) (b : Bytes) : Prog (Except Err Bytes) :=
  match readDelim 10 b with
  | none => .ret (.error .readRunlength)
  | some (line, rest) => rowAt base plain i fun dst =>
      (decodeRunlength (c.level.getD []) dst line.dropLast).bind (thenRest rest)

/-- `for i := range c.PlainData { body(i) }`: `todo` iterations from `i` -/
def rowLoop (body : Nat → Bytes → Prog (Except Err Bytes)) : (todo i : Nat) → Bytes → Prog (Except Err Bytes)
  | 0, _, b => .ret (.ok b)
  | todo + 1, i, b => (body i b).bind fun
    | .ok b' => rowLoop body todo (i + 1) b'
    | .error e => .ret (.error e)

/-- data.go:18-26 and 80-82 -/
def parseWith (c : Composite) (base : Addr) (plain : Win) (b : Bytes) : Encoding → Prog (Except Err Bytes)
  | .runlength => rowLoop (rowRunlength c base plain) plain.len 0 b
  | .littleEndian => rowLoop (rowLittleEndian c base plain) plain.len 0 b
  | .singleByte => rowLoop (rowSingleByte c base plain) plain.len 0 b
  | .unknown => .ret (.error .unknownEncoding)

/-- data.go:55-57: `todo` rows from index `i` -/
def allocRows (w : Nat) (base : Addr) : (todo i : Nat) → Prog Unit
  | 0, _ => .ret ()
  | todo + 1, i => .alloc (.floats (List.replicate w Fl.zero)) fun a => .setHead base i ⟨a, w⟩ (allocRows w base todo (i + 1))

/-! ### composites -/

/-- A composite and the memory it refers to: `c` holds the fields that are no slices of rows (its lists of rows are empty);
the arrays of PlainData, DataZ and Data (each a slice of the array at `base`; nil slices are empty). -/
structure Handle where
  c : Composite
  base : Addr
  plain : Win
  dataZ : List Win
  data : Win

/-- data.go:49-61, from the composite with the header data; the slice PlainData refers to -/
def parseData (c : Composite) (b : Bytes) : Prog (Addr × Win × Except Err Bytes) :=
  if c.px = 0 ∨ c.py = 0 then .ret (0, ⟨0, 0, 0⟩, .error .headerRequired)
  else if !makeOK 24 c.py then .panic
  else if !makeOK 4 c.px then .panic
  else
    let plain : Win := ⟨0, c.py.toNat, c.py.toNat⟩
    .alloc (.heads (List.replicate c.py.toNat Row.nil)) fun base =>
      (allocRows c.px.toNat base c.py.toNat 0).bind fun _ =>
        (parseWith c base plain b (identifyEncoding c)).bind fun r => .ret (base, plain, r)

/-- radolan.go:132-154 -/
def newComposite (E : Env) (input : Bytes) : Prog (Handle × Option Err) :=
  match parseHeader E input Composite.zero with
  | .panic => .panic
  | .err e c => .ret (⟨c, 0, ⟨0, 0, 0⟩, [], ⟨0, 0, 0⟩⟩, some e)
  | .ok rest c => (parseData c rest).bind fun
    | (base, plain, .error e) => .ret (⟨c, base, plain, [], ⟨0, 0, 0⟩⟩, some e)
    | (base, plain, .ok _) =>
      -- data.go:65-77
      match Heap.arrange c.py c.dy plain with
      | none => .panic
      | some v => .ret (⟨calibrateProjection E { c with dz := v.dataZ.length }, base, v.plain, v.dataZ, v.data⟩,
          if c.dataUnit = Unit_unknown then some .unknownUnit else none)

/-- radolan.go:203-208 -/
def Handle.AtZ (h : Handle) (x y z : Int) : Prog F32 :=
  if x < 0 ∨ y < 0 ∨ z < 0 ∨ h.c.dx ≤ x ∨ h.c.dy ≤ y ∨ h.c.dz ≤ z then .ret .nan
  else match h.dataZ[z.toNat]? with
    | none => .panic
    | some s => rowAt h.base s y fun r => if x < r.len then .load r.addr x.toNat .ret else .panic

/-- radolan.go:196-198 -/
def Handle.At (h : Handle) (x y : Int) : Prog F32 := h.AtZ x y 0

/-! ### what a handle means -/

/-- the values of the row whose header is at index `i` of the array at `base` -/
def rowOf (m : Mem) (base : Addr) (i : Nat) : List F32 :=
  match m base with
  | some (.heads l) => match l[i]? with
    | some r => match m r.addr with
      | some (.floats v) => v.take r.len
      | _ => []
    | none => []
  | _ => []

/-- the rows of a slice -/
def rowsOf (m : Mem) (base : Addr) (s : Win) : List (List F32) := (List.range s.len).map fun i => rowOf m base (s.off + i)

/-- the composite a handle stands for -/
def Handle.view (m : Mem) (h : Handle) : Composite :=
  { h.c with plainData := rowsOf m h.base h.plain, dataZ := h.dataZ.map (rowsOf m h.base), data := rowsOf m h.base h.data }

end Radolan.Conc
