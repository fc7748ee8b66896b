/-
C74: what goroutines using the library do. A client parses inputs, reads composites with AtZ and assigns to the elements of
its own composites, in any order and depending on everything it has seen. `Client.run` says what it computes when it is alone
(in terms of values, Model/Composite.lean); `Client.prog` is the same client as a sequence of memory accesses (Model/Conc.lean),
which other goroutines may interleave with theirs.
-/
import Verif.Model.Conc
import Verif.Props.Memory

namespace Props
open Go Radolan
open Radolan.Conc

/-- what one goroutine does, with a result of type β -/
inductive Client (β : Type) : Type where
  | done (b : β)
  /-- call NewComposite; the composite becomes the next one of the goroutine -/
  | parse (input : Bytes) (k : Option Err → Client β)
  /-- call AtZ on its n-th composite -/
  | atZ (n : Nat) (x y z : Int) (k : F32 → Client β)
  /-- assign to an element of PlainData, DataZ or Data of its n-th composite -/
  | write (n : Nat) (w : Write) (k : Client β)
  /-- call AtZ on the n-th composite shared by all goroutines -/
  | sharedAtZ (n : Nat) (x y z : Int) (k : F32 → Client β)

/-! ### alone -/

/-- the composite after `v` has been stored in column `x` of plain row `r`; the layers consist of plain rows -/
def put (c : Composite) (r x : Nat) (v : F32) : Composite :=
  { c with
    plainData := c.plainData.modify r (·.set x v)
    dataZ := c.dataZ.mapIdx fun z layer => layer.mapIdx fun y row => if plainRow c z y = r then row.set x v else row
    data := c.data.mapIdx fun y row => if plainRow c 0 y = r then row.set x v else row }

/-- an assignment; `none` is an index panic -/
def Write.apply (c : Composite) : Write → Option Composite
  | .plain r x v => (c.plainData[r]?).bind fun row => if x < row.length then some (put c r x v) else none
  | .voxel z y x v => (c.dataZ[z]?).bind fun layer => (layer[y]?).bind fun row =>
      if x < row.length then some (put c (plainRow c z y) x v) else none
  | .data y x v => (c.data[y]?).bind fun row => if x < row.length then some (put c (plainRow c 0 y) x v) else none

/-- the result of a client that owns the composites `cs`, and its composites in the end; `none` is a panic -/
def Client.run (E : Env) (shared : List Composite) : Client β → (cs : List Composite) → Option (β × List Composite)
  | .done b, cs => some (b, cs)
  | .parse input k, cs => match NewComposite E input with
    | .panic => none
    | .ret c err => (k err).run E shared (cs ++ [c])
  | .atZ n x y z k, cs => (cs[n]?).bind fun c => (c.AtZ x y z).bind fun v => (k v).run E shared cs
  | .write n w k, cs => (cs[n]?).bind fun c => (w.apply c).bind fun c' => k.run E shared (cs.set n c')
  | .sharedAtZ n x y z k, cs => (shared[n]?).bind fun c => (c.AtZ x y z).bind fun v => (k v).run E shared cs

/-! ### in memory -/

/-- the assignment `s[i][x] = v` -/
def assign (base : Addr) (s : Heap.Win) (i x : Nat) (v : F32) : Prog Unit :=
  rowAt base s i fun r => storeAt r x v (.ret ())

/-- an assignment through a composite -/
def Write.prog (h : Handle) : Write → Prog Unit
  | .plain r x v => assign h.base h.plain r x v
  | .voxel z y x v => match h.dataZ[z]? with
    | some s => assign h.base s y x v
    | none => .panic
  | .data y x v => assign h.base h.data y x v

/-- the memory accesses of a client that owns the composites `hs` -/
def Client.prog (E : Env) (shared : List Handle) : Client β → (hs : List Handle) → Prog (β × List Handle)
  | .done b, hs => .ret (b, hs)
  | .parse input k, hs => (newComposite E input).bind fun q => (k q.2).prog E shared (hs ++ [q.1])
  | .atZ n x y z k, hs => match hs[n]? with
    | some h => (h.AtZ x y z).bind fun v => (k v).prog E shared hs
    | none => .panic
  | .write n w k, hs => match hs[n]? with
    | some h => (w.prog h).bind fun _ => k.prog E shared hs
    | none => .panic
  | .sharedAtZ n x y z k, hs => match shared[n]? with
    | some h => (h.AtZ x y z).bind fun v => (k v).prog E shared hs
    | none => .panic

end Props
