/-
The memory behind PlainData, DataZ and Data: slices of slices sharing one array of row headers.
(The value model in Model/Data.lean copies rows; this file models which memory the exported fields of a returned
composite refer to.)
-/
import Verif.Model.Data

namespace Radolan.Heap
open Go

/-- A slice of type [][]float32 whose backing array is the one allocated at data.go:54. -/
structure Win where
  off : Nat
  len : Nat
  cap : Nat

/-- The memory of one composite: the backing array of PlainData, holding row headers (the address of a row array,
`none` for nil; every row slice spans its whole array), and the row arrays by address. -/
structure Mem where
  hdr : List (Option Nat)
  arr : List (List F32)

/-- the exported fields PlainData, DataZ, Data -/
structure View where
  plain : Win
  dataZ : List Win
  data : Win

/-- slice expression `s[a:b]`; `none` is the run-time panic -/
def Win.slice (s : Win) (a b : Int) : Option Win :=
  if 0 ≤ a ∧ a ≤ b ∧ b ≤ s.cap then some ⟨s.off + a.toNat, (b - a).toNat, s.cap - a.toNat⟩ else none

/-- the row header `s[i]` -/
def Mem.row (m : Mem) (s : Win) (i : Nat) : Option Nat := if i < s.len then (m.hdr[s.off + i]?).join else none

/-- reading `s[i][x]`; `none` is the run-time panic -/
def Mem.load (m : Mem) (s : Win) (i x : Nat) : Option F32 :=
  (m.row s i).bind fun a => (m.arr[a]?).bind (·[x]?)

/-- the assignment `s[i][x] = v`; `none` is the run-time panic -/
def Mem.store (m : Mem) (s : Win) (i x : Nat) (v : F32) : Option Mem :=
  (m.row s i).bind fun a => (m.arr[a]?).bind fun r =>
    if x < r.length then some { m with arr := m.arr.set a (r.set x v) } else none

/-- `append(s, r)` with a new row while `len(s) < cap(s)`: written in place; the result is `s` one row longer.
`none`: the capacity is exhausted (Go then copies to a new array, which concerns no other slice). -/
def Mem.append (m : Mem) (s : Win) (r : List F32) : Option (Mem × Win) :=
  if s.len < s.cap then
    some (⟨m.hdr.set (s.off + s.len) (some m.arr.length), m.arr ++ [r]⟩, { s with len := s.len + 1 })
  else none

/-- data.go:55-57: `todo` rows from index `i` -/
def allocLoop (w : Nat) : (todo i : Nat) → Mem → Mem
  | 0, _, m => m
  | todo + 1, i, m =>
    allocLoop w todo (i + 1) ⟨m.hdr.set i (some m.arr.length), m.arr ++ [List.replicate w Fl.zero]⟩

/-- data.go:54-57 -/
def alloc (n w : Nat) : Mem × Win := (allocLoop w n 0 ⟨List.replicate n none, []⟩, ⟨0, n, n⟩)

/-- the decoding loops write the elements of each row in place; here all of them are written, row by row from index
`i` (simplified: the values come from the value model, Model/Data.lean) -/
def fill (s : Win) : (i : Nat) → List (List F32) → Mem → Mem
  | _, [], m => m
  | i, r :: rs, m =>
    match m.row s i with
    | some a => fill s (i + 1) rs { m with arr := m.arr.set a r }
    | none => m

/-- data.go:68-70: `todo` layers from index `i` -/
def layers (plain : Win) (dy : Int) : (todo i : Nat) → Option (List Win)
  | 0, _ => some []
  | todo + 1, i => do
    let l ← plain.slice (wrap64 (dy * i)) (wrap64 (dy * (i + 1)))
    let ls ← layers plain dy todo (i + 1)
    some (l :: ls)

/-- data.go:65-77; `none` is a run-time panic -/
def arrange (py dy : Int) (plain : Win) : Option View :=
  if dy = 0 then none
  else do
    let dz ←
      if py.tmod dy = 0 then
        if !makeOK 24 (py.tdiv dy) then none
        else layers plain dy (py.tdiv dy).toNat 0
      else do
        let l ← plain.slice (wrap64 (py - dy)) plain.len
        some [l]
    let d ← dz[0]?
    some ⟨plain, dz, d⟩

/-- data.go:49-77: the memory and the slices of a composite with the given plain data -/
def build (c : Composite) : Option (Mem × View) := do
  let (m, plain) := alloc c.py.toNat c.px.toNat
  let v ← arrange c.py c.dy plain
  some (fill plain 0 c.plainData m, v)

/-- reading `DataZ[z][y][x]` -/
def Mem.loadZ (m : Mem) (v : View) (z y x : Nat) : Option F32 := (v.dataZ[z]?).bind fun s => m.load s y x

end Radolan.Heap
