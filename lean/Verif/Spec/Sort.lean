/-
The contract of `sort.Slice` (Go standard library) and the notions used for archives.
-/
import Verif.Model.Composite

namespace Spec
open Go Radolan

/-- What `sort.Slice` guarantees for any less function: the slice is permuted, and if the less function is a
strict weak order, no element is less than an earlier one. Nothing is said about equal elements (not stable). -/
def IsSortSlice (sortSlice : (Composite → Composite → Bool) → List Composite → List Composite) : Prop :=
  ∀ less l, (sortSlice less l).Perm l ∧
    ((∀ a, less a a = false) → (∀ a b c, less a b = true → less b c = true → less a c = true) →
      (∀ a b c, less a b = false → less b c = false → less a c = false) →
      (sortSlice less l).Pairwise fun x y => less y x = false)

/-- the entry parses without any error -/
def ParsesTo (E : Env) (b : Bytes) (c : Composite) : Prop := NewComposite E b = .ret c none

/-- a concrete sort meeting the contract (used in examples): insertion sort -/
def insertBy (less : Composite → Composite → Bool) (a : Composite) : List Composite → List Composite
  | [] => [a]
  | b :: l => if less b a then b :: insertBy less a l else a :: b :: l

def insertionSort (less : Composite → Composite → Bool) : List Composite → List Composite
  | [] => []
  | a :: l => insertBy less a (insertionSort less l)

end Spec
