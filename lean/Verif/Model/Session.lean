/-
Calls of NewComposite and NewComposites with everything a caller can observe of the reader: the position after the call.
-/
import Verif.Model.Reader

namespace Radolan
open Go Go.Bufio

/-- how a call of NewComposite on a *bufio.Reader ends: with data (and nil or ErrUnknownUnit) and the reader as the call
leaves it, with another error, or with a panic -/
inductive Call (S : Source) where
  | data (c : Composite) (err : Option Err) (r : Reader S)
  | fail (c : Composite) (e : Err)
  | panic

/-- radolan.go:132-154 on a `*bufio.Reader` with buffer size `N`; `none`: the call does not return -/
def callFrom {S : Source} (E : Env) (N : Nat) (r : Reader S) : Option (Call S) :=
  match newCompositeMR E N r Composite.zero with
  | none => none
  | some (.ok r' c) => some (.data c (if c.dataUnit = Unit_unknown then some .unknownUnit else none) r')
  | some (.err e c) => some (.fail c e)
  | some .panic => some .panic

/-- radolan.go:132-154 for an `rd` in state `s` that is not a `*bufio.Reader`: the call makes one of its own with a
buffer of 4096 bytes -/
def call (E : Env) (S : Source) (s : S.State) : Option (Call S) := callFrom E 4096 (newReader S s)

/-- `n` calls of NewComposite in a row on the same `*bufio.Reader`, as long as they return data and no error -/
def callsFrom {S : Source} (E : Env) (N : Nat) : Nat → Reader S → Option (List Composite × Reader S)
  | 0, r => some ([], r)
  | n + 1, r =>
    match callFrom E N r with
    | some (.data c none r') => (callsFrom E N n r').map fun x => (c :: x.1, x.2)
    | _ => none

/-! ### archive/tar -/

/-- results of `tarReader.Next()`: positioned at the next entry, `io.EOF`, or another error -/
inductive TarNext where
  | entry | eof | error
  deriving DecidableEq

/-- A `*tar.Reader` as NewComposites uses it: an arbitrary state machine with the methods Next and Read; `none`: the
call of Next does not return. (Go/Tar.lean has the one of the standard library.) -/
structure Tar where
  State : Type
  next : State → Option (TarNext × State)
  read : State → Nat → Bytes × Option IOErr × State

/-- the tar reader as io.Reader -/
def Tar.source (T : Tar) : Source := ⟨T.State, T.read⟩

/-- radolan.go:163-178, the loop over the archive; `cs` are the composites so far. `none`: the loop does not end;
`some none`: a panic. -/
def tarLoop (E : Env) (T : Tar) (cs : List Composite) (s : T.State) :
    Option (Option (Except ArchErr (List Composite))) :=
  match T.next s with
  | none => none
  | some (.eof, _) => some (some (.ok cs))
  | some (.error, _) => some (some (.error .tar))
  | some (.entry, s') =>
    match call E T.source s' with
    | none => none
    | some .panic => some none
    | some (.fail _ e) => some (some (.error (.composite e)))
    | some (.data _ (some e) _) => some (some (.error (.composite e)))
    | some (.data c none r) => tarLoop E T (cs ++ [c]) r.st
partial_fixpoint

/-- radolan.go:158-183 after `tar.NewReader`; `sortSlice` stands for `sort.Slice` with the given less function -/
def NewCompositesTar (E : Env) (sortSlice : (Composite → Composite → Bool) → List Composite → List Composite)
    (T : Tar) (s : T.State) : Option (Option (Except ArchErr (List Composite))) :=
  match tarLoop E T [] s with
  | none => none
  | some none => some none
  | some (some (.error e)) => some (some (.error e))
  | some (some (.ok cs)) => some (some (.ok (sortSlice (fun x y => decide (x.forecastTime < y.forecastTime)) cs)))

end Radolan
