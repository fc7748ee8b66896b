/-
io.Reader, bufio.Reader and io.ReadFull (Go standard library), as far as the parser uses them.
-/
import Verif.Go.Basic

namespace Go

/-- error values of package io and bufio that matter here; `other` is any further error -/
inductive IOErr where
  | eof | unexpectedEOF | noProgress | bufferFull | other (k : Nat)
  deriving DecidableEq, Repr

/-- An `io.Reader`: an arbitrary state machine. `read s n` is what `Read(p)` with `len(p) = n` does in state `s`:
the bytes placed into `p`, the error, and the new state. -/
structure Source where
  State : Type
  read : State → Nat → Bytes × Option IOErr × State

namespace Bufio

/-- `*bufio.Reader` (buffer size `N` is a parameter of the functions): the unread part `b.buf[b.r:b.w]`, the pending
error `b.err` and the state of the underlying reader -/
structure Reader (S : Source) where
  buf : Bytes
  err : Option IOErr
  st : S.State

variable {S : Source}

/-- bufio `fill`: at most `i` reads into the free part of the buffer (existing data was moved to its beginning) -/
def fillLoop (N : Nat) : (i : Nat) → Reader S → Reader S
  | 0, r => { r with err := some .noProgress }
  | i + 1, r =>
    let x := S.read r.st (N - r.buf.length)
    let r' : Reader S := ⟨r.buf ++ x.1, r.err, x.2.2⟩
    match x.2.1 with
    | some e => { r' with err := some e }
    | none => if 0 < x.1.length then r' else fillLoop N i r'

/-- `fill` with `maxConsecutiveEmptyReads = 100` -/
def fill (N : Nat) (r : Reader S) : Reader S := fillLoop N 100 r

/-- `bytes.IndexByte` -/
def indexByte (d : UInt8) : Bytes → Option Nat
  | [] => none
  | b :: bs => if b = d then some 0 else (indexByte d bs).map (· + 1)

/-- `ReadSlice`, the loop; `s` is the number of buffered bytes already searched. `none`: the loop does not end. -/
def readSlice (N : Nat) (d : UInt8) (s : Nat) (r : Reader S) : Option (Bytes × Option IOErr × Reader S) :=
  match indexByte d (r.buf.drop s) with
  | some i => some (r.buf.take (i + s + 1), none, { r with buf := r.buf.drop (i + s + 1) })
  | none =>
    match r.err with
    | some e => some (r.buf, some e, { r with buf := [], err := none })
    | none =>
      if N ≤ r.buf.length then some (r.buf, some .bufferFull, { r with buf := [] })
      else readSlice N d r.buf.length (fill N r)
partial_fixpoint

/-- `ReadBytes` / `ReadString` (`collectFragments`); `acc` are the fragments collected so far. `none`: the loop does
not end. -/
def readBytes (N : Nat) (d : UInt8) (acc : Bytes) (r : Reader S) : Option (Bytes × Option IOErr × Reader S) :=
  match readSlice N d 0 r with
  | none => none
  | some x =>
    match x.2.1 with
    | none => some (acc ++ x.1, none, x.2.2)
    | some e => if e = .bufferFull then readBytes N d (acc ++ x.1) x.2.2 else some (acc ++ x.1, some e, x.2.2)
partial_fixpoint

/-- `Read(p)` with `len(p) = n` -/
def read (N : Nat) (n : Nat) (r : Reader S) : Bytes × Option IOErr × Reader S :=
  if n = 0 then
    if 0 < r.buf.length then ([], none, r) else ([], r.err, { r with err := none })
  else if r.buf.length = 0 then
    match r.err with
    | some e => ([], some e, { r with err := none })
    | none =>
      if N ≤ n then -- large read, empty buffer: read directly
        let x := S.read r.st n
        (x.1, x.2.1, { r with st := x.2.2 })
      else -- one read
        let x := S.read r.st N
        if x.1.length = 0 then ([], x.2.1, { r with st := x.2.2 })
        else (x.1.take n, none, ⟨x.1.drop n, x.2.1, x.2.2⟩)
  else (r.buf.take n, none, { r with buf := r.buf.drop n })

/-- `io.ReadFull(r, p)` with `len(p) = n`: the loop of `io.ReadAtLeast`; `got` was read so far and `err` is the last
error. `none`: the loop does not end. -/
def readFull (N : Nat) (n : Nat) (got : Bytes) (err : Option IOErr) (r : Reader S) :
    Option (Bytes × Option IOErr × Reader S) :=
  if got.length < n ∧ err = none then
    let x := read N (n - got.length) r
    readFull N n (got ++ x.1) x.2.1 x.2.2
  else if n ≤ got.length then some (got, none, r)
  else if 0 < got.length ∧ err = some .eof then some (got, some .unexpectedEOF, r)
  else some (got, err, r)
partial_fixpoint

/-- `bufio.NewReader(rd)` for an `rd` that is not a `*bufio.Reader` itself -/
def newReader (S : Source) (s : S.State) : Reader S := ⟨[], none, s⟩

end Bufio
end Go
