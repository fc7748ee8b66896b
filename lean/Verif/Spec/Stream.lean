/-
What an io.Reader delivers.
-/
import Verif.Go.Bufio

namespace Spec
open Go

/-- The contract of an io.Reader that delivers a finite byte sequence: `ok` are the states it can be in, and `rem s` is
what is left to be delivered in state `s`. A call of Read with a non-empty buffer places the next bytes there (as many as
it likes, possibly none); once it returns an error, nothing is left (the error may come with the last bytes or alone, and
comes again in later calls). `idle s` bounds the number of consecutive calls that deliver neither a byte nor an error;
bufio gives up after 100. The error must not be bufio.ErrBufferFull, which bufio.Reader uses internally. -/
structure Faithful (S : Source) (ok : S.State → Prop) (rem : S.State → Bytes) (idle : S.State → Nat) : Prop where
  stays : ∀ s n, ok s → 0 < n → ok (S.read s n).2.2
  fits : ∀ s n, ok s → 0 < n → (S.read s n).1.length ≤ n
  delivers : ∀ s n, ok s → 0 < n → rem s = (S.read s n).1 ++ rem (S.read s n).2.2
  ends : ∀ s n e, ok s → 0 < n → (S.read s n).2.1 = some e → rem (S.read s n).2.2 = [] ∧ e ≠ .bufferFull
  progress : ∀ s n, ok s → 0 < n → (S.read s n).2.1 = none → (S.read s n).1 = [] → idle (S.read s n).2.2 < idle s
  patience : ∀ s, ok s → idle s < 100

/-- the reader in state `s` delivers exactly the bytes `b` -/
def Delivers (S : Source) (s : S.State) (b : Bytes) : Prop := ∃ ok rem idle, Faithful S ok rem idle ∧ ok s ∧ rem s = b

/-- one call of Read on a scripted reader -/
def scriptRead (e : IOErr) (withLast : Bool) : List Bytes → Nat → Bytes × Option IOErr × List Bytes
  | [], _ => ([], some e, [])
  | [c], n => if c.length ≤ n then (c, if withLast then some e else none, []) else (c.take n, none, [c.drop n])
  | c :: cs, n => if c.length ≤ n then (c, none, cs) else (c.take n, none, c.drop n :: cs)

/-- A scripted reader: each element of the script answers one call of Read. A chunk longer than the buffer of the caller
is delivered in parts. At the end of the script Read returns `e` forever; `withLast` makes it return the error together
with the last chunk already. -/
def script (e : IOErr) (withLast : Bool) : Source := ⟨List Bytes, scriptRead e withLast⟩

/-- a script in which no hundred calls in a row deliver nothing -/
def Lively (cs : List Bytes) : Prop := ∀ q, q <:+ cs → (q.takeWhile List.isEmpty).length < 100

end Spec
