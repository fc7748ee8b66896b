/-
Readers with a position, readers that stall, and tar readers.
-/
import Verif.Spec.Stream
import Verif.Spec.Api
import Verif.Model.Session

namespace Spec
open Go Radolan

/-- The *bufio.Reader `r` (buffer size `N`) is about to deliver exactly the bytes `b`: what it has buffered, then what
its io.Reader still delivers. (A pending error means that nothing is left in the io.Reader.) -/
def Unread {S : Source} (N : Nat) (r : Bufio.Reader S) (b : Bytes) : Prop :=
  ∃ later, Delivers S r.st later ∧ b = r.buf ++ later ∧ r.buf.length ≤ N ∧
    ∀ e, r.err = some e → later = [] ∧ e ≠ .bufferFull

/-- `f` is a complete file and nothing more: NewComposite parses it to `c` without error, but no proper prefix of it -/
def FileOf (E : Env) (f : Bytes) (c : Composite) : Prop :=
  NewComposite E f = .ret c none ∧ ∀ m, m < f.length → ∀ c', ¬ Success E (f.take m) c'

/-- The contract of an io.Reader that delivers a finite byte sequence and then stalls: it never returns an error, and
at the end it keeps answering "no bytes, no error". Before, it answers so less than a hundred times in a row. -/
structure Stalling (S : Source) (ok : S.State → Prop) (rem : S.State → Bytes) (idle : S.State → Nat) : Prop where
  stays : ∀ s n, ok s → 0 < n → ok (S.read s n).2.2
  fits : ∀ s n, ok s → 0 < n → (S.read s n).1.length ≤ n
  delivers : ∀ s n, ok s → 0 < n → rem s = (S.read s n).1 ++ rem (S.read s n).2.2
  silent : ∀ s n, ok s → 0 < n → (S.read s n).2.1 = none
  progress : ∀ s n, ok s → 0 < n → rem s ≠ [] → (S.read s n).1 = [] → idle (S.read s n).2.2 < idle s
  patience : ∀ s, ok s → idle s < 100

/-- the reader in state `s` delivers exactly the bytes `b` and then stalls -/
def StallsAfter (S : Source) (s : S.State) (b : Bytes) : Prop :=
  ∃ ok rem idle, Stalling S ok rem idle ∧ ok s ∧ rem s = b

/-- The contract of a tar reader: `cur s` is the unread part of the current entry, `later s` are the entries to come.
Next moves on to the next entry however much of the current one was read; after the last entry it reports the end, or an
error if the archive is damaged there. Read delivers the current entry and nothing else. -/
structure TarContract (T : Tar) (damaged : Bool) (ok : T.State → Prop) (cur : T.State → Bytes)
    (later : T.State → List Bytes) (idle : T.State → Nat) : Prop where
  reads : Faithful T.source ok cur idle
  keeps : ∀ s n, ok s → 0 < n → later (T.read s n).2.2 = later s
  next : ∀ s b bs, ok s → later s = b :: bs →
    ∃ s', T.next s = some (.entry, s') ∧ ok s' ∧ cur s' = b ∧ later s' = bs
  last : ∀ s, ok s → later s = [] → ∃ s', T.next s = some (if damaged then .error else .eof, s')

/-- the tar reader in state `s` stands before the entries of the archive `a` -/
def TarDelivers (T : Tar) (s : T.State) (a : Archive) : Prop :=
  ∃ ok cur later idle, TarContract T a.damaged ok cur later idle ∧ ok s ∧ later s = a.entries

/-- a scripted tar reader: the chunks answering the calls of Read for the current entry, and those for the entries to
come -/
def scriptTar (e : IOErr) (withLast damaged : Bool) : Tar where
  State := List Bytes × List (List Bytes)
  next s := match s.2 with
    | [] => some (if damaged then .error else .eof, s)
    | x :: xs => some (.entry, (x, xs))
  read s n := ((scriptRead e withLast s.1 n).1, (scriptRead e withLast s.1 n).2.1, (scriptRead e withLast s.1 n).2.2, s.2)

/-- one call of Read on a scripted reader that stalls at the end -/
def stallRead : List Bytes → Nat → Bytes × Option IOErr × List Bytes
  | [], _ => ([], none, [])
  | c :: cs, n => if c.length ≤ n then (c, none, cs) else (c.take n, none, c.drop n :: cs)

/-- a reader that delivers its script and then stalls -/
def stallScript : Source := ⟨List Bytes, stallRead⟩

end Spec
