/-
C108: the bzip2 decompressor on arbitrary files.
-/
import Verif.Lemmas.BzSafe
import Verif.Props.Bzip2

namespace Props
open Go Radolan

/-- the states of the decompressor of a file after any number of calls of Read, with buffers of any size -/
inductive Reached (file : Bytes) (e : IOErr) : Bz.Reader → Prop
  | start : Reached file e (Bz.newReader file e)
  | next {z n out err z'} : Reached file e z → Bz.read z n = .ok (out, err, z') → Reached file e z'

theorem Reached.inv {file : Bytes} {e : IOErr} {z : Bz.Reader} (h : Reached file e z) : Bz.Inv z := by
  induction h with
  | start => exact Bz.inv_new file e
  | next _ hr ih =>
    have := Bz.read_safe ih
    rename_i n _ _ _ _
    have := this n
    rw [hr] at this
    exact this.2.2

/-- C108. Whatever bytes the file consists of and however the reader behind it ends, and whatever calls were made before:
Read does not panic and returns (no index leaves its array, no tree is too deep or has too many nodes, no loop runs on), it
fills at most the buffer, and with an empty result for a buffer that is not empty comes an error. -/
theorem C108_never_panics {file : Bytes} {e : IOErr} {z : Bz.Reader} (h : Reached file e z) (n : Nat) :
    ∃ out err z', Bz.read z n = .ok (out, err, z') ∧ out.length ≤ n ∧ (0 < n → out = [] → err ≠ none) := by
  have := Bz.read_safe h.inv n
  generalize Bz.read z n = x at this
  cases x with
  | panic => exact this.elim
  | err _ => exact this.elim
  | ok x =>
    obtain ⟨out, err, z'⟩ := x
    exact ⟨out, err, z', rfl, this.1, this.2.1⟩

/-- C108. However large the data are that a file expands to, the decompressor never holds more than a block of 900000 table
entries. -/
theorem C108_memory {file : Bytes} {e : IOErr} {z : Bz.Reader} (h : Reached file e z) : z.block.pre.length ≤ 900000 := h.inv.2.2

/-- concrete: two reads of a compressed file; a file cut after the magic number; a file whose block has a wrong checksum byte -/
example (n m : Nat) : ∃ out err z', Bz.read (Bz.newReader sampleFile .eof) n = .ok (out, err, z') ∧ Reached sampleFile .eof z' ∧
    ∃ out err z'', Bz.read z' m = .ok (out, err, z'') := by
  obtain ⟨out, err, z', h, _⟩ := C108_never_panics (.start : Reached sampleFile .eof _) n
  obtain ⟨out', err', z'', h', _⟩ := C108_never_panics (.next .start h) m
  exact ⟨out, err, z', h, .next .start h, out', err', z'', h'⟩

example : ∃ z', Bz.read (Bz.newReader [66, 90, 104] .eof) 5 = .ok ([], some .unexpectedEOF, z') := ⟨_, rfl⟩

example (n : Nat) : ∃ out err z', Bz.read (Bz.newReader (sampleFile.set 12 0) .eof) n = .ok (out, err, z') ∧ out.length ≤ n :=
  let ⟨out, err, z', h, hl, _⟩ := C108_never_panics (.start : Reached (sampleFile.set 12 0) .eof _) n
  ⟨out, err, z', h, hl⟩

end Props
