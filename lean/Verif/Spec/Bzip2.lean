/-
What a bzip2 compressor does with a block of data (without the entropy coding): the run-length code and the
Burrows-Wheeler transform.
-/
import Verif.Go.Basic
import Mathlib.Data.List.Rotate

namespace Spec.Bzip2
open Go

/-- The Burrows-Wheeler transform: the rotations of the block in lexicographic order; the last byte of each is the
transformed block, and `o` is a row that holds the block itself. -/
def Transformed (s L : Bytes) (o : Nat) : Prop :=
  ∃ R : List Bytes, R.Perm ((List.range s.length).map s.rotate) ∧ R.Pairwise (· ≤ ·) ∧ R[o]? = some s ∧
    L = R.map fun r => r.getLastD 0

/-- The run-length code before the transform: four equal bytes are followed by the number of further ones, which are left
out. (`Runs data code`; a run may be split, except where the decoder would take the next bytes for a part of it.) -/
inductive Runs : Bytes → Bytes → Prop
  | nil : Runs [] []
  | short {b k data code} : 1 ≤ k → k ≤ 3 → data.head? ≠ some b → Runs data code →
      Runs (List.replicate k b ++ data) (List.replicate k b ++ code)
  | long {b k data code} : k ≤ 255 → (k = 0 → data.head? ≠ some b) → Runs data code →
      Runs (List.replicate (4 + k) b ++ data) (List.replicate 4 b ++ UInt8.ofNat k :: code)

/-- The canonical Huffman code with the given code lengths (of at most 20 bits): symbols in order of their length, symbols
of equal length in their order; the number of a code word, a fraction of 2^20, is the share of the code space the symbols
before take. -/
def codeNumber (lengths : List Nat) (l v : Nat) : Nat :=
  ((lengths.zipIdx.filter fun q => q.1 < l || (q.1 == l && q.2 < v)).map fun q => 2 ^ (20 - q.1)).sum

/-- the code word of symbol `v`: the leading bits of that number, as many as the symbol's length -/
def codeword (lengths : List Nat) (v : Nat) : List Bool :=
  let l := lengths.getD v 0
  (List.range l).map fun i => (codeNumber lengths l v).testBit (19 - i)

/-- lengths of 1 to 20 bits that use the code space up -/
def Complete (lengths : List Nat) : Prop :=
  (∀ l ∈ lengths, 1 ≤ l ∧ l ≤ 20) ∧ (lengths.map fun l => 2 ^ (20 - l)).sum = 2 ^ 20

/-- the length of a run, written with the symbols 0 (RUNA) and 1 (RUNB), least significant first -/
def runLength : List Nat → Nat
  | [] => 0
  | d :: ds => d + 1 + 2 * runLength ds

/-- The move-to-front code: a byte is written as its position in a list of the bytes in use, in which it then becomes the
first; maximal runs of the first byte are written as the length of the run, another position as its successor; the end
symbol closes the block. (`Moved stop m data symbols`) -/
inductive Moved (stop : Nat) : Bytes → Bytes → List Nat → Prop
  | done {m} : Moved stop m [] [stop]
  | byte {m b i data syms} : m[i + 1]? = some b → Moved stop (b :: m.eraseIdx (i + 1)) data syms →
      Moved stop m (b :: data) ((i + 2) :: syms)
  | run {m b ds data syms} : m.head? = some b → ds ≠ [] → (∀ d ∈ ds, d ≤ 1) → data.head? ≠ some b → Moved stop m data syms →
      Moved stop m (List.replicate (runLength ds) b ++ data) (ds ++ syms)

/-- the bits of symbols; every 50 of them use the table of code lengths the next selector names -/
def symbolBits (tables : List (List Nat)) (sels : List Nat) (syms : List Nat) : List Bool :=
  syms.zipIdx.flatMap fun q => codeword (tables.getD (sels.getD (q.2 / 50) 0) []) q.1

/-- a number in `k` bits, most significant first -/
def bits (k x : Nat) : List Bool := (List.range k).map fun i => x.testBit (k - 1 - i)

/-- the selectors, each as its position in a list of the tables, in which it then becomes the first, in unary -/
inductive SelectorBits : List Nat → List Nat → List Bool → Prop
  | nil {m} : SelectorBits m [] []
  | cons {m c s sels w} : m[c]? = some s → SelectorBits (s :: m.eraseIdx c) sels w →
      SelectorBits m (s :: sels) (List.replicate c true ++ false :: w)

/-- code lengths, each as its difference to the last one: 10 is one more, 11 one less, 0 is the end -/
def lengthBits : Nat → List Nat → List Bool
  | _, [] => []
  | cur, l :: ls => (List.replicate (l - cur) [true, false]).flatten ++ (List.replicate (cur - l) [true, true]).flatten ++
      false :: lengthBits l ls

/-- a table of code lengths -/
def tableBits (ls : List Nat) : List Bool := bits 5 (ls.headD 0) ++ lengthBits (ls.headD 0) ls

/-- the bytes in use: which of 16 ranges, and for each of those which of its 16 bytes -/
def usedBits (used : Nat → Bool) : List Bool :=
  let range i := (List.range 16).map fun j => used (16 * i + j)
  (List.range 16).map (fun i => (range i).any id) ++ (List.range 16).flatMap fun i => if (range i).any id then range i else []

/-- a block (after its checksum): the row of the transform, the bytes in use, the tables, the selectors and the symbols -/
def Block (size : Nat) (data : Bytes) (w : List Bool) : Prop :=
  ∃ code L o tables sels syms sw, data ≠ [] ∧ Runs data code ∧ Transformed code L o ∧ code.length ≤ size ∧
    let alphabet := (List.range 256).filter fun b => L.contains (UInt8.ofNat b)
    Moved (alphabet.length + 1) (alphabet.map UInt8.ofNat) L syms ∧
    2 ≤ tables.length ∧ tables.length ≤ 6 ∧ (∀ t ∈ tables, Complete t ∧ t.length = alphabet.length + 2) ∧
    sels.length < 2 ^ 15 ∧ syms.length ≤ 50 * sels.length ∧ SelectorBits (List.range tables.length) sels sw ∧
    w = bits 1 0 ++ bits 24 o ++ usedBits (fun b => L.contains (UInt8.ofNat b)) ++ bits 3 tables.length ++ bits 15 sels.length ++
      sw ++ tables.flatMap tableBits ++ symbolBits tables sels syms

/-- the bits of bytes -/
def fileBits (b : Bytes) : List Bool := b.flatMap fun x => bits 8 x.toNat

/-- one step of the CRC with the polynomial 0x04c11db7 -/
def crcStep (c : Nat) (b : Bool) : Nat :=
  let d := 2 * c % 2 ^ 32
  if c.testBit 31 != b then d ^^^ 0x04c11db7 else d

/-- the CRC of a block: it starts with ones and is inverted in the end -/
def crc (data : Bytes) : Nat := 2 ^ 32 - 1 - (fileBits data).foldl crcStep (2 ^ 32 - 1)

/-- the checksums of the blocks are combined: rotated by one bit and added without carry -/
def combine (c k : Nat) : Nat := (2 * c % 2 ^ 32 + c / 2 ^ 31) ^^^ k

/-- blocks and the end of the stream; `c`: the combined checksum so far -/
inductive Blocks (size : Nat) : Nat → Bytes → List Bool → Prop
  | done {c} : Blocks size c [] (bits 48 0x177245385090 ++ bits 32 c)
  | block {c data w more ws} : Block size data w → Blocks size (combine c (crc data)) more ws →
      Blocks size c (data ++ more) (bits 48 0x314159265359 ++ bits 32 (crc data) ++ w ++ ws)

/-- A file that holds the data compressed: one or several streams, each "BZh", a digit for the size of the blocks, and the
blocks, filled up to whole bytes. -/
inductive Compressed : Bytes → Bytes → Prop
  | one {data file w pad level} : 1 ≤ level → level ≤ 9 → Blocks (100000 * level) 0 data w → pad.length < 8 →
      fileBits file = bits 16 0x425a ++ bits 8 0x68 ++ bits 8 (0x30 + level) ++ w ++ pad → Compressed data file
  | more {data file data' file'} : Compressed data file → Compressed data' file' → Compressed (data ++ data') (file ++ file')

end Spec.Bzip2
