/-
What the checksums in a bzip2 file vouch for, whatever the rest of the file consists of.
-/
import Verif.Spec.Bzip2

namespace Spec.Bzip2
open Go

/-- A stream after its first 32 bits, its blocks left uninterpreted: every portion of the data has the checksum that stands
before its block, and the combination of those checksums stands at the end. `c`: the combined checksum so far. -/
inductive Sums : Nat → Bytes → List Bool → Prop
  | done {c} : Sums c [] (bits 48 0x177245385090 ++ bits 32 c)
  | block {c data more ws} (w : List Bool) : Sums (combine c (crc data)) more ws →
      Sums c (data ++ more) (bits 48 0x314159265359 ++ bits 32 (crc data) ++ w ++ ws)

/-- The data of one or several streams, all of whose checksums are right. -/
inductive Vouched : Bytes → List Bool → Prop
  | last {data w pad level} : 1 ≤ level → level ≤ 9 → Sums 0 data w → pad.length < 8 →
      Vouched data (bits 16 0x425a ++ bits 8 0x68 ++ bits 8 (0x30 + level) ++ w ++ pad)
  | more {data w pad level data' ws} : 1 ≤ level → level ≤ 9 → Sums 0 data w → pad.length < 8 → Vouched data' ws →
      Vouched (data ++ data') (bits 16 0x425a ++ bits 8 0x68 ++ bits 8 (0x30 + level) ++ w ++ pad ++ ws)

end Spec.Bzip2
