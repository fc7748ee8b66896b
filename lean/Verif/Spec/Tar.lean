/-
The tar format (POSIX ustar, and the older V7 and GNU headers without extensions), and readers that fail in one way.
-/
import Verif.Spec.Stream

namespace Spec.Tar
open Go

/-- the reader in state `s` delivers exactly the bytes `b`, and then the error `e` -/
def DeliversThen (S : Source) (s : S.State) (b : Bytes) (e : IOErr) : Prop :=
  ∃ ok rem idle, Faithful S ok rem idle ∧ ok s ∧ rem s = b ∧
    ∀ s n e', ok s → 0 < n → (S.read s n).2.1 = some e' → e' = e

/-- `len` bytes of a header block from offset `off` on -/
def field (h : Bytes) (off len : Nat) : Bytes := (h.drop off).take len

/-- octal digits, most significant first -/
inductive Octal : Bytes → Nat → Prop
  | nil : Octal [] 0
  | snoc {ds v d} : Octal ds v → d ≤ 7 → Octal (ds ++ [48 + UInt8.ofNat d]) (8 * v + d)

/-- only spaces and NULs -/
def Blank (f : Bytes) : Prop := ∀ c ∈ f, c = 32 ∨ c = 0

/-- a numeric field: octal digits, with spaces and NULs before and after (a blank field is 0) -/
def NumField (f : Bytes) (v : Nat) : Prop := ∃ pre ds post, f = pre ++ ds ++ post ∧ Blank pre ∧ Blank post ∧ Octal ds v

/-- the sum of the bytes of a header block, the eight bytes of the checksum field counted as spaces -/
def checksum (h : Bytes) : Nat := ((h.take 148).map UInt8.toNat).sum + 8 * 32 + ((h.drop 156).map UInt8.toNat).sum

/-- the well-formed header blocks of an entry with `size` bytes in its size field and the type flag `t`. Fields and
offsets: mode 100, uid 108, gid 116, size 124, mtime 136, checksum 148, type flag 156, magic 257, devmajor 329,
devminor 337. The end of the block is not the mark "tar" of the star archiver. -/
structure HeaderBlock (h : Bytes) (size : Nat) (t : UInt8) : Prop where
  length : h.length = 512
  mode : ∃ v, NumField (field h 100 8) v
  uid : ∃ v, NumField (field h 108 8) v
  gid : ∃ v, NumField (field h 116 8) v
  size : NumField (field h 124 12) size
  mtime : ∃ v, NumField (field h 136 12) v
  sum : NumField (field h 148 8) (checksum h)
  type : h[156]? = some t
  devmajor : ∃ v, NumField (field h 329 8) v
  devminor : ∃ v, NumField (field h 337 8) v
  noStar : field h 508 4 ≠ [116, 97, 114, 0]

/-- `m` is a file with the content `c` as it is stored in an archive: a header with type flag '0' or '7', the content, and
padding to a multiple of 512 bytes -/
def Member (m c : Bytes) : Prop :=
  ∃ h pad, m = h ++ c ++ pad ∧ (HeaderBlock h c.length 48 ∨ HeaderBlock h c.length 55) ∧ pad.length < 512 ∧
    512 ∣ c.length + pad.length

/-- `m` is something without content as it is stored in an archive: link (1), symbolic link (2), character device (3),
block device (4), directory (5) or fifo (6) -/
def NoContent (m : Bytes) : Prop := ∃ size t, HeaderBlock m size t ∧ 49 ≤ t ∧ t ≤ 54

/-- a sequence of members -/
inductive Members : Bytes → List Bytes → Prop
  | nil : Members [] []
  | cons {m c ms cs} : Member m c → Members ms cs → Members (m ++ ms) (c :: cs)

/-- none of the blocks of 512 bytes has one of the letters x, g, L, K and S at the place of the type flag (these announce
extensions of the format) -/
def NoExtensions (b : Bytes) : Prop :=
  ∀ k t, b[512 * k + 156]? = some t → t ≠ 120 ∧ t ≠ 103 ∧ t ≠ 76 ∧ t ≠ 75 ∧ t ≠ 83

/-- a block of zeros -/
def zeroBlock : Bytes := List.replicate 512 0

/-- the end mark of an archive: two blocks of zeros (whatever comes after them is not part of the archive) -/
def EndMark (b : Bytes) : Prop := ∃ junk, b = zeroBlock ++ zeroBlock ++ junk

end Spec.Tar
