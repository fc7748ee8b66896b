/-
archive/tar (Go standard library): the Reader as NewComposites uses it, on an arbitrary io.Reader. Headers that only
exist to modify the next one (PAX and GNU extensions: type flags x, g, L, K, S) are recognised, but what Next does with
them is a parameter. The names and times of the entries are not kept: NewComposites does not look at them.
-/
import Verif.Model.Session

namespace Radolan.TarReader
open Go

/-! ### the header block -/

/-- `b[i:j]` of a block -/
def cut (b : Bytes) (i j : Nat) : Bytes := (b.take j).drop i

/-- the cutset of `bytes.Trim(b, " \x00")` -/
def blank (c : UInt8) : Bool := c = 32 || c = 0

/-- `bytes.Trim(b, " \x00")` -/
def trim (b : Bytes) : Bytes := ((b.dropWhile blank).reverse.dropWhile blank).reverse

/-- tar `parseString`: up to the first NUL -/
def parseString (b : Bytes) : Bytes := b.takeWhile (· ≠ 0)

/-- `strconv.ParseUint(s, 8, 64)` for at most 21 bytes (no overflow); `none`: an error -/
def parseUint8 (s : Bytes) : Option Nat :=
  if s = [] then none
  else s.foldlM (fun n c => if 48 ≤ c.toNat ∧ c.toNat ≤ 55 then some (8 * n + (c.toNat - 48)) else none) 0

/-- tar `parseOctal`; `none`: `p.err` is set -/
def parseOctal (b : Bytes) : Option Nat :=
  if trim b = [] then some 0 else parseUint8 (parseString (trim b))

/-- tar `parseNumeric`, the loop of the base-256 case: big endian, without overflow of 64 bits -/
def parseBinary (b : Bytes) : Option Nat :=
  b.foldlM (fun x c => if 2 ^ 56 ≤ x then none else some (x * 256 + c.toNat)) 0

/-- tar `parseNumeric`; `none`: `p.err` is set -/
def parseNumeric (b : Bytes) : Option Int :=
  match b with
  | c :: cs =>
    if c &&& 0x80 ≠ 0 then
      let inv : UInt8 := if c &&& 0x40 ≠ 0 then 0xff else 0
      match parseBinary (((c ^^^ inv) &&& 0x7f) :: cs.map (· ^^^ inv)) with
      | none => none
      | some x => if 2 ^ 63 ≤ x then none else if inv = 0xff then some (-(x : Int) - 1) else some x
    else (parseOctal b).map fun n => (n : Int)
  | [] => (parseOctal b).map fun n => (n : Int)

/-- the block with its checksum field as spaces -/
def blanked (b : Bytes) : Bytes := b.take 148 ++ List.replicate 8 32 ++ b.drop 156

/-- tar `computeChecksum`, the unsigned sum -/
def sumUnsigned (b : Bytes) : Int := ((blanked b).map fun c => (c.toNat : Int)).sum

/-- tar `computeChecksum`, the signed sum -/
def sumSigned (b : Bytes) : Int := ((blanked b).map fun c => if c.toNat < 128 then (c.toNat : Int) else c.toNat - 256).sum

/-- tar `getFormat`, the verification of the checksum -/
def checksumOK (b : Bytes) : Bool :=
  match parseOctal (cut b 148 156) with
  | none => false
  | some v => (v : Int) = sumUnsigned b || (v : Int) = sumSigned b

/-- the formats told apart by the magic -/
inductive Format where
  | v7 | ustar | star | gnu
  deriving DecidableEq

/-- tar `getFormat`, guessing the magic values: "ustar\x00" with the trailer "tar\x00" or without, "ustar " with the
version " \x00" -/
def format (b : Bytes) : Format :=
  if cut b 257 263 = [117, 115, 116, 97, 114, 0] then
    if cut b 508 512 = [116, 97, 114, 0] then .star else .ustar
  else if cut b 257 263 = [117, 115, 116, 97, 114, 32] ∧ cut b 263 265 = [32, 0] then .gnu
  else .v7

/-- tar `readHeader`: the numeric fields whose errors make the header invalid (mode, uid, gid, size, modTime; devMajor and
devMinor unless V7; accessTime and changeTime of STAR) -/
def numericFields (b : Bytes) : List Bytes :=
  [cut b 100 108, cut b 108 116, cut b 116 124, cut b 124 136, cut b 136 148] ++
  (if format b = .v7 then [] else [cut b 329 337, cut b 337 345]) ++
  (if format b = .star then [cut b 476 488, cut b 488 500] else [])

/-- tar `readHeader`, GNU: a time field that is present but invalid -/
def badTime (f : Bytes) : Bool := f.head? ≠ some 0 && (parseNumeric f).isNone

/-- tar `readHeader`: the prefix of the name -/
def namePrefix (b : Bytes) : Bytes :=
  match format b with
  | .v7 => []
  | .ustar => parseString (cut b 345 500)
  | .star => parseString (cut b 345 476)
  | .gnu =>
    if badTime (cut b 345 357) || badTime (cut b 357 369) then
      let s := parseString (cut b 345 500)
      if s.all fun c => c.toNat < 128 then s else []
    else []

/-- tar `readHeader`: the name of the entry -/
def name (b : Bytes) : Bytes :=
  if namePrefix b = [] then parseString (cut b 0 100) else namePrefix b ++ [47] ++ parseString (cut b 0 100)

/-- the type flag -/
def typeflag (b : Bytes) : UInt8 := b.getD 156 0

/-- tar `isHeaderOnlyType`: link, symlink, character and block device, directory, fifo -/
def headerOnly (t : UInt8) : Bool := t = 49 || t = 50 || t = 51 || t = 52 || t = 53 || t = 54

/-- the type flags x, g, L, K, S -/
def extension (t : UInt8) : Bool := t = 120 || t = 103 || t = 76 || t = 75 || t = 83

/-- what Next makes of a header block: ErrHeader, an entry with `nb` bytes of content, or an extension -/
inductive Header where
  | bad
  | file (nb : Nat)
  | extension
  deriving DecidableEq

/-- tar `readHeader` after the block was read (and is not zero), `handleRegularFile` and the type switch of `next` -/
def header (b : Bytes) : Header :=
  if checksumOK b = false then .bad
  else if (numericFields b).any fun f => (parseNumeric f).isNone then .bad
  else
    match parseNumeric (cut b 124 136) with
    | none => .bad
    | some size =>
      let nb := if headerOnly (typeflag b) then 0 else size
      if nb < 0 then .bad
      else if extension (typeflag b) then .extension
      else if typeflag b = 0 ∧ (name b).getLast? = some 47 then .file 0
      else .file nb.toNat

/-- tar `blockPadding` -/
def blockPadding (n : Nat) : Nat := (512 - n % 512) % 512

/-! ### the Reader -/

variable {S : Source}

/-- reads until there are `n` bytes or an error, at most `cap` bytes at a time: the loops of `io.ReadAtLeast`,
`tryReadFull` and `io.Copy`. `none`: the loop does not end. -/
def readLoop (cap n : Nat) (got : Bytes) (err : Option IOErr) (s : S.State) : Option (Bytes × Option IOErr × S.State) :=
  if got.length < n ∧ err = none then
    readLoop cap n (got ++ (S.read s (min cap (n - got.length))).1) (S.read s (min cap (n - got.length))).2.1
      (S.read s (min cap (n - got.length))).2.2
  else some (got, err, s)
partial_fixpoint

/-- `io.ReadFull` -/
def readFull (n : Nat) (s : S.State) : Option (Bytes × Option IOErr × S.State) :=
  match readLoop n n [] none s with
  | none => none
  | some (got, err, s') =>
    some (got, if n ≤ got.length then none else if 0 < got.length ∧ err = some .eof then some .unexpectedEOF else err, s')

/-- tar `tryReadFull`, without the bytes -/
def tryReadFull (n : Nat) (s : S.State) : Option (Option IOErr × S.State) :=
  match readLoop n n [] none s with
  | none => none
  | some (got, err, s') => some (if got.length = n ∧ err = some .eof then none else err, s')

/-- tar `discard` for a reader that is no io.Seeker (such as that of bzip2): `io.CopyN(io.Discard, r, n)` in portions of
8192 bytes -/
def discard (n : Nat) (s : S.State) : Option (Option IOErr × S.State) :=
  match readLoop 8192 n [] none s with
  | none => none
  | some (got, err, s') =>
    some (if n ≤ got.length then none else if err = some .eof then some .unexpectedEOF else err, s')

/-- `tar.ErrHeader` -/
def errHeader : IOErr := .other 0

/-- tar `readHeader`: reading the block. `(some e, …)`: an error (io.EOF is the end of the archive). -/
def readBlock (s : S.State) : Option (Bytes × Option IOErr × S.State) :=
  match readFull 512 s with
  | none => none
  | some (b, some e, s') => some (b, some e, s')
  | some (b, none, s') =>
    if b = List.replicate 512 0 then
      match readFull 512 s' with
      | none => none
      | some (b, some e, s'') => some (b, some e, s'')
      | some (b, none, s'') => some (b, some (if b = List.replicate 512 0 then .eof else errHeader), s'')
    else some (b, none, s')

/-- `*tar.Reader`: the state of its io.Reader, the unread bytes of the current entry, the padding after it, and the sticky
error -/
structure State (S : Source) where
  st : S.State
  nb : Nat
  pad : Nat
  err : Option IOErr

/-- Next fails with `e`, which it keeps -/
def stop (s : State S) (e : IOErr) (st : S.State) : TarNext × State S :=
  (if e = .eof then .eof else .error, { s with st := st, err := some e })

/-- tar `(*Reader).Next` (with paths of all kinds allowed, which is the default); `ext` is what it does from a header with
extensions on. `none`: the call does not return. -/
def next (ext : Bytes → State S → Option (TarNext × State S)) (s : State S) : Option (TarNext × State S) :=
  match s.err with
  | some e => some (stop s e s.st)
  | none =>
    match discard s.nb s.st with
    | none => none
    | some (some e, st) => some (stop s e st)
    | some (none, st) =>
      match tryReadFull s.pad st with
      | none => none
      | some (some e, st) => some (stop s e st)
      | some (none, st) =>
        match readBlock st with
        | none => none
        | some (_, some e, st) => some (stop s e st)
        | some (b, none, st) =>
          match header b with
          | .bad => some (stop s errHeader st)
          | .extension => ext b ⟨st, 0, 0, none⟩
          | .file nb => some (.entry, ⟨st, nb, blockPadding nb, none⟩)

/-- tar `(*Reader).Read` and `(*regFileReader).Read` -/
def read (s : State S) (n : Nat) : Bytes × Option IOErr × State S :=
  match s.err with
  | some e => ([], some e, s)
  | none =>
    let x : Bytes × Option IOErr × S.State := if 0 < min n s.nb then S.read s.st (min n s.nb) else ([], none, s.st)
    let nb := s.nb - x.1.length
    let err := if x.2.1 = some .eof ∧ 0 < nb then some .unexpectedEOF else if x.2.1 = none ∧ nb = 0 then some .eof else x.2.1
    (x.1, err, ⟨x.2.2, nb, s.pad, if err = some .eof then none else err⟩)

/-- the tar reader of the standard library over the reader `S` -/
def goTar (S : Source) (ext : Bytes → State S → Option (TarNext × State S)) : Tar := ⟨State S, next ext, read⟩

/-- `tar.NewReader(r)` -/
def newReader (s : S.State) : State S := ⟨s, 0, 0, none⟩

end Radolan.TarReader
