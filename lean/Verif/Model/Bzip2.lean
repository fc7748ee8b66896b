/-
Package compress/bzip2 of Go (bit_reader.go, huffman.go, move_to_front.go, bzip2.go), through which NewComposites reads
its archive (radolan.go:159). Written from knowledge of the sources, which are not available in the sandbox.

The compressed file is the list of bits still to come (the bytes, most significant bit first), where the code keeps an
accumulator of up to 63 bits; `final` is the error of the underlying reader at its end. Array accesses out of range are
`panic`. Once Read has returned an error and no byte it returns the error again, which the only caller (archive/tar) does
not observe: it does not read on after an error that comes without data.
-/
import Verif.Go.Bufio

namespace Radolan.Bz
open Go

/-- what a piece of the code does: it panics (or does not return), returns an error, or a value -/
inductive Out (α : Type) where
  | panic
  | err (e : IOErr)
  | ok (a : α)

def Out.bind {α β : Type} : Out α → (α → Out β) → Out β
  | .panic, _ => .panic
  | .err e, _ => .err e
  | .ok a, f => f a

instance : Monad Out where
  pure := .ok
  bind := Out.bind

/-- array access -/
def index {α : Type} (l : List α) (i : Nat) : Out α :=
  match l[i]? with
  | some a => .ok a
  | none => .panic

/-- `StructuralError` -/
def structural : IOErr := .other 1

/-! ### bits -/

/-- bits of a byte, most significant first -/
def byteBits (b : UInt8) : List Bool := (List.range 8).map fun i => b.toNat.testBit (7 - i)

/-- the number written by bits, most significant first -/
def ofBits (l : List Bool) : Nat := l.foldl (fun n b => 2 * n + b.toNat) 0

/-- `bitReader`: the bits to come, the error of the reader after them, and `br.err` -/
structure BR where
  rest : List Bool
  final : IOErr
  err : Option IOErr

/-- `(*bitReader).ReadBits`, `ReadBits64`: 0 and `br.err` if the bytes do not suffice; what was read stays in the accumulator -/
def readBits (k : Nat) (br : BR) : Nat × BR :=
  if k ≤ br.rest.length then (ofBits (br.rest.take k), { br with rest := br.rest.drop k })
  else (0, { br with err := some (if br.final = .eof then .unexpectedEOF else br.final) })

/-- `return StructuralError(…)` within `readBlock`: `Read` returns `br.err` instead if there is one -/
def fail {α : Type} (br : BR) : Out α := .err (br.err.getD structural)

/-! ### move to front -/

/-- `moveToFrontDecoder.Decode` -/
def mtfDecode (m : List Nat) (n : Nat) : Out (Nat × List Nat) :=
  match m[n]? with
  | some b => .ok (b, b :: (m.take n ++ m.drop (n + 1)))
  | none => .panic

/-! ### Huffman trees -/

/-- `huffmanNode`; a child that is a leaf is `none` (`invalidNodeValue` in the code) -/
structure Node where
  left : Option Nat
  right : Option Nat
  leftValue : Nat
  rightValue : Nat

/-- `huffmanCode`: the code in the upper bits of 32, its length, the symbol -/
structure Code where
  code : Nat
  len : Nat
  value : Nat

/-- `(*huffmanTree).Decode`: bit 1 leads to the left. More than `fuel` steps are no return. -/
def decode (nodes : List Node) : Nat → Nat → BR → Out (Nat × BR)
  | 0, _, _ => .panic
  | fuel + 1, i, br =>
    match nodes[i]? with
    | none => .panic
    | some node =>
      let (bit, br) := readBits 1 br
      match if bit = 1 then node.left else node.right with
      | some j => decode nodes fuel j br
      | none => .ok (if bit = 1 then node.leftValue else node.rightValue, br)

/-- the assignment of codes in `newHuffmanTree`, from the longest code on; `length` is the smallest length so far -/
def assign : List (Nat × Nat) → Nat → Nat → List Code
  | [], _, _ => []
  | (len, value) :: ps, code, length =>
    let length := if len < length then len else length
    ⟨code, length, value⟩ :: assign ps ((code + 2 ^ (32 - length)) % 2 ^ 32) length

/-- `huffmanTree`: the array of nodes and the number of used ones -/
structure Tree where
  nodes : List Node
  next : Nat

/-- one side of a node in `buildHuffmanNode`: a leaf or a node built by `f` -/
def child (f : List Code → Tree → Out (Nat × Tree)) (side : List Code) (t : Tree) : Out ((Option Nat × Nat) × Tree) :=
  match side with
  | [c] => .ok ((none, c.value), t)
  | _ => do
    let (j, t) ← f side t
    Out.ok ((some j, 0), t)

/-- `buildHuffmanNode` at level 32 - `fuel` -/
def build : Nat → List Code → Tree → Out (Nat × Tree)
  | 0, _, _ => .panic
  | fuel + 1, codes, t =>
    let left := codes.takeWhile fun c => !c.code.testBit fuel
    let right := codes.dropWhile fun c => !c.code.testBit fuel
    if left = [] ∨ right = [] then
      if codes.length < 2 then .err structural
      else if fuel = 0 then .err structural
      else if left = [] then build fuel right t
      else build fuel left t
    else do
      let i := t.next
      if t.nodes.length ≤ i then .panic else
      let t : Tree := ⟨t.nodes, i + 1⟩
      let (l, t) ← child (build fuel) left t
      let (r, t) ← child (build fuel) right t
      Out.ok (i, ⟨t.nodes.set i ⟨l.1, r.1, l.2, r.2⟩, t.next⟩)

/-- order by code length, symbols of equal length by value -/
def shorter (p q : Nat × Nat) : Bool := p.1 < q.1 || (p.1 == q.1 && p.2 ≤ q.2)

/-- `newHuffmanTree` of the code lengths (the second call of sort.Slice, by codes, has no ties unless an error follows) -/
def newTree (lengths : List Nat) : Out (List Node) := do
  if lengths.length < 2 then .panic else
  let pairs := (lengths.zipIdx).mergeSort shorter
  let codes := (assign pairs.reverse 0 32).mergeSort fun a b => decide (a.code ≤ b.code)
  let (_, t) ← build 32 codes ⟨List.replicate lengths.length ⟨none, none, 0, 0⟩, 0⟩
  Out.ok t.nodes

/-! ### the inverse Burrows-Wheeler transform -/

/-- `sum += c[i]; c[i] = sum - c[i]` for all i -/
def cumulate : List Nat → Nat → List Nat
  | [], _ => []
  | x :: xs, sum => sum :: cumulate xs (sum + x)

/-- `for i := range tt { b := tt[i] & 0xff; tt[c[b]] |= uint32(i) << 8; c[b]++ }` from index `i` on, `k` steps -/
def link : Nat → Nat → List Nat → List Nat → Out (List Nat)
  | 0, _, tt, _ => .ok tt
  | k + 1, i, tt, c => do
    let x ← index tt i
    let b := x % 256
    let p ← index c b
    let y ← index tt p
    link k (i + 1) (tt.set p (y ||| (i <<< 8) % 2 ^ 32)) (c.set b (p + 1))

/-- `inverseBWT`: the table and the first position -/
def inverseBWT (tt : List Nat) (origPtr : Nat) (c : List Nat) : Out (List Nat × Nat) := do
  let tt ← link tt.length 0 tt (cumulate c 0)
  let x ← index tt origPtr
  Out.ok (tt, x >>> 8)

/-! ### blocks -/

/-- the part of `reader` that describes the current block: `preRLE`, `preRLEUsed`, `tPos`, `lastByte` (`none`: -1),
`byteRepeats`, `repeats` -/
structure Block where
  pre : List Nat
  used : Nat
  tPos : Nat
  last : Option Nat
  byteRepeats : Nat
  repeats : Nat

/-- `readFromBlock`, for a buffer with room for `n` bytes. A round that places no byte uses an entry of `preRLE`, so
`fuel` = the length of the block plus `n` plus 1 suffices. -/
def readFromBlock : Nat → Nat → Block → Out (Bytes × Block)
  | 0, _, _ => .panic
  | fuel + 1, n, b =>
    if (0 < b.repeats ∨ b.used < b.pre.length) ∧ 0 < n then
      if 0 < b.repeats then do
        let l := b.last.getD 255
        let (out, b') ← readFromBlock fuel (n - 1)
          { b with repeats := b.repeats - 1, last := if b.repeats - 1 = 0 then none else b.last }
        Out.ok (UInt8.ofNat l :: out, b')
      else do
        let x ← index b.pre b.tPos
        let v := x % 256
        let b := { b with tPos := x >>> 8, used := b.used + 1 }
        if b.byteRepeats = 3 then readFromBlock fuel n { b with repeats := v, byteRepeats := 0 }
        else do
          let (out, b') ← readFromBlock fuel (n - 1)
            { b with byteRepeats := if b.last = some v then b.byteRepeats + 1 else 0, last := some v }
          Out.ok (UInt8.ofNat v :: out, b')
    else .ok ([], b)

/-- one step of `updateCRC`, bit by bit where the code has a table -/
def crcByte (crc : Nat) (v : UInt8) : Nat :=
  (List.range 8).foldl (fun c _ => if c.testBit 31 then (2 * c % 2 ^ 32) ^^^ 0x04c11db7 else 2 * c) (crc ^^^ (v.toNat * 2 ^ 24))

/-- `updateCRC` -/
def updateCRC (val : Nat) (b : Bytes) : Nat := (b.foldl crcByte (2 ^ 32 - 1 - val)) ^^^ (2 ^ 32 - 1)

/-! ### the header of a block -/

/-- the bitmap of used bytes -/
def usedBytes (br : BR) : List Nat × BR :=
  let (ranges, br) := readBits 16 br
  (List.range 16).foldl (fun (s : List Nat × BR) i =>
    if ranges.testBit (15 - i) then
      let (bits, br) := readBits 16 s.2
      (s.1 ++ ((List.range 16).filter fun j => bits.testBit (15 - j)).map (16 * i + ·), br)
    else s) ([], br)

/-- `c := 0; for { inc := br.ReadBits(1); if inc == 0 { break }; c++ }`; `fuel`: more than the bits left -/
def unary : Nat → BR → Nat → Nat × BR
  | 0, br, c => (c, br)
  | fuel + 1, br, c =>
    let (inc, br) := readBits 1 br
    if inc = 0 then (c, br) else unary fuel br (c + 1)

/-- the `k` tree indexes still to come -/
def selectors (trees : Nat) : Nat → List Nat → BR → Out (List Nat × BR)
  | 0, _, br => .ok ([], br)
  | k + 1, m, br => do
    let (c, br) := unary (br.rest.length + 1) br 0
    if trees ≤ c then fail br else
    let (s, m) ← mtfDecode m c
    let (l, br) ← selectors trees k m br
    Out.ok (s :: l, br)

/-- the next code length; `fuel`: more than the bits left -/
def nextLength : Nat → Nat → BR → Out (Nat × BR)
  | 0, _, _ => .panic
  | fuel + 1, length, br =>
    if length < 1 ∨ 20 < length then fail br
    else
      let (go, br) := readBits 1 br
      if go = 0 then .ok (length, br)
      else
        let (down, br) := readBits 1 br
        nextLength fuel (if down = 1 then length - 1 else length + 1) br

/-- the code lengths of `k` symbols -/
def codeLengths : Nat → Nat → BR → Out (List Nat × BR)
  | 0, _, br => .ok ([], br)
  | k + 1, length, br => do
    let (length, br) ← nextLength (br.rest.length + 2) length br
    let (l, br) ← codeLengths k length br
    Out.ok (length :: l, br)

/-- the `k` trees for an alphabet of `n` symbols -/
def readTrees (n : Nat) : Nat → BR → Out (List (List Node) × BR)
  | 0, br => .ok ([], br)
  | k + 1, br => do
    let (length, br) := readBits 5 br
    let (lengths, br) ← codeLengths n length br
    let t ← match newTree lengths with
      | .err _ => fail br
      | t => t
    let (ts, br) ← readTrees n k br
    Out.ok (t :: ts, br)

/-! ### the symbols of a block -/

/-- the variables of the loop over symbols -/
structure Sym where
  selectorIndex : Nat
  decoded : Nat
  tree : List Node
  repeat' : Nat
  repeatPower : Nat
  mtf : List Nat
  tt : List Nat
  br : BR

/-- append `k` times the symbol `b` (`tt[bufIndex] = b; c[b]++; bufIndex++`; the counters `c` are derived at the end) -/
def put (s : Sym) (b k : Nat) : Sym := { s with tt := s.tt ++ List.replicate k b }

/-- the loop over the symbols; `n` is `numSymbols` (with RUNA, RUNB and the end symbol). Every 50 symbols a selector is used, so
`fuel` = 51 rounds for each selector suffice. -/
def symbols (sels : List Nat) (trees : List (List Node)) (n blockSize : Nat) : Nat → Sym → Out (List Nat × BR)
  | 0, _ => .panic
  | fuel + 1, s => do
    let s ← if s.decoded = 50 then
        match sels[s.selectorIndex]? with
        | none => fail s.br
        | some i =>
          match trees[i]? with
          | none => fail s.br
          | some t => Out.ok { s with tree := t, selectorIndex := s.selectorIndex + 1, decoded := 0 }
      else Out.ok s
    let (v, br) ← decode s.tree (s.tree.length + 33) 0 s.br
    let s := { s with br := br, decoded := s.decoded + 1 }
    if v < 2 then
      let power := if s.repeat' = 0 then 1 else s.repeatPower
      let r := s.repeat' + power * 2 ^ v
      if 2 * 1024 * 1024 < r then fail s.br
      else symbols sels trees n blockSize fuel { s with repeat' := r, repeatPower := 2 * power }
    else
      if 0 < s.repeat' ∧ blockSize - s.tt.length < s.repeat' then fail s.br
      else do
        let s ← if 0 < s.repeat' then
            match s.mtf[0]? with
            | none => Out.panic
            | some b => Out.ok (put { s with repeat' := 0 } b s.repeat')
          else Out.ok s
        if v = n - 1 then .ok (s.tt, s.br)
        else do
          let (b, m) ← mtfDecode s.mtf (v - 1)
          if blockSize ≤ s.tt.length then fail s.br
          else symbols sels trees n blockSize fuel (put { s with mtf := m } b 1)

/-- how often every byte occurs -/
def counts (tt : List Nat) : List Nat := (List.range 256).map fun b => tt.count b

/-- `readBlock`, after the checksum: the new block and the bits after it -/
def readBlock (blockSize : Nat) (br : BR) : Out (Block × BR) := do
  let (randomized, br) := readBits 1 br
  if randomized ≠ 0 then fail br else
  let (origPtr, br) := readBits 24 br
  let (used, br) := usedBytes br
  if used.length = 0 then fail br else
  let (numTrees, br) := readBits 3 br
  if numTrees < 2 ∨ 6 < numTrees then fail br else
  let (numSelectors, br) := readBits 15 br
  let (sels, br) ← selectors numTrees numSelectors (List.range numTrees) br
  let (trees, br) ← readTrees (used.length + 2) numTrees br
  match sels[0]? with
  | none => fail br
  | some i =>
    match trees[i]? with
    | none => fail br
    | some t => do
      let (tt, br) ← symbols sels trees (used.length + 2) blockSize (51 * sels.length + 51)
        ⟨1, 0, t, 0, 0, used, [], br⟩
      if tt.length ≤ origPtr then fail br else
      let (pre, tPos) ← inverseBWT tt origPtr (counts tt)
      Out.ok (⟨pre, 0, tPos, none, 0, 0⟩, br)

/-! ### the reader -/

/-- `reader` -/
structure Reader where
  br : BR
  fileCRC : Nat
  blockCRC : Nat
  wantBlockCRC : Nat
  setupDone : Bool
  blockSize : Nat
  block : Block
  failed : Option IOErr

/-- `bzip2.NewReader` of a reader delivering `b` and then the error `e` -/
def newReader (b : Bytes) (e : IOErr) : Reader :=
  ⟨⟨b.flatMap byteBits, e, none⟩, 0, 0, 0, false, 0, ⟨[], 0, 0, none, 0, 0⟩, none⟩

/-- `(*reader).setup` -/
def setup (needMagic : Bool) (z : Reader) : Option IOErr × Reader :=
  let (magic, br) := if needMagic then readBits 16 z.br else (0x425a, z.br)
  if magic ≠ 0x425a then (some structural, { z with br := br }) else
  let (t, br) := readBits 8 br
  if t ≠ 0x68 then (some structural, { z with br := br }) else
  let (level, br) := readBits 8 br
  if level < 0x31 ∨ 0x39 < level then (some structural, { z with br := br })
  else (none, { z with br := br, fileCRC := 0, blockSize := 100 * 1000 * (level - 0x30) })

/-- the loop of `(*reader).read`: bytes, the error, the reader. Every round reads 48 bits, so `fuel` = one more than the
bits suffices. -/
def readLoop : Nat → Nat → Reader → Out (Bytes × Option IOErr × Reader)
  | 0, _, _ => .panic
  | fuel + 1, n, z => do
    let (out, block) ← readFromBlock (z.block.pre.length + n + 1) n z.block
    let z := { z with block := block }
    if 0 < out.length ∨ n = 0 then Out.ok (out, none, { z with blockCRC := updateCRC z.blockCRC out })
    else if z.blockCRC ≠ z.wantBlockCRC then Out.ok ([], some structural, { z with br := { z.br with err := some structural } })
    else
      let (magic, br) := readBits 48 z.br
      let z := { z with br := br }
      if magic = 0x314159265359 then
        let (crc, br) := readBits 32 z.br
        let fileCRC := ((2 * z.fileCRC % 2 ^ 32) ||| (z.fileCRC / 2 ^ 31)) ^^^ crc
        let z := { z with br := br, wantBlockCRC := crc, blockCRC := 0, fileCRC := fileCRC }
        match readBlock z.blockSize z.br with
        | .panic => .panic
        | .err e => .ok ([], some e, z)
        | .ok (block, br) => readLoop fuel n { z with br := br, block := block }
      else if magic = 0x177245385090 then
        let (crc, br) := readBits 32 z.br
        let z := { z with br := br }
        match br.err with
        | some e => .ok ([], some e, z)
        | none =>
          if z.fileCRC ≠ crc then .ok ([], some structural, { z with br := { z.br with err := some structural } }) else
          -- the rest of the byte is skipped
          let rest := br.rest.drop (br.rest.length % 8)
          let br := { br with rest := rest }
          if rest = [] then .ok ([], some br.final, { z with br := { br with err := some br.final } })
          else if rest.length < 16 then
            let e := if br.final = .eof then .unexpectedEOF else br.final
            .ok ([], some e, { z with br := { br with err := some e } })
          else if rest.take 16 ≠ byteBits 0x42 ++ byteBits 0x5a then .ok ([], some structural, { z with br := br })
          else
            match setup false { z with br := { br with rest := rest.drop 16 } } with
            | (some e, z) => .ok ([], some e, z)
            | (none, z) => readLoop fuel n z
      else Out.ok ([], some structural, z)

/-- `(*reader).Read` into a buffer of `n` bytes -/
def read (z : Reader) (n : Nat) : Out (Bytes × Option IOErr × Reader) :=
  match z.failed with
  | some e => .ok ([], some e, z)
  | none =>
    let (e, z) := if z.setupDone then (none, z) else setup true z
    let e := if z.setupDone then e else (match z.br.err with | some e' => some e' | none => e)
    match e with
    | some e => .ok ([], some e, { z with failed := some e })
    | none => do
      let (out, e, z) ← readLoop (z.br.rest.length + 1) n { z with setupDone := true }
      let e := match z.br.err with | some e' => some e' | none => e
      Out.ok (out, e, { z with failed := if out = [] then e else none })

/-- the reader as an io.Reader (radolan.go:159). A call that panics would be one that returns nothing; C108: none does. -/
def source : Source where
  State := Reader
  read z n :=
    match read z n with
    | .ok x => x
    | _ => ([], none, z)

end Radolan.Bz
