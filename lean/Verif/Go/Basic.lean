/-
Go ints, slices, UTF-8 and `make`: the parts of the language the code of /repo relies on.
-/
namespace Go

/-- A Go `string` or `[]byte`. -/
abbrev Bytes := List UInt8

/-- ASCII literal to bytes. -/
def str (s : String) : Bytes := s.toList.map (fun c => UInt8.ofNat c.toNat)

/-- Go `int` arithmetic on amd64: results are reduced into `[-2^63, 2^63)`. -/
def wrap64 (x : Int) : Int := Int.bmod x (2 ^ 64)

/-- Largest allocation the runtime accepts on linux/amd64 (`runtime.maxAlloc`, 48-bit addresses). -/
def maxAlloc : Int := 2 ^ 48

/-- `make([]T, n)` with `T` of `size` bytes does not panic with "len out of range". -/
def makeOK (size n : Int) : Bool := decide (0 ≤ n ∧ n * size ≤ maxAlloc)

/-- Slice expression `l[a:b]`; `none` is the run-time panic. -/
def slice? (l : List α) (a b : Nat) : Option (List α) :=
  if a ≤ b ∧ b ≤ l.length then some ((l.take b).drop a) else none

/-- Index expression `l[i]` with a Go int; `none` is the run-time panic. -/
def index? (l : List α) (i : Int) : Option α :=
  if 0 ≤ i then l[i.toNat]? else none

/-- `utf8.RuneError` -/
def runeError : Nat := 0xFFFD

/-- continuation byte -/
def isCont (b : UInt8) : Bool := 0x80 ≤ b && b ≤ 0xBF

/-- `utf8.DecodeRune` on a non-empty byte string: the rune and its width in bytes. Ill-formed
sequences give `(RuneError, 1)`. -/
def decodeRune (b0 : UInt8) (rest : Bytes) : Nat × Nat :=
  if b0 < 0x80 then (b0.toNat, 1)
  else if 0xC2 ≤ b0 && b0 ≤ 0xDF then
    match rest with
    | b1 :: _ => if isCont b1 then ((b0.toNat % 32) * 64 + b1.toNat % 64, 2) else (runeError, 1)
    | _ => (runeError, 1)
  else if 0xE0 ≤ b0 && b0 ≤ 0xEF then
    match rest with
    | b1 :: b2 :: _ =>
      let lo : UInt8 := if b0 = 0xE0 then 0xA0 else 0x80
      let hi : UInt8 := if b0 = 0xED then 0x9F else 0xBF
      if lo ≤ b1 && b1 ≤ hi && isCont b2 then
        ((b0.toNat % 16) * 4096 + (b1.toNat % 64) * 64 + b2.toNat % 64, 3)
      else (runeError, 1)
    | _ => (runeError, 1)
  else if 0xF0 ≤ b0 && b0 ≤ 0xF4 then
    match rest with
    | b1 :: b2 :: b3 :: _ =>
      let lo : UInt8 := if b0 = 0xF0 then 0x90 else 0x80
      let hi : UInt8 := if b0 = 0xF4 then 0x8F else 0xBF
      if lo ≤ b1 && b1 ≤ hi && isCont b2 && isCont b3 then
        ((b0.toNat % 8) * 262144 + (b1.toNat % 64) * 4096 + (b2.toNat % 64) * 64 + b3.toNat % 64, 4)
      else (runeError, 1)
    | _ => (runeError, 1)
  else (runeError, 1)

theorem decodeRune_width (b0 : UInt8) (rest : Bytes) :
    1 ≤ (decodeRune b0 rest).2 ∧ (decodeRune b0 rest).2 ≤ rest.length + 1 := by
  unfold decodeRune
  (repeat' split) <;> simp <;> (try split) <;> simp

/-- `for i, r := range s`: the (byte index, rune) pairs; `i` is the index of the next byte and
`skip` the number of bytes of the current rune still to be passed over. -/
def runesFrom (i skip : Nat) : Bytes → List (Nat × Nat)
  | [] => []
  | b :: rest =>
    if skip = 0 then
      (i, (decodeRune b rest).1) :: runesFrom (i + 1) ((decodeRune b rest).2 - 1) rest
    else runesFrom (i + 1) (skip - 1) rest

/-- the runes of a string, as delivered by a rune reader -/
def runes (s : Bytes) : List Nat := (runesFrom 0 0 s).map Prod.snd

end Go
