/-
`math.Sqrt` of Go in software (math/sqrt.go, func sqrt, a translation of FreeBSD's e_sqrt.c), on which `math.Pow` rests for
exponents ±1/2 (Model/Pow.lean), so package radolan for Z-R relations with exponent 2 (conversion.go:33). On amd64,
arm64 and other architectures the compiler emits an instruction that IEEE 754 requires to be correctly rounded.
The variables of type uint64 are natural numbers, reduced modulo 2^64 where they grow.
-/
import Verif.Model.Pow

namespace Radolan.Sqrt
open Go

/-- `math.Float64bits` of a positive number: a denormal number is a multiple of 2^-1074, any other has the biased
exponent in the bits from 52 on, followed by the fraction without its leading bit -/
def float64bits (q : ℚ) : Nat :=
  if ilog2 q < -1022 then (q * pow2 1074).num.toNat
  else (ilog2 q + 1023).toNat * 2 ^ 52 + ((q * pow2 (52 - ilog2 q)).num.toNat - 2 ^ 52)

/-- `math.Float64frombits` of a bit pattern without sign -/
def float64frombits (b : Nat) : F64 :=
  let e : Nat := b / 2 ^ 52 % 2 ^ 11
  let frac : Nat := b % 2 ^ 52
  if e = 2047 then (if frac = 0 then .inf false else .nan)
  else if e = 0 then Fl.lit f64 ((frac : ℚ) * pow2 (-1074))
  else Fl.lit f64 (((2 ^ 52 + frac : Nat) : ℚ) * pow2 ((e : Int) - 1075))

/-- `for ix&(1<<shift) == 0 { ix <<= 1; exp-- }`, for a number of at most 52 bits that is not 0; `fuel` is at least the number
of steps -/
def normalize : Nat → Nat → Int → Nat × Int
  | 0, ix, exp => (ix, exp)
  | fuel + 1, ix, exp => if ix / 2 ^ 52 % 2 = 0 then normalize fuel (2 * ix % 2 ^ 64) (exp - 1) else (ix, exp)

/-- `for r != 0 { t := s + r; if t <= ix { s = t + r; ix -= t; q += r }; ix <<= 1; r >>= 1 }` -/
def sqrtLoop (r q s ix : Nat) : Nat × Nat :=
  if r = 0 then (q, ix)
  else
    let t := (s + r) % 2 ^ 64
    if t ≤ ix then sqrtLoop (r / 2) ((q + r) % 2 ^ 64) ((t + r) % 2 ^ 64) (2 * (ix - t) % 2 ^ 64)
    else sqrtLoop (r / 2) q s (2 * ix % 2 ^ 64)
termination_by r
decreasing_by all_goals omega

/-- `exp := int((ix >> shift) & mask); if exp == 0 { … exp++ }; exp -= bias; ix &^= mask << shift; ix |= 1 << shift` -/
def unpack (ix : Nat) : Nat × Int :=
  let exp : Nat := ix / 2 ^ 52 % 2 ^ 11
  let (ix, exp) := if exp = 0 then ((normalize 64 ix 0).1, (normalize 64 ix 0).2 + 1) else (ix, (exp : Int))
  (ix % 2 ^ 52 + 2 ^ 52, exp - 1023)

/-- `math.Sqrt` (math/sqrt.go) after the special cases: `if exp&1 == 1 { ix <<= 1 }; exp >>= 1; ix <<= 1; … r := uint64(1 <<
(shift + 1)); … if ix != 0 { q += q & 1 }; ix = q>>1 + uint64(exp-1+bias)<<shift; return Float64frombits(ix)` -/
def sqrtBits (b : Nat) : F64 :=
  let (ix, exp) := unpack b
  let ix := if exp % 2 = 1 then 2 * ix % 2 ^ 64 else ix
  let exp := exp / 2
  let (q, ix) := sqrtLoop (2 ^ 53) 0 0 (2 * ix % 2 ^ 64)
  let q := if ix ≠ 0 then q + q % 2 else q
  float64frombits ((q / 2 + (exp - 1 + 1023).toNat * 2 ^ 52) % 2 ^ 64)

/-- `math.Sqrt` (math/sqrt.go, func sqrt): `switch { case x == 0 || IsNaN(x) || IsInf(x, 1): return x; case x < 0: return
NaN() }` and the computation with bits -/
def goSqrt (x : F64) : F64 :=
  if Fl.beq x Fl.zero = true ∨ x = .nan ∨ x = .inf false then x
  else if Fl.lt x Fl.zero then .nan
  else sqrtBits (float64bits x.val)

end Radolan.Sqrt
