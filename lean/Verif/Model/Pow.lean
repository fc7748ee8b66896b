/-
`math.Pow` (math/pow.go) and `math.Log10` (math/log10.go) of Go, which package radolan calls in conversion.go:33-48 and
projection_wgs84.go:40: compiled from Go code on all architectures but s390x. They rest on `math.Exp`, `math.Log` and
`math.Sqrt`, partly written in assembly, which are parameters here. The only product that may be fused with a sum is the
one in `Log2`: in `pow` every product is assigned to a variable or an argument of a function.
-/
import Verif.Model.Arith
import Verif.Go.ParseFloat

namespace Radolan.Pow
open Go

/-- `math.Frexp`: `x = frac * 2**exp` with `1/2 ≤ |frac| < 1`; zero, infinities and NaN are returned with `exp = 0` -/
def frexp (x : F64) : F64 × Int :=
  match x with
  | .fin q _ => if q = 0 then (x, 0) else (Fl.mk f64 x.sign (q * pow2 (-(ilog2 |q| + 1))), ilog2 |q| + 1)
  | _ => (x, 0)

/-- the loop of `math.Pow`, `ans *= x**yi`: `for i := int64(yi); i != 0; i >>= 1 { if xe < -1<<12 || 1<<12 < xe { ae += xe;
break }; if i&1 == 1 { a1 *= x1; ae += xe }; x1 *= x1; xe <<= 1; if x1 < .5 { x1 += x1; xe-- } }` -/
def powLoop (i : Nat) (x1 : F64) (xe : Int) (a1 : F64) (ae : Int) : F64 × Int :=
  if i = 0 then (a1, ae)
  else if xe < -(2 ^ 12) ∨ 2 ^ 12 < xe then (a1, ae + xe)
  else
    let a1 := if i % 2 = 1 then Fl.mul a1 x1 else a1
    let ae := if i % 2 = 1 then ae + xe else ae
    let sq := Fl.mul x1 x1
    if Fl.lt sq (Fl.lit f64 (1 / 2)) then powLoop (i / 2) (Fl.add sq sq) (2 * xe - 1) a1 ae
    else powLoop (i / 2) sq (2 * xe) a1 ae
termination_by i
decreasing_by all_goals omega

/-- `isOddInt` (math/pow.go): `if Abs(x) >= (1 << 53) { return false }; xi, xf := Modf(x); return xf == 0 && int64(xi)&1 == 1` -/
def isOddInt (x : F64) : Bool :=
  match x with
  | .fin q _ => decide (|q| < 2 ^ 53 ∧ q.den = 1 ∧ q.num % 2 = 1)
  | _ => false

/-- `case x == 0` of `math.Pow`: `switch { case y < 0: if Signbit(x) && isOddInt(y) { return Copysign(Inf(1), x) }; return
Inf(1); case y > 0: if Signbit(x) && isOddInt(y) { return x }; return 0 }` -/
def zeroPow (x y : F64) : F64 :=
  if Fl.lt y Fl.zero then
    if x.sign && isOddInt y then .inf true else .inf false
  else if x.sign && isOddInt y then x else Fl.zero

/-- the cases `x == 0`, `IsInf(y, 0)` and `IsInf(x, 0)` of `math.Pow`, in this order: `case IsInf(y, 0): switch { case x == -1:
return 1; case (Abs(x) < 1) == IsInf(y, 1): return 0; default: return Inf(1) }; case IsInf(x, 0): if IsInf(x, -1) { return
Pow(1/x, -y) }; switch { case y < 0: return 0; case y > 0: return Inf(1) }`. `Pow(1/x, -y)` has `1/x == 0`. -/
def powSpecial (x y : F64) : F64 :=
  if Fl.beq x Fl.zero then zeroPow x y
  else if y.isFin = false then
    if Fl.beq x (Fl.lit f64 (-1)) then Fl.lit f64 1
    else if Fl.lt (Fl.abs x) (Fl.lit f64 1) = decide (y = .inf false) then Fl.zero
    else .inf false
  else if x = .inf true then zeroPow .nzero (Fl.neg y)
  else if Fl.lt y Fl.zero then Fl.zero
  else .inf false

/-- `math.Pow`. `special` is its result for a zero or infinite `x` and for an infinite `y` (`powSpecial` in Go's code; C103
holds whatever it is). -/
def goPow (exp log sqrt : F64 → F64) (special : F64 → F64 → F64) (x y : F64) : F64 :=
  if Fl.beq y Fl.zero = true ∨ Fl.beq x (Fl.lit f64 1) = true then Fl.lit f64 1
  else if Fl.beq y (Fl.lit f64 1) then x
  else if x = .nan ∨ y = .nan then .nan
  else if Fl.beq x Fl.zero = true ∨ x.isFin = false ∨ y.isFin = false then special x y
  else if Fl.beq y (Fl.lit f64 (1 / 2)) then sqrt x
  else if Fl.beq y (Fl.lit f64 (-1 / 2)) then Fl.div (Fl.lit f64 1) (sqrt x)
  else
    -- yi, yf := Modf(Abs(y))
    let yi := (Fl.ratTrunc (Fl.abs y).val).toNat
    let yf := Fl.lit f64 ((Fl.abs y).val - yi)
    if Fl.beq yf Fl.zero = false ∧ Fl.lt x Fl.zero = true then .nan
    else if 2 ^ 63 ≤ yi then
      if Fl.beq x (Fl.lit f64 (-1)) then Fl.lit f64 1
      else if Fl.lt (Fl.abs x) (Fl.lit f64 1) = Fl.lt Fl.zero y then Fl.zero
      else .inf false
    else
      let up := Fl.lt (Fl.lit f64 (1 / 2)) yf
      let i := if up then yi + 1 else yi
      let yf' := if up then Fl.sub yf (Fl.lit f64 1) else yf
      let a1 := if Fl.beq yf Fl.zero then Fl.lit f64 1 else exp (Fl.mul yf' (log x))
      let r := powLoop i (frexp x).1 (frexp x).2 a1 0
      if Fl.lt y Fl.zero then ldexp (Fl.div (Fl.lit f64 1) r.1) (-r.2) else ldexp r.1 r.2

/-- the constants `math.Ln2` and `math.Ln10` (math/const.go) -/
def ln2 : ℚ := mkRat 693147180559945309417232121458176568075500134360255254120680009 (10 ^ 63)
def ln10 : ℚ := mkRat 230258509299404568401799145468436420760110148862877297603332790 (10 ^ 62)

/-- `math.Log2`: `if frac == 0.5 { return float64(exp - 1) }; return Log(frac)*(1/Ln2) + float64(exp)`, with the product
rounded (`fused = false`) or not -/
def goLog2 (fused : Bool) (log : F64 → F64) (x : F64) : F64 :=
  let fe := frexp x
  if Fl.beq fe.1 (Fl.lit f64 (1 / 2)) then Fl.lit f64 (fe.2 - 1 : Int)
  else
    let l := log fe.1
    if fused = true ∧ l.isFin = true then
      Fl.mk f64 (l.sign && decide (fe.2 < 0)) (l.val * (Fl.lit f64 (1 / ln2)).val + (fe.2 : Int))
    else Fl.add (Fl.mul l (Fl.lit f64 (1 / ln2))) (Fl.lit f64 (fe.2 : Int))

/-- `math.Log10`: `return math.Log2(x) * (Ln2 / Ln10)` -/
def goLog10 (fused : Bool) (log : F64 → F64) (x : F64) : F64 :=
  Fl.mul (goLog2 fused log x) (Fl.lit f64 (ln2 / ln10))

end Radolan.Pow
