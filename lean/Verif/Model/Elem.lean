/-
`math.Exp` (math/exp.go and math/exp_amd64.s) and `math.Log` (math/log.go) of Go, on which `math.Pow` and `math.Log10`
rest (Model/Pow.lean), which package radolan calls in conversion.go:33-48 and projection_wgs84.go:40. The Go code of
Exp and Log is a translation of FreeBSD's e_exp.c and e_log.c; the assembly for arm64 (Exp) and amd64 (Log) computes
the same expressions. On amd64 Exp is written in assembly with another method. As in Model/Trig.lean the code is
written over an arithmetic, so that it can be evaluated with every operation rounded separately and with the fused
operations the language permits. `word` reads a float64 variable, `observe v f` is `f` of the float64 `v` is stored as,
`scale v k` is `math.Ldexp(v, k)`. Not modelled: s390x.
-/
import Verif.Model.Pow
import Verif.Model.Trig

namespace Radolan.Elem
open Go Radolan.Pow

/-- `Ln2Hi`, `Ln2Lo`, `Log2e` and `P1` to `P5` (math/exp.go, func exp, func expmulti) -/
def ln2Hi : ℚ := mkRat 693147180369123816490 (10 ^ 21)
def ln2Lo : ℚ := mkRat 190821492927058770002 (10 ^ 30)
def log2e : ℚ := mkRat 144269504088896338700 (10 ^ 20)
def p1 : ℚ := mkRat 166666666666666657415 (10 ^ 21)
def p2 : ℚ := -mkRat 277777777770155933842 (10 ^ 23)
def p3 : ℚ := mkRat 661375632143793436117 (10 ^ 25)
def p4 : ℚ := -mkRat 165339022054652515390 (10 ^ 26)
def p5 : ℚ := mkRat 413813679705723846039 (10 ^ 28)
/-- `LOG2E`, `LN2U` and `LN2L` (math/exp_amd64.s) -/
def amdLog2e : ℚ := mkRat 14426950408889634073599246810018920 (10 ^ 34)
def ln2U : ℚ := mkRat 69314718055966295651160180568695068359375 (10 ^ 41)
def ln2L : ℚ := mkRat 28235290563031577122588448175013436025525412068 (10 ^ 59)
/-- the coefficients of the Taylor series (math/exp_amd64.s, exprodata) -/
def c3 : ℚ := mkRat 16666666666666666667 (10 ^ 20)
def c4 : ℚ := mkRat 41666666666666666667 (10 ^ 21)
def c5 : ℚ := mkRat 83333333333333333333 (10 ^ 22)
def c6 : ℚ := mkRat 13888888888888888889 (10 ^ 22)
def c7 : ℚ := mkRat 19841269841269841270 (10 ^ 23)
def c8 : ℚ := mkRat 24801587301587301587 (10 ^ 24)
/-- `L1` to `L7` (math/log.go); `Ln2Hi` and `Ln2Lo` are those of Exp -/
def l1 : ℚ := mkRat 6666666666666735130 (10 ^ 19)
def l2 : ℚ := mkRat 3999999999940941908 (10 ^ 19)
def l3 : ℚ := mkRat 2857142874366239149 (10 ^ 19)
def l4 : ℚ := mkRat 2222219843214978396 (10 ^ 19)
def l5 : ℚ := mkRat 1818357216161805012 (10 ^ 19)
def l6 : ℚ := mkRat 1531383769920937332 (10 ^ 19)
def l7 : ℚ := mkRat 1479819860511658591 (10 ^ 19)
/-- `math.Sqrt2` (math/const.go) -/
def sqrt2 : ℚ := mkRat 141421356237309504880168872420969807856967187537694807317667974 (10 ^ 62)

section
variable {α : Type} (A : Arith α) (word : F64 → α) (observe : α → (F64 → α) → α) (scale : α → Int → α)

/-- `c + t*acc` -/
def cstep (c : ℚ) (t acc : α) : α := A.add (A.lit c) (A.mul t acc)

/-- `expmulti` (math/exp.go): `r := hi - lo; t := r * r; c := r - t*(P1+t*(P2+t*(P3+t*(P4+t*P5)))); y := 1 - ((lo -
(r*c)/(2-c)) - hi); return Ldexp(y, k)` -/
def expmulti (hi lo : α) (k : Int) : α :=
  let r := A.sub hi lo
  let t := A.mul r r
  let c := A.sub r (A.mul t (cstep A p1 t (cstep A p2 t (cstep A p3 t (cstep A p4 t (A.lit p5))))))
  let y := A.sub (A.lit 1) (A.sub (A.sub lo (A.div (A.mul r c) (A.sub (A.lit 2) c))) hi)
  scale y k

/-- `math.Exp` (math/exp.go, func exp). The conversion to int is in range, since `|x|` is below 746. -/
def expOf (x : F64) : α :=
  if x = .nan ∨ x = .inf false then word x
  else if x = .inf true then A.lit 0
  else if Fl.lt (Fl.lit f64 (mkRat 709782712893383973096 (10 ^ 18))) x then word (.inf false)
  else if Fl.lt x (Fl.lit f64 (-mkRat 745133219101941108420 (10 ^ 18))) then A.lit 0
  else if Fl.lt (Fl.lit f64 (-1 / 2 ^ 28)) x ∧ Fl.lt x (Fl.lit f64 (1 / 2 ^ 28)) then A.add (A.lit 1) (word x)
  else
    let v := if Fl.lt x Fl.zero then A.sub (A.mul (A.lit log2e) (word x)) (A.lit (1 / 2))
      else A.add (A.mul (A.lit log2e) (word x)) (A.lit (1 / 2))
    observe v fun v =>
      let k := Fl.ratTrunc v.val
      expmulti A scale (A.sub (word x) (A.mul (word (Fl.lit f64 (k : ℚ))) (A.lit ln2Hi)))
        (A.mul (word (Fl.lit f64 (k : ℚ))) (A.lit ln2Lo)) k

/-- `y = y*(y+2)`, that is `(1+y)² - 1` -/
def square (y : α) : α := A.mul y (A.add y (A.lit 2))

/-- `math.Exp` on amd64 (math/exp_amd64.s): `k` is `x*LOG2E` rounded to the nearest integer (CVTSD2SL), `s` is `(x -
k*LN2U - k*LN2L) * 0.0625`, `y = e^s - 1` is computed with its Taylor polynomial and squared four times as `1 + y`. The
multiplication with 2^k is that of Ldexp unless the result is denormal. -/
def amdExpOf (x : F64) : α :=
  if x = .nan ∨ x = .inf false then word x
  else if x = .inf true then A.lit 0
  else if Fl.lt (Fl.lit f64 (mkRat 709782712893384 (10 ^ 12))) x then word (.inf false)
  else
    observe (A.mul (word x) (A.lit amdLog2e)) fun v =>
      let k := roundEven v.val
      let kf := word (Fl.lit f64 (k : ℚ))
      let s := A.mul (A.sub (A.sub (word x) (A.mul kf (A.lit ln2U))) (A.mul kf (A.lit ln2L))) (A.lit (1 / 16))
      let y := A.mul s (cstep A 1 s (cstep A (1 / 2) s (cstep A c3 s (cstep A c4 s (cstep A c5 s
        (cstep A c6 s (cstep A c7 s (A.lit c8))))))))
      scale (A.add (square A (square A (square A (square A y)))) (A.lit 1)) k

/-- `math.Log` (math/log.go, func log): `f1, ki := Frexp(x); if f1 < Sqrt2/2 { f1 *= 2; ki-- }; f := f1 - 1; k :=
float64(ki); s := f / (2 + f); s2 := s * s; s4 := s2 * s2; t1 := s2 * (L1 + s4*(L3+s4*(L5+s4*L7))); t2 := s4 * (L2 +
s4*(L4+s4*L6)); R := t1 + t2; hfsq := 0.5 * f * f; return k*Ln2Hi - ((hfsq - (s*(hfsq+R) + k*Ln2Lo)) - f)`. The
product `f1 *= 2` is exact, so that fusing it with `f1 - 1` makes no difference. -/
def logOf (x : F64) : α :=
  if x = .nan ∨ x = .inf false then word x
  else if Fl.lt x Fl.zero then word .nan
  else if Fl.beq x Fl.zero then word (.inf true)
  else
    let f1 := (frexp x).1
    let low := Fl.lt f1 (Fl.lit f64 (sqrt2 / 2))
    let ki := if low then (frexp x).2 - 1 else (frexp x).2
    let f1 := if low then Fl.mul f1 (Fl.lit f64 2) else f1
    let f := A.sub (word f1) (A.lit 1)
    let k := word (Fl.lit f64 (ki : ℚ))
    let s := A.div f (A.add (A.lit 2) f)
    let s2 := A.mul s s
    let s4 := A.mul s2 s2
    let t1 := A.mul s2 (cstep A l1 s4 (cstep A l3 s4 (cstep A l5 s4 (A.lit l7))))
    let t2 := A.mul s4 (cstep A l2 s4 (cstep A l4 s4 (A.lit l6)))
    let R := A.add t1 t2
    let hfsq := A.mul (A.mul (A.lit (1 / 2)) f) f
    A.sub (A.mul k (A.lit ln2Hi))
      (A.sub (A.sub hfsq (A.add (A.mul s (A.add hfsq R)) (A.mul k (A.lit ln2Lo)))) f)

end

/-- `math.Exp`, `math.Exp` on amd64 and `math.Log`, every operation rounded -/
def goExp (x : F64) : F64 := expOf (f64Arith Trig.noLib) id (fun v f => f v) ldexp x
def amdExp (x : F64) : F64 := amdExpOf (f64Arith Trig.noLib) id (fun v f => f v) ldexp x
def goLog (x : F64) : F64 := logOf (f64Arith Trig.noLib) id x

end Radolan.Elem
