/-
The trigonometric functions of Go's math package (math/sin.go, math/tan.go: translations of the Cephes routines sin.c and
tan.c), which package radolan calls in projection_sphere.go:9-25 and projection_wgs84.go:40-47. On all architectures but
s390x they are compiled from this Go code. The code is written over an arithmetic, so that it can be evaluated with
every operation rounded separately (`goSin`, `goCos`, `goTan`) and with the fused operations the language permits
(Spec/Trig.lean). Arguments of 2^29 and more go through `trigReduce` (Payne-Hanek reduction), which is a parameter.
-/
import Verif.Model.Arith

namespace Radolan.Trig
open Go

/-- coefficients `_sin` and `_cos` (math/sin.go), highest power first -/
def sin0 : ℚ := mkRat 158962301576546568060 (10 ^ 30)
def sin1 : ℚ := -mkRat 250507477628578072866 (10 ^ 28)
def sin2 : ℚ := mkRat 275573136213857245213 (10 ^ 26)
def sin3 : ℚ := -mkRat 198412698295895385996 (10 ^ 24)
def sin4 : ℚ := mkRat 833333333332211858878 (10 ^ 23)
def sin5 : ℚ := -mkRat 166666666666666307295 (10 ^ 21)
def cos0 : ℚ := -mkRat 113585365213876817300 (10 ^ 31)
def cos1 : ℚ := mkRat 208757008419747316778 (10 ^ 29)
def cos2 : ℚ := -mkRat 275573141792967388112 (10 ^ 27)
def cos3 : ℚ := mkRat 248015872888517045348 (10 ^ 25)
def cos4 : ℚ := -mkRat 138888888888730564116 (10 ^ 23)
def cos5 : ℚ := mkRat 416666666666665929218 (10 ^ 22)
/-- coefficients `_tanP` and `_tanQ` (math/tan.go); `_tanQ[0]` is 1 and not used by the code -/
def tanP0 : ℚ := -mkRat 130936939181383734205 (10 ^ 16)
def tanP1 : ℚ := mkRat 115351664838587416140 (10 ^ 14)
def tanP2 : ℚ := -mkRat 179565251976484877988 (10 ^ 13)
def tanQ1 : ℚ := mkRat 136812963470692954678 (10 ^ 16)
def tanQ2 : ℚ := -mkRat 132089234440210967447 (10 ^ 14)
def tanQ3 : ℚ := mkRat 250083801823357915839 (10 ^ 13)
def tanQ4 : ℚ := -mkRat 538695755929454629881 (10 ^ 13)
/-- Pi/4 split into three parts (math/sin.go, math/tan.go) -/
def pi4A : ℚ := mkRat 785398125648498535156 (10 ^ 21)
def pi4B : ℚ := mkRat 377489470793079817668 (10 ^ 28)
def pi4C : ℚ := mkRat 269515142907905952645 (10 ^ 35)

section
variable {α : Type} (A : Arith α)

/-- `z = ((x - y*PI4A) - y*PI4B) - y*PI4C` -/
def reduce (x y : α) : α :=
  A.sub (A.sub (A.sub x (A.mul y (A.lit pi4A))) (A.mul y (A.lit pi4B))) (A.mul y (A.lit pi4C))

/-- `acc*zz + c` -/
def step (acc zz : α) (c : ℚ) : α := A.add (A.mul acc zz) (A.lit c)

/-- `y = z + z*zz*((((((_sin[0]*zz)+_sin[1])*zz+_sin[2])*zz+_sin[3])*zz+_sin[4])*zz+_sin[5])` with `zz := z * z` -/
def sinPoly (z : α) : α :=
  let zz := A.mul z z
  A.add z (A.mul (A.mul z zz)
    (step A (step A (step A (step A (step A (A.lit sin0) zz sin1) zz sin2) zz sin3) zz sin4) zz sin5))

/-- `y = 1.0 - 0.5*zz + zz*zz*((((((_cos[0]*zz)+_cos[1])*zz+_cos[2])*zz+_cos[3])*zz+_cos[4])*zz+_cos[5])` -/
def cosPoly (z : α) : α :=
  let zz := A.mul z z
  A.add (A.sub (A.lit 1) (A.mul (A.lit (1 / 2)) zz)) (A.mul (A.mul zz zz)
    (step A (step A (step A (step A (step A (A.lit cos0) zz cos1) zz cos2) zz cos3) zz cos4) zz cos5))

/-- `if zz > 1e-14 { y = z + z*(zz*(((_tanP[0]*zz)+_tanP[1])*zz+_tanP[2])/((((zz+_tanQ[1])*zz+_tanQ[2])*zz+_tanQ[3])*zz+_tanQ[4])) } else { y = z }`;
`larger zz a b` is `a` if `zz > 1e-14` and `b` otherwise -/
def tanPoly (larger : α → α → α → α) (z : α) : α :=
  let zz := A.mul z z
  larger zz
    (A.add z (A.mul z (A.div
      (A.mul zz (step A (step A (A.lit tanP0) zz tanP1) zz tanP2))
      (step A (step A (step A (A.add zz (A.lit tanQ1)) zz tanQ2) zz tanQ3) zz tanQ4))))
    z

/-- the octant `j` (not reduced modulo 8), made even, and `float64(j)`: `j = uint64(x * (4 / Pi)); y = float64(j); if
j&1 == 1 { j++; y++ }`, for `0 ≤ x < 2^29` (the conversion to uint64 then is in range) -/
def octant (x : F64) : Nat × F64 :=
  let j := (Fl.ratTrunc (Fl.mul x (Fl.lit f64 (4 / goPi))).val).toNat
  let y := Fl.lit f64 (j : ℚ)
  if j % 2 = 1 then (j + 1, Fl.add y (Fl.lit f64 1)) else (j, y)

/-- the reduced argument: octant and `z`. `word` reads a float64 variable, `big` is `trigReduce`. -/
def reduced (word : F64 → α) (big : F64 → Nat × F64) (x : F64) : Nat × α :=
  if Fl.le (Fl.lit f64 (2 ^ 29)) x then ((big x).1, word (big x).2)
  else ((octant x).1, reduce A (word x) (word (octant x).2))

/-- `math.Sin` (math/sin.go, func sin) -/
def sinOf (word : F64 → α) (big : F64 → Nat × F64) (x : F64) : α :=
  if x = .nan ∨ Fl.beq x Fl.zero = true then word x
  else if x.isFin = false then word .nan
  else
    let negative := Fl.lt x Fl.zero
    let x := if negative then Fl.neg x else x
    let r := reduced A word big x
    let j := r.1 % 8
    let z := r.2
    let sign := if j > 3 then !negative else negative
    let j := if j > 3 then j - 4 else j
    let y := if j = 1 ∨ j = 2 then cosPoly A z else sinPoly A z
    if sign then A.neg y else y

/-- `math.Cos` (math/sin.go, func cos) -/
def cosOf (word : F64 → α) (big : F64 → Nat × F64) (x : F64) : α :=
  if x.isFin = false then word .nan
  else
    let r := reduced A word big (Fl.abs x)
    let j := r.1 % 8
    let z := r.2
    let sign := if j > 3 then true else false
    let j := if j > 3 then j - 4 else j
    let sign := if j > 1 then !sign else sign
    let y := if j = 1 ∨ j = 2 then sinPoly A z else cosPoly A z
    if sign then A.neg y else y

/-- `math.Tan` (math/tan.go, func tan) -/
def tanOf (word : F64 → α) (larger : α → α → α → α) (big : F64 → Nat × F64) (x : F64) : α :=
  if x = .nan ∨ Fl.beq x Fl.zero = true then word x
  else if x.isFin = false then word .nan
  else
    let negative := Fl.lt x Fl.zero
    let x := if negative then Fl.neg x else x
    let r := reduced A word big x
    let y := tanPoly A larger r.2
    let y := if r.1 / 2 % 2 = 1 then A.div (A.lit (-1)) y else y
    if negative then A.neg y else y

end

/-- no function of package math is called by the functions above -/
def noLib : MathLib where
  sin _ := .nan
  cos _ := .nan
  tan _ := .nan
  pow _ _ := .nan
  log10 _ := .nan
  log _ := .nan

/-- the comparison `zz > 1e-14` -/
def largerF (zz a b : F64) : F64 := if Fl.lt (Fl.lit f64 (1 / 10 ^ 14)) zz then a else b

/-- `math.Sin`, `math.Cos` and `math.Tan`, every operation rounded -/
def goSin (big : F64 → Nat × F64) (x : F64) : F64 := sinOf (f64Arith noLib) id big x
def goCos (big : F64 → Nat × F64) (x : F64) : F64 := cosOf (f64Arith noLib) id big x
def goTan (big : F64 → Nat × F64) (x : F64) : F64 := tanOf (f64Arith noLib) id largerF big x

end Radolan.Trig
