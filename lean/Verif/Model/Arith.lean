/-
The arithmetic the projection and Z-R code is written in, as an interface, so that the same
transcription of the code can be instantiated at the soft-float model of float64 (with the
transcendental functions of Go's math package as parameters) and at the real numbers.
-/
import Verif.Go.Float

namespace Radolan
open Go

structure Arith (α : Type) where
  add : α → α → α
  sub : α → α → α
  mul : α → α → α
  div : α → α → α
  neg : α → α
  /-- a decimal constant of the source text -/
  lit : ℚ → α
  /-- the constant `math.Pi * q` (Go evaluates constant expressions exactly, then rounds once) -/
  piMul : ℚ → α
  /-- `float64(n)` for an int `n` -/
  ofInt : Int → α
  nan : α
  sin : α → α
  cos : α → α
  tan : α → α
  pow : α → α → α
  log10 : α → α

/-- The functions of Go's `math` package that are not modelled but taken as parameters. -/
structure MathLib where
  sin : F64 → F64
  cos : F64 → F64
  tan : F64 → F64
  pow : F64 → F64 → F64
  log10 : F64 → F64
  log : F64 → F64

/-- The constant `math.Pi` of Go (math/const.go). -/
def goPi : ℚ :=
  mkRat 314159265358979323846264338327950288419716939937510582097494459 (10 ^ 62)

/-- float64 arithmetic, each operation rounded separately (no fused multiply-add). -/
def f64Arith (M : MathLib) : Arith F64 where
  add := Fl.add
  sub := Fl.sub
  mul := Fl.mul
  div := Fl.div
  neg := Fl.neg
  lit := Fl.lit f64
  piMul q := Fl.lit f64 (goPi * q)
  ofInt n := Fl.lit f64 (n : ℚ)
  nan := .nan
  sin := M.sin
  cos := M.cos
  tan := M.tan
  pow := M.pow
  log10 := M.log10

end Radolan
