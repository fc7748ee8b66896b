/-
Model of /repo/conversion.go.
-/
import Verif.Model.Types

namespace Radolan
open Go

/-- conversion.go:9-11, `IsNaN`: `f != f` -/
def IsNaN (x : F32) : Bool := !(Fl.beq x x)

/-- conversion.go:14-20, type ZR -/
structure ZR (α : Type) where
  c1 : α
  c2 : α
  c3 : α
  c4 : α

/-- conversion.go:31-38 -/
def NewZR (A : Arith α) (a b : α) : ZR α :=
  let c1 := A.mul (A.lit 10) b
  let c2 := A.pow a (A.div (A.lit (-1)) b)
  let c3 := A.pow (A.lit 10) (A.div (A.lit 1) c1)
  let c4 := A.mul (A.lit 10) (A.log10 a)
  ⟨c1, c2, c3, c4⟩

/-- conversion.go:24 -/
def Aniol80 (A : Arith α) : ZR α := NewZR A (A.lit 256) (A.lit (142 / 100))
/-- conversion.go:25 -/
def Doelling98 (A : Arith α) : ZR α := NewZR A (A.lit 316) (A.lit (150 / 100))
/-- conversion.go:26 -/
def JossWaldvogel70 (A : Arith α) : ZR α := NewZR A (A.lit 300) (A.lit (150 / 100))
/-- conversion.go:27 -/
def MarshallPalmer55 (A : Arith α) : ZR α := NewZR A (A.lit 200) (A.lit (160 / 100))

/-- conversion.go:42-44 after the conversion `float64(dBZ)` -/
def precipitationRate (A : Arith α) (z : ZR α) (dBZ : α) : α :=
  A.mul z.c2 (A.pow z.c3 dBZ)

/-- conversion.go:48-50 before the conversion to float32 -/
def reflectivity (A : Arith α) (z : ZR α) (rate : α) : α :=
  A.add z.c4 (A.mul z.c1 (A.log10 rate))

/-- conversion.go:42-44 with Go's types -/
def PrecipitationRate (L : MathLib) (z : ZR F64) (dBZ : F32) : F64 :=
  precipitationRate (f64Arith L) z (dBZ.conv f64)

/-- conversion.go:48-50 with Go's types -/
def Reflectivity (L : MathLib) (z : ZR F64) (rate : F64) : F32 :=
  (reflectivity (f64Arith L) z rate).conv f32

/-- conversion.go:54-56 -/
def toDBZ (rvp6 : F32) : F32 :=
  Fl.sub (Fl.div rvp6 (Fl.lit f32 2)) (Fl.lit f32 (65 / 2))

/-- conversion.go:60-62 -/
def toRVP6 (dBZ : F32) : F32 :=
  Fl.mul (Fl.add dBZ (Fl.lit f32 (65 / 2))) (Fl.lit f32 2)

/-- conversion.go:66-68: `float32(value) * float32(math.Pow10(c.precision))` -/
def rvp6Raw (precision : Int) (value : Int) : F32 :=
  Fl.mul (Fl.lit f32 (value : ℚ)) ((Fl.pow10 precision).conv f32)

end Radolan
