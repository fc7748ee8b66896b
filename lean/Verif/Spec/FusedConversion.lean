/-
The Z-R conversions and the decoding of pixels, evaluated to the set of all results a compiler that fuses floating point
operations may produce (see Spec/Fusion).
-/
import Verif.Spec.Fusion
import Verif.Model.Conversion

namespace Spec.Fusion
open Go Radolan

/-! ### Z-R relations, in float64 -/

/-- conversion.go:31-38: the constants of a relation, which may be left unrounded -/
def permittedZR (M : MathLib) (a b : F64) : ZR (Inter → Prop) := NewZR (permittedArith M) (just a) (just b)

/-- conversion.go:42-44: `R` is a permitted result of PrecipitationRate -/
def PermittedRate (M : MathLib) (z : ZR (Inter → Prop)) (dBZ : F32) (R : F64) : Prop :=
  Observable (precipitationRate (permittedArith M) z (just (dBZ.conv f64))) R

/-- the explicit conversion `float32(u)`: of the rounded result, or of the exact one -/
def To32 (u : Inter) (y : F32) : Prop :=
  (∃ x, u.Rounds x ∧ y = x.conv f32) ∨ ∃ q neg, u.Is q ∧ y = Fl.mk f32 neg q

/-- conversion.go:48-50: `F` is a permitted result of Reflectivity -/
def PermittedReflectivity (M : MathLib) (z : ZR (Inter → Prop)) (rate : F64) (F : F32) : Prop :=
  ∃ u, reflectivity (permittedArith M) z (just rate) u ∧ To32 u F

/-! ### pixels, in float32 -/

/-- an intermediate result of a float32 computation -/
inductive Inter32 where
  | word (x : F32)
  | exact (q : ℚ)

def Inter32.Rounds : Inter32 → F32 → Prop
  | .word x, y => y = x
  | .exact q, y => ∃ neg, y = Fl.mk f32 neg q

def Inter32.Is : Inter32 → ℚ → Prop
  | .word x, q => x.isFin = true ∧ q = x.val
  | .exact p, q => q = p

/-- all results of a binary operation: on rounded operands, kept exact, or rounded once -/
def binary32 (op : F32 → F32 → F32) (exactly : ℚ → ℚ → ℚ) (defined : ℚ → ℚ → Prop) (a b : Inter32 → Prop) : Inter32 → Prop :=
  fun w => ∃ u v, a u ∧ b v ∧
    ((∃ x y, u.Rounds x ∧ v.Rounds y ∧ w = .word (op x y)) ∨
     (∃ p q, u.Is p ∧ v.Is q ∧ defined p q ∧ (w = .exact (exactly p q) ∨ ∃ neg, w = .word (Fl.mk f32 neg (exactly p q)))))

def just32 (x : F32) : Inter32 → Prop := fun u => u = .word x

/-- conversion.go:66-68 with the explicit conversions of both factors -/
def permittedRaw (precision value : Int) : Inter32 → Prop :=
  binary32 Fl.mul (· * ·) (fun _ _ => True) (just32 (Fl.lit f32 (value : ℚ))) (just32 ((Fl.pow10 precision).conv f32))

/-- conversion.go:54-56 -/
def permittedDBZ (rvp6 : Inter32 → Prop) : Inter32 → Prop :=
  binary32 Fl.sub (· - ·) (fun _ _ => True)
    (binary32 Fl.div (· / ·) (fun _ q => q ≠ 0) rvp6 (just32 (Fl.lit f32 2))) (just32 (Fl.lit f32 (65 / 2)))

/-- singlebyte.go:59-66 and littleendian.go:66-76: `x` is a permitted decoding of a raw value -/
def PermittedPixel (dBZ : Bool) (precision value : Int) (x : F32) : Prop :=
  ∃ u, (if dBZ then permittedDBZ (permittedRaw precision value) else permittedRaw precision value) u ∧ u.Rounds x

end Spec.Fusion
