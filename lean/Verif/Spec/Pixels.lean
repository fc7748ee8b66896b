/-
Specification of pixel values: what a data byte, a byte pair or a run-length line stands for.
-/
import Verif.Go.Float
import Verif.Spec.Header

namespace Spec
open Go

/-- the decimal exponent of a header: field E, zero if there is none -/
def Precision (fs : List Field) (p : Int) : Prop :=
  match value fs (str "E") with
  | none => p = 0
  | some v => IsInt v p

/-- raw value times power of ten, in float32 arithmetic -/
def scaled (prec v : Int) : F32 := Fl.mul (Fl.lit f32 (v : ℚ)) ((Fl.pow10 prec).conv f32)

/-- value of a raw pixel: scaled, and for reflectivities (RVP6 units to dBZ) halved and shifted by -32.5 -/
def decoded (dBZ : Bool) (prec v : Int) : F32 :=
  if dBZ then Fl.sub (Fl.div (scaled prec v) (Fl.lit f32 2)) (Fl.lit f32 (65 / 2)) else scaled prec v

/-- one data byte; 250 marks missing data -/
def byteValue (dBZ : Bool) (prec : Int) (b : Nat) : F32 := if b = 250 then .nan else decoded dBZ prec b

/-- a byte pair: 12 bit magnitude, bit 13 of the pair (counting from 0) marks missing data, bit 14 is the sign -/
def pairValue (dBZ : Bool) (prec : Int) (lo hi : Nat) : F32 :=
  if hi / 32 % 2 = 1 then .nan
  else decoded dBZ prec (if hi / 64 % 2 = 1 then -(hi % 16 * 256 + lo : Int) else (hi % 16 * 256 + lo : Int))

end Spec
