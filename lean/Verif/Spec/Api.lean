/-
Vocabulary for statements about the exported API: which composites a user can hold, success, and a
concrete environment and input for the non-vacuity examples.
-/
import Verif.Model.Composite

namespace Spec
open Go Radolan

/-- A composite a user of the package can hold: returned by NewComposite (with or without an error)
or by NewDummy with a Go `int` format and dimensions. -/
inductive Held (E : Env) : Composite → Prop
  | parsed (input : Bytes) (c : Composite) (err : Option Err) (h : NewComposite E input = .ret c err) :
      Held E c
  | dummy (product : Bytes) (format dx dy : Int) : Held E (NewDummy E product format dx dy)

/-- NewComposite succeeded: the returned error is nil or ErrUnknownUnit -/
def Success (E : Env) (input : Bytes) (c : Composite) : Prop :=
  NewComposite E input = .ret c none ∨ NewComposite E input = .ret c (some .unknownUnit)

/-- the element `DataZ[z][y][x]`, if these are indices of existing elements -/
def voxel (c : Composite) (z y x : Nat) : Option F32 :=
  (c.dataZ[z]?).bind fun layer => (layer[y]?).bind fun row => row[x]?

/-- the element `PlainData[y][x]` -/
def plain (c : Composite) (y x : Nat) : Option F32 := (c.plainData[y]?).bind fun row => row[x]?

/-- the element `Data[y][x]` -/
def pixel (c : Composite) (y x : Nat) : Option F32 := (c.data[y]?).bind fun row => row[x]?

/-! ### concrete instances used only in examples -/

/-- an environment: no upper case letters beyond ASCII, math functions returning NaN -/
def env0 : Env where
  isUpperNA _ := false
  math := ⟨fun _ => .nan, fun _ => .nan, fun _ => .nan, fun _ _ => .nan, fun _ => .nan, fun _ => .nan⟩

/-- a 3 x 2 single byte radar reflectivity product with 7 data bytes, the last one surplus -/
def sampleRX : Bytes :=
  str "RX021310100000217BY 52VS 3INT 5PR E+00GP 2x 3" ++ [3] ++ [10, 20, 30, 40, 250, 60, 99]

/-- a 2 x 2 little endian precipitation product with one tenth precision -/
def sampleRW : Bytes :=
  str "RW021310100000217BY 54VS 3INT 5PR E-01GP 2x 2" ++ [3] ++ [1, 0, 2, 0x40, 0, 0x20, 0xff, 0x0f]

/-- a 2 x 4 run-length coded product with two levels -/
def samplePC : Bytes :=
  str "PC021310100000217BY  1LV 2  1.0 19.0BG002004" ++ [3] ++ [1, 17, 0x21, 0x12, 10, 2, 16, 0x4F, 10]

/-- dimensions that crash the parser -/
def sampleNeg : Bytes := str "RX021310100000217BY 49VS 3GP -1x 5" ++ [3] ++ [1, 2, 3]

end Spec
