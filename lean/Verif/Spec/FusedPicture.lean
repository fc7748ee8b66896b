/-
Which pictures radolan2png may draw of a composite, if the compiler fuses floating point operations as it likes: when it
calibrates the projection, in every call of Project and in the colour of every pixel. The loops that produce the mesh
points contain no product and are taken as they are written (every sum rounded).
-/
import Verif.Props.Fusion
import Verif.Props.Image
import Verif.Spec.FusedColors
import Verif.Model.Cli

namespace Spec.Fusion
open Go Radolan Radolan.Vis Props

/-- radolan2png.go:71-77 and 79-87: the points are drawn one after the other, each at any of the coordinates that may be
computed for it -/
inductive Draws (E : Env) (I : Impl) (c : Composite) (color : RGBA) : List (F64 × F64) → Img → Img → Prop where
  | done (img : Img) : Draws E I c color [] img img
  | point {p : F64 × F64} {ps : List (F64 × F64)} {img img' : Img} (x y : F64) :
      Observable (permittedProject E c p.1 p.2).1 x → Observable (permittedProject E c p.1 p.2).2 y →
      Draws E I c color ps (img.set (Fl.toInt I.int x) (Fl.toInt I.int y) color) img' → Draws E I c color (p :: ps) img img'

/-- vis.go:38-58: a picture of the size of the grid; every pixel has one of the colours that may be computed for its value -/
def Shaded (E : Env) (I : Impl) (c : Composite) (img : Img) : Prop :=
  Img.WF img ∧ (img.w : Int) = c.dx ∧ (img.h : Int) = c.dy ∧
  ∀ x y : Nat, (x : Int) < c.dx → (y : Int) < c.dy →
    ∃ v col, c.At x y = some v ∧ permittedColor I E.math c (v.conv f64) col ∧ img.at x y = some col

/-- radolan2png.go:71-98: on a grid with a projection the border and then the mesh are drawn over the values -/
def Finished (E : Env) (I : Impl) (border : List (F64 × F64)) (c : Composite) (base img : Img) : Prop :=
  if c.hasProjection then ∃ mesh mid, Cli.meshPoints I = some mesh ∧
    Draws E I c Cli.borderColor border base mid ∧ Draws E I c Cli.meshColor mesh mid img
  else img = base

/-- radolan2png.go:63-98: the values and what is drawn over them -/
def PermittedPicture (E : Env) (I : Impl) (border : List (F64 × F64)) (c : Composite) (img : Img) : Prop :=
  ∃ base, Shaded E I c base ∧ Finished E I border c base img

end Spec.Fusion
