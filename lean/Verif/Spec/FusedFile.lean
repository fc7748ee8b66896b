/-
Which pictures radolan2png may draw of a file, if the compiler fuses floating point operations as it likes, from the
decoding of a pixel to the last mark of the mesh.
-/
import Verif.Spec.FusedPicture
import Verif.Spec.FusedConversion
import Verif.Spec.AnyPrecision

namespace Spec.Fusion
open Go Radolan Radolan.Vis Props

/-- `v` may be stored for pixel (x, y) of the file -/
def PermittedValue (p : Content) (x y : Nat) (v : F32) : Prop :=
  ∃ raw, p.raw x y = some raw ∧
    match raw with
    | none => v = .nan
    | some r => PermittedPixel (decide (p.label ∈ productsIn .dBZ)) p.precision r v

/-- vis.go:38-58: a picture of the size of the grid; every pixel has one of the colours that may be computed for one of the
values that may be stored for it -/
def ShadedFile (E : Env) (I : Impl) (p : Content) (c : Composite) (img : Img) : Prop :=
  Img.WF img ∧ img.w = p.cols ∧ img.h = p.rows ∧
  ∀ x y : Nat, x < p.cols → y < p.rows →
    ∃ v col, PermittedValue p x y v ∧ permittedColor I E.math c (v.conv f64) col ∧ img.at x y = some col

/-- `img` may be the picture of the file, whose attributes are those of `c` -/
def PermittedFilePicture (E : Env) (I : Impl) (border : List (F64 × F64)) (p : Content) (c : Composite) (img : Img) : Prop :=
  ∃ base, ShadedFile E I p c base ∧ Finished E I border c base img

/-- precipitation in millimetres, as MmOf (Spec/AnyPrecision), except that the largest amount of the gradient itself may be
drawn in a colour up to one level beside the end of the gradient -/
def FusedMmOf (missing : RGBA) (m : ℚ) (seen : Bool) : Option ℚ → RGBA → Prop
  | none, c => c = missing
  | some q, c =>
    (q < 0 → c = missing) ∧
    (0 ≤ q → q < 1 / 10 → c = ⟨0, 0, 0, 255⟩) ∧
    (q = 1 / 10 → (c = ⟨0, 0, 0, 255⟩ ↔ seen = false)) ∧
    (1 / 10 < q ∨ q = 1 / 10 ∧ seen = true → (127 ≤ c.r ∨ 127 ≤ c.g ∨ 127 ≤ c.b) ∧
      (q ≤ m → ∃ v, Close v q ∧ IsHeat c (Real.log (10 * v) / Real.log (10 * m)))) ∧
    (m < q → c = ⟨191, 127, 255, 255⟩)

end Spec.Fusion
