/-
Vocabulary for the colours of radolan2png.
-/
import Verif.Model.Vis
import Mathlib.Data.Real.Basic

namespace Spec
open Go Radolan.Vis

/-- a pixel value that is a number of at least `q` -/
def AtLeast {f : Fmt} (v : Fl f) (q : ℚ) : Prop := v = .inf false ∨ (v.isFin = true ∧ q ≤ v.val)

/-- a pixel value that is a number below `q` -/
def Below {f : Fmt} (v : Fl f) (q : ℚ) : Prop := v = .inf true ∨ (v.isFin = true ∧ v.val < q)

/-- clearly different from black -/
def Visible (c : RGBA) : Prop := 127 ≤ c.r ∨ 127 ≤ c.g ∨ 127 ≤ c.b

/-- the colour of a pixel with value `v`: the colour function is applied to `float64(v)` -/
def pixelColor (f : ColorFunc) (v : F32) : RGBA := f (v.conv f64)

/-- the upper end of the precipitation colours in mm, by the interval in nanoseconds: 100 mm up to an hour, 400 mm from
a week on, 200 mm in between -/
def rainMax (interval : Int) : ℚ :=
  if interval ≤ 3600 * 10 ^ 9 then 100 else if 7 * 24 * 3600 * 10 ^ 9 ≤ interval then 400 else 200

/-- `l` is the fraction `r` of full brightness, 255, rounded down - up to a rounding error of 10^-8 -/
def Brightness (l : UInt8) (r : ℝ) : Prop := (l.toNat : ℝ) ≤ 255 * r + 1 / 10 ^ 8 ∧ 255 * r - 1 / 10 ^ 8 < l.toNat + 1

end Spec
