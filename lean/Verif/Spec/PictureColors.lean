/-
What radolan2png draws of a run-length coded picture: colours by level, in tenths of the unit of the product.
-/
import Verif.Spec.Picture
import Verif.Spec.Hue

namespace Spec
open Go Radolan.Vis

/-- the level of a pixel in the lowest layer, in tenths; a class code 0 and one beyond the level table mean missing -/
def Picture.tenths (p : Picture) (x y : Nat) : Option Int :=
  (p.code x y 0).bind fun k => if k = 0 then none else p.levels[k - 1]?

/-- `r` is a tenth of `t`, up to one rounding to 24 bits -/
def Tenth (r : ℝ) (t : Int) : Prop := |r - t / 10| ≤ |(t : ℝ) / 10| / 2 ^ 24

/-- reflectivity in tenths of dBZ: below 1 dBZ black, from 75 dBZ on light violet, in between a linear gradient -/
def DbzColor (missing : RGBA) : Option Int → RGBA → Prop
  | none, c => c = missing
  | some t, c =>
    (t < 10 → c = ⟨0, 0, 0, 255⟩) ∧
    (10 ≤ t → t ≤ 750 → ∃ r, Tenth r t ∧ IsHeat c ((r - 1) / 74)) ∧
    (750 ≤ t → c = ⟨191, 127, 255, 255⟩)

/-- echo tops in tenths of a kilometre: a gray gradient from black at 0 to white at 15 km -/
def KmColor (missing : RGBA) : Option Int → RGBA → Prop
  | none, c => c = missing
  | some t, c =>
    (t ≤ 0 → c = ⟨0, 0, 0, 255⟩) ∧
    (0 ≤ t → t ≤ 150 → ∃ r l, Tenth r t ∧ c = ⟨l, l, l, 255⟩ ∧ Brightness l (r / 15)) ∧
    (150 ≤ t → c = ⟨255, 255, 255, 255⟩)

/-- velocities in tenths of a metre per second: away from the radar red, towards it cyan, the faster the brighter
(logarithmic, up to 31.5 m/s), light up to 1 m/s, missing black -/
def VelocityColor : Option Int → RGBA → Prop
  | none, c => c = ⟨0, 0, 0, 255⟩
  | some t, c =>
    (0 ≤ t → t ≤ 10 → c = ⟨255, 204, 204, 255⟩) ∧
    (-10 ≤ t → t < 0 → c = ⟨204, 255, 255, 255⟩) ∧
    (10 < t → t ≤ 315 → ∃ r l, Tenth r t ∧ c = ⟨l, 0, 0, 255⟩ ∧ Brightness l (Real.log r / Real.log (63 / 2))) ∧
    (-315 ≤ t → t < -10 → ∃ r l, Tenth r t ∧ c = ⟨0, l, l, 255⟩ ∧ Brightness l (Real.log (-r) / Real.log (63 / 2))) ∧
    (315 ≤ t → c = ⟨255, 0, 0, 255⟩) ∧
    (t ≤ -315 → c = ⟨0, 255, 255, 255⟩)

/-- precipitation in tenths of a millimetre: nothing is black, 0.1 mm the first visible amount, from 100 mm on light
violet, in between a logarithmic gradient; negative levels are drawn as missing -/
def MmColor (missing : RGBA) : Option Int → RGBA → Prop
  | none, c => c = missing
  | some t, c =>
    (t < 0 → c = missing) ∧
    (t = 0 → c = ⟨0, 0, 0, 255⟩) ∧
    (1 ≤ t → 127 ≤ c.r ∨ 127 ≤ c.g ∨ 127 ≤ c.b) ∧
    (1 ≤ t → t ≤ 1000 → ∃ r, Tenth r t ∧ IsHeat c (Real.log (10 * r) / Real.log 1000)) ∧
    (1000 ≤ t → c = ⟨191, 127, 255, 255⟩)

end Spec
