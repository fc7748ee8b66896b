/-
The colours of a heat map, as points in the HSL colour space.
-/
import Verif.Spec.Palette
import Mathlib.Analysis.SpecialFunctions.Log.Basic

namespace Spec

/-- hue in degrees at the position `p` in [0, 1]: from blue (240) down through green (120) and red (0 = 360) to violet
(270), 330 degrees altogether -/
noncomputable def hue (p : ℝ) : ℝ := if 330 * p ≤ 240 then 240 - 330 * p else 600 - 330 * p

/-- lightness at the position `p`: from dark (1/4) to bright (3/4) -/
noncomputable def lightness (p : ℝ) : ℝ := 1 / 4 + p / 2

/-- How much of the primary colour at `k` degrees (red 0, green 120, blue 240) is in a hue `h`: all of it up to 60
degrees away on the circle, nothing from 120 degrees on, linear in between. -/
noncomputable def strength (h k : ℝ) : ℝ := max 0 (min 1 (2 - min |h - k| (360 - |h - k|) / 60))

/-- a channel of the saturated colour with hue `h` and lightness `l`; the range is centred at the lightness and has
the width (chroma) 1 - |2l - 1| -/
noncomputable def hsl (h l k : ℝ) : ℝ := l + (1 - |2 * l - 1|) * (strength h k - 1 / 2)

/-- an opaque colour with the channels of the position `p` in the gradient, rounded down -/
def IsHeat (c : Radolan.Vis.RGBA) (p : ℝ) : Prop :=
  Brightness c.r (hsl (hue p) (lightness p) 0) ∧ Brightness c.g (hsl (hue p) (lightness p) 120) ∧
  Brightness c.b (hsl (hue p) (lightness p) 240) ∧ c.a = 255

end Spec
