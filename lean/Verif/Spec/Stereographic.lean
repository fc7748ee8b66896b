/-
The maps of the RADOLAN products, from their documentation (polar stereographic projection with true scale at 60 N and the
meridian 10 E pointing down), independent of the code.
-/
import Mathlib.Analysis.SpecialFunctions.Pow.Real
import Mathlib.Analysis.SpecialFunctions.Trigonometric.Basic

namespace Spec.Map
open Real

/-- degrees to radians -/
noncomputable def deg (d : ℝ) : ℝ := d * (π / 180)

/-- Sphere of radius 6370.04 km: distance on the map (km) of the parallel `n` from the pole, `R M cos n` with the scale
`M = (1 + sin 60) / (1 + sin n)`. -/
noncomputable def rhoSphere (n : ℝ) : ℝ :=
  6370.04 * ((1 + sin (deg 60)) / (1 + sin (deg n))) * cos (deg n)

/-- eccentricity of WGS84 (16 digits) -/
noncomputable def ecc : ℝ := 0.08181919084262032

/-- tangent of half the colatitude on the ellipsoid, `t` in Snyder, Map Projections, (15-9) -/
noncomputable def half (n : ℝ) : ℝ :=
  tan (π / 4 - deg n / 2) / ((1 - ecc * sin (deg n)) / (1 + ecc * sin (deg n))) ^ (ecc / 2)

/-- WGS84, semi-major axis 6378.137 km: distance on the map (km) of the parallel `n` from the pole, true to scale at 60 N;
Snyder (21-34), (14-15). -/
noncomputable def rhoEllipsoid (n : ℝ) : ℝ :=
  6378.137 * (cos (deg 60) / √(1 - ecc ^ 2 * sin (deg 60) ^ 2)) * half n / half 60

/-- position on the map (km right of and below the pole) of the place `n` degrees north and `e` degrees east -/
noncomputable def plane (ellipsoid : Bool) (n e : ℝ) : ℝ × ℝ :=
  let ρ := if ellipsoid then rhoEllipsoid n else rhoSphere n
  (ρ * sin (deg (e - 10)), ρ * cos (deg (e - 10)))

/-- Pixel coordinates on a picture of `dx x dy` pixels whose top left corner is the place `(ot, ol)` and whose bottom right
corner is the place `(eb, er)`. -/
noncomputable def pixel (ellipsoid : Bool) (ot ol eb er : ℝ) (dx dy : ℝ) (n e : ℝ) : ℝ × ℝ :=
  let p := plane ellipsoid n e
  let o := plane ellipsoid ot ol
  let q := plane ellipsoid eb er
  ((p.1 - o.1) / (q.1 - o.1) * dx, (p.2 - o.2) / (q.2 - o.2) * dy)

end Spec.Map
