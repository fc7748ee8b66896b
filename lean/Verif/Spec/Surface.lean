/-
The surfaces of the earth the RADOLAN maps refer to (a sphere before format version 5, the WGS84 ellipsoid from it on),
with their textbook geometry, independent of the code.
-/
import Verif.Spec.Stereographic

namespace Spec.Surface
open Real Spec.Map

/-- semi-major axis (km) -/
noncomputable def axis (ellipsoid : Bool) : ℝ := if ellipsoid then 6378.137 else 6370.04

/-- eccentricity -/
noncomputable def ecc (ellipsoid : Bool) : ℝ := if ellipsoid then Map.ecc else 0

/-- radius of curvature in the prime vertical at latitude `n` (km) -/
noncomputable def primeVertical (ellipsoid : Bool) (n : ℝ) : ℝ :=
  axis ellipsoid / √(1 - ecc ellipsoid ^ 2 * sin (deg n) ^ 2)

/-- radius of curvature of the meridian at latitude `n` (km) -/
noncomputable def meridian (ellipsoid : Bool) (n : ℝ) : ℝ :=
  axis ellipsoid * (1 - ecc ellipsoid ^ 2) / √(1 - ecc ellipsoid ^ 2 * sin (deg n) ^ 2) ^ 3

/-- position in space (km) of the place `n` degrees north and `e` degrees east -/
noncomputable def place (ellipsoid : Bool) (n e : ℝ) : ℝ × ℝ × ℝ :=
  (primeVertical ellipsoid n * cos (deg n) * cos (deg e), primeVertical ellipsoid n * cos (deg n) * sin (deg e),
    (1 - ecc ellipsoid ^ 2) * primeVertical ellipsoid n * sin (deg n))

/-- straight-line distance (km) between two places -/
noncomputable def straight (ellipsoid : Bool) (n e n' e' : ℝ) : ℝ :=
  let p := place ellipsoid n e
  let q := place ellipsoid n' e'
  √((q.1 - p.1) ^ 2 + (q.2.1 - p.2.1) ^ 2 + (q.2.2 - p.2.2) ^ 2)

end Spec.Surface
