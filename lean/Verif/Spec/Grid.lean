/-
The grids of the projection (RADOLAN format description): base dimensions and the corner coordinates.
-/
import Verif.Spec.Api

namespace Spec
open Go Radolan

/-- a composite ready for projection: successfully parsed or made by NewDummy -/
inductive Ready (E : Env) : Composite → Prop
  | parsed (input : Bytes) (c : Composite) (h : Success E input c) : Ready E c
  | dummy (product : Bytes) (format dx dy : Int) : Ready E (NewDummy E product format dx dy)

/-- the known grids, as (width, height) at the coarsest resolution: 900x900 km, 920x920 km, 900x1100 km,
1100x1200 km and 1400x1500 km, each halved as often as both edges are even -/
def baseGrids : List (Int × Int) := [(225, 225), (115, 115), (225, 275), (275, 300), (350, 375)]

/-- `dx x dy` is the base grid `b` with `2^k` times as many pixels along each edge -/
def Scaled (b : Int × Int) (dx dy : Int) : Prop := ∃ k : Nat, dx = b.1 * 2 ^ k ∧ dy = b.2 * 2 ^ k

/-- corner coordinates in degrees: north and east of the top left corner, north and east of the bottom right one -/
def corners (b : Int × Int) (format : Int) : Option (ℚ × ℚ × ℚ × ℚ) :=
  if b = (225, 225) then some (54.5877, 2.0715, 47.0705, 14.6209)
  else if b = (115, 115) then some (54.66218275, 1.900684377, 46.98044293, 14.73300934)
  else if b = (225, 275) then some (55.5482, 3.0889, 46.1827, 15.4801)
  else if b = (275, 300) then
    if 5 ≤ format then some (55.86208711, 1.463301510, 45.68460578, 16.58086935)
    else some (55.86584289, 1.435612143, 45.68358331, 16.60186543)
  else if b = (350, 375) then some (56.5423, -0.8654, 43.8736, 18.2536)
  else none

end Spec
