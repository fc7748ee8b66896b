/-
Model of /repo/projection.go, projection_sphere.go, projection_wgs84.go.
-/
import Verif.Model.Arith

namespace Radolan
open Go

/-- projection.go:9-18, type grid -/
inductive Grid where
  | unknown | national | nationalPicture | extendedNational | de1200 | middleEuropean
  deriving DecidableEq, Repr

/-- projection.go:27-30, the loop of `minRes`: `for rdx&1 == 0 && rdy&1 == 0 { rdx >>= 1; rdy >>= 1 }`.
The loop is given `fuel` iterations; `minRes` passes enough (see `minRes_odd` in Lemmas/Grid). -/
def minResLoop : Nat → Int → Int → Int × Int
  | 0, rdx, rdy => (rdx, rdy)
  | fuel + 1, rdx, rdy =>
    if rdx % 2 = 0 ∧ rdy % 2 = 0 then minResLoop fuel (rdx / 2) (rdy / 2) else (rdx, rdy)

/-- projection.go:21-32 -/
def minRes (dx dy : Int) : Int × Int :=
  if dx = 0 ∨ dy = 0 then (dx, dy) else minResLoop dx.natAbs dx dy

/-- projection.go:38-57 -/
def detectGrid (cdx cdy : Int) : Grid :=
  let d := minRes cdx cdy
  if d = minRes 900 900 then .national
  else if d = minRes 920 920 then .nationalPicture
  else if d = minRes 900 1100 then .extendedNational
  else if d = minRes 1100 1200 then .de1200
  else if d = minRes 1400 1500 then .middleEuropean
  else .unknown

/-- projection_wgs84.go:7-15, type projection -/
structure Projection (α : Type) where
  lon_0 : α
  ecc : α
  k_0 : α
  x_0 : α
  y_0 : α
  scale : α

/-- projection_wgs84.go:23-31. `lon_0: 10 * degToRad` is a constant expression. -/
def projDE1200 (A : Arith α) : Projection α where
  lon_0 := A.piMul (10 * 2 / 360)
  ecc := A.lit (mkRat 8181919084262032 (10 ^ 17))
  k_0 := A.lit (mkRat 11862667042661695 (10 ^ 9))
  x_0 := A.lit (mkRat 54319683521776402 (10 ^ 11))
  y_0 := A.lit (mkRat 3622588861931001 (10 ^ 9))
  scale := A.lit 1000

/-- The projection related fields of Composite (radolan.go:104-107, 116-119). -/
structure Calib (α : Type) where
  rx : α
  ry : α
  hasProjection : Bool
  offx : α
  offy : α
  wgs84 : Option (Projection α)

/-- Corner coordinates (originTop, originLeft, edgeBottom, edgeRight). -/
structure Corners (α : Type) where
  originTop : α
  originLeft : α
  edgeBottom : α
  edgeRight : α

/-- projection.go:63-89, `cornerPoints`; `none` is errNoProjection. -/
def cornerPoints (A : Arith α) (format : Int) (g : Grid) : Option (Corners α) :=
  match g with
  | .national => some
      ⟨A.lit (mkRat 545877 (10 ^ 4)), A.lit (mkRat 20715 (10 ^ 4)),
       A.lit (mkRat 470705 (10 ^ 4)), A.lit (mkRat 146209 (10 ^ 4))⟩
  | .nationalPicture => some
      ⟨A.lit (mkRat 5466218275 (10 ^ 8)), A.lit (mkRat 1900684377 (10 ^ 9)),
       A.lit (mkRat 4698044293 (10 ^ 8)), A.lit (mkRat 1473300934 (10 ^ 8))⟩
  | .extendedNational => some
      ⟨A.lit (mkRat 555482 (10 ^ 4)), A.lit (mkRat 30889 (10 ^ 4)),
       A.lit (mkRat 461827 (10 ^ 4)), A.lit (mkRat 154801 (10 ^ 4))⟩
  | .de1200 =>
    if 5 ≤ format then some
      ⟨A.lit (mkRat 5586208711 (10 ^ 8)), A.lit (mkRat 1463301510 (10 ^ 9)),
       A.lit (mkRat 4568460578 (10 ^ 8)), A.lit (mkRat 1658086935 (10 ^ 8))⟩
    else some
      ⟨A.lit (mkRat 5586584289 (10 ^ 8)), A.lit (mkRat 1435612143 (10 ^ 9)),
       A.lit (mkRat 4568358331 (10 ^ 8)), A.lit (mkRat 1660186543 (10 ^ 8))⟩
  | .middleEuropean => some
      ⟨A.lit (mkRat 565423 (10 ^ 4)), A.lit (mkRat (-8654) (10 ^ 4)),
       A.lit (mkRat 438736 (10 ^ 4)), A.lit (mkRat 182536 (10 ^ 4))⟩
  | .unknown => none

/-- projection_sphere.go:8-13 constants -/
def earthRadius (A : Arith α) : α := A.lit (mkRat 637004 100)
def junctionNorth (A : Arith α) : α := A.lit 60
def junctionEast (A : Arith α) : α := A.lit 10

/-- projection_sphere.go:16-18, the local function `rad`: `deg * (math.Pi / 180.0)` -/
def rad (A : Arith α) (deg : α) : α := A.mul deg (A.piMul (1 / 180))

/-- projection_sphere.go:15-25: the plane coordinates before offset correction and scaling -/
def sphereXY (A : Arith α) (north east : α) : α × α :=
  let lamda0 := rad A (junctionEast A)
  let phi0 := rad A (junctionNorth A)
  let lamda := rad A east
  let phi := rad A north
  let m := A.div (A.add (A.lit 1) (A.sin phi0)) (A.add (A.lit 1) (A.sin phi))
  (A.mul (A.mul (A.mul (earthRadius A) m) (A.cos phi)) (A.sin (A.sub lamda lamda0)),
   A.mul (A.mul (A.mul (earthRadius A) m) (A.cos phi)) (A.cos (A.sub lamda lamda0)))

/-- projection_sphere.go:15-36 -/
def projectSphere (A : Arith α) (c : Calib α) (north east : α) : α × α :=
  let p := sphereXY A north east
  (A.div (A.sub p.1 c.offx) c.rx, A.div (A.sub p.2 c.offy) c.ry)

/-- projection_wgs84.go:18 `degToRad = 2 * math.Pi / 360` -/
def degToRad (A : Arith α) : α := A.piMul (2 / 360)

/-- projection_wgs84.go:33-50: the plane coordinates (km) before offset correction and scaling -/
def wgs84XY (A : Arith α) (p : Projection α) (north east : α) : α × α :=
  let lat := A.mul north (degToRad A)
  let lon := A.mul east (degToRad A)
  let sinLat := A.sin lat
  let s := A.div
    (A.mul p.k_0 (A.tan (A.mul (A.lit (1 / 2)) (A.sub (A.piMul (1 / 2)) lat))))
    (A.pow (A.div (A.sub (A.lit 1) (A.mul p.ecc sinLat)) (A.add (A.lit 1) (A.mul p.ecc sinLat)))
      (A.mul (A.lit (1 / 2)) p.ecc))
  let x := A.add p.x_0 (A.mul s (A.sin (A.sub lon p.lon_0)))
  let y := A.sub p.y_0 (A.mul s (A.cos (A.sub lon p.lon_0)))
  (A.div x p.scale, A.div y (A.neg p.scale))

/-- projection_wgs84.go:33-60 -/
def projectWGS84 (A : Arith α) (c : Calib α) (p : Projection α) (north east : α) : α × α :=
  let q := wgs84XY A p north east
  (A.div (A.sub q.1 c.offx) c.rx, A.div (A.sub q.2 c.offy) c.ry)

/-- projection.go:135-145, `Project` -/
def project (A : Arith α) (c : Calib α) (north east : α) : α × α :=
  if !c.hasProjection then (A.nan, A.nan)
  else match c.wgs84 with
    | some p => projectWGS84 A c p north east
    | none => projectSphere A c north east

/-- projection.go:92-130, `calibrateProjection`, as a function of the three fields it reads
(`c.Format`, `c.Dx`, `c.Dy`) on a composite whose `HasProjection` is still false and whose
`proj_wgs84` is still nil (true at both call sites, radolan.go:147 and 189). -/
def calibrate (A : Arith α) (format dx dy : Int) : Calib α :=
  let c0 : Calib α := ⟨A.nan, A.nan, false, A.nan, A.nan, none⟩
  let g := detectGrid dx dy
  match cornerPoints A format g with
  | none => c0
  | some k =>
    if 5 ≤ format ∧ g ≠ .de1200 then c0
    else
      let wgs := if 5 ≤ format then some (projDE1200 A) else none
      let c1 : Calib α := ⟨A.lit 1, A.lit 1, true, A.lit 0, A.lit 0, wgs⟩
      let o := project A c1 k.originTop k.originLeft
      let c2 : Calib α := { c1 with offx := o.1, offy := o.2 }
      let r := project A c2 k.edgeBottom k.edgeRight
      { c2 with rx := A.div r.1 (A.ofInt dx), ry := A.div r.2 (A.ofInt dy) }

end Radolan
