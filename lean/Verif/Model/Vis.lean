/-
Model of /repo/radolan2png/vis/vis.go.
-/
import Verif.Model.Composite

namespace Radolan.Vis
open Go

/-- color.RGBA (image/color) -/
structure RGBA where
  r : UInt8
  g : UInt8
  b : UInt8
  a : UInt8
  deriving DecidableEq, Repr

/-- the zero value: transparent black -/
def RGBA.zero : RGBA := ⟨0, 0, 0, 0⟩
def black : RGBA := ⟨0, 0, 0, 255⟩

/-- What the Go specification leaves to the implementation: the result of converting a NaN or out of range float64
to uint8 and to int. Every theorem holds for every choice. -/
structure Impl where
  u8 : F64 → UInt8
  int : F64 → Int

/-- vis.go:11, type ColorFunc -/
abbrev ColorFunc := F64 → RGBA

/-- vis.go:48-50 -/
def Id (x : F64) : F64 := x

/-- vis.go:53-55 -/
def Log (L : MathLib) (x : F64) : F64 := L.log x

/-- `math.Max` -/
def fmax (x y : F64) : F64 :=
  if x = .inf false ∨ y = .inf false then .inf false
  else if x = .nan ∨ y = .nan then .nan
  else if x.val = 0 ∧ x.isFin ∧ y.val = 0 ∧ y.isFin then (if x.sign then y else x)
  else if Fl.lt y x then x else y

/-- vis.go:79-98 -/
def Graymap (I : Impl) (min max : F64) (compression : F64 → F64) : ColorFunc :=
  let min := compression min
  let max := compression max
  fun val =>
    let val := compression val
    if Fl.lt val min then black
    else
      let p := Fl.div (Fl.sub val min) (Fl.sub max min)
      let p := if Fl.lt (Fl.lit f64 1) p then Fl.lit f64 1 else p
      let l := Fl.toU8 I.u8 (Fl.mul (Fl.lit f64 255) p)
      ⟨l, l, l, 255⟩

/-- vis.go:102-128 -/
def Radialmap (I : Impl) (min max : F64) (compression : F64 → F64) : ColorFunc := fun val =>
  if !(Fl.beq val val) then black
  else
    let base := fmax (Fl.abs min) (Fl.abs max)
    let p := Fl.div (compression (Fl.abs val)) (compression base)
    let p := if Fl.lt (Fl.lit f64 1) p then Fl.lit f64 1 else p
    let lev := Fl.toU8 I.u8 (Fl.mul (Fl.lit f64 255) p)
    let non : UInt8 := 0
    let (lev, non) := if Fl.le (Fl.abs val) (Fl.lit f64 1) then ((255 : UInt8), (0xCC : UInt8)) else (lev, non)
    if Fl.lt val (Fl.lit f64 0) then ⟨non, lev, lev, 255⟩ else ⟨lev, non, non, 255⟩

/-- vis.go:158-173: the channels before lightness matching, chosen by the hue sector -/
def sector (h : Int) (c x : F64) : F64 × F64 × F64 :=
  let z := Fl.lit f64 0
  if h = 0 then (c, x, z)
  else if h = 1 then (x, c, z)
  else if h = 2 then (z, c, x)
  else if h = 3 then (z, x, c)
  else if h = 4 then (x, z, c)
  else if h = 5 then (c, z, x)
  else (z, z, z)

/-- vis.go:141-181: the colour for a position `p` in the gradient -/
def heatColor (I : Impl) (p : F64) : RGBA :=
  let n := fun q : ℚ => Fl.lit f64 q
  let p := if Fl.lt (n 1) p then n 1 else p
  let h := Fl.fmod (Fl.add (Fl.sub (n 360) (Fl.mul (n 330) p)) (n 240)) (n 360)
  let s := n 1
  let l := Fl.add (Fl.mul (n (1 / 2)) p) (n (1 / 4))
  let c := Fl.mul (Fl.sub (n 1) (Fl.abs (Fl.sub (Fl.mul (n 2) l) (n 1)))) s
  let hh := Fl.div h (n 60)
  let x := Fl.mul c (Fl.sub (n 1) (Fl.abs (Fl.sub (Fl.fmod hh (n 2)) (n 1))))
  let hh := if hh = .nan then n (-1) else hh
  let k := sector (Fl.toInt I.int hh) c x
  let m := Fl.sub l (Fl.div c (n 2))
  let u := fun v => Fl.toU8 I.u8 (Fl.mul (n 255) (Fl.add v m))
  ⟨u k.1, u k.2.1, u k.2.2, 255⟩

/-- vis.go:132-182 -/
def Heatmap (I : Impl) (min max : F64) (compression : F64 → F64) : ColorFunc :=
  let min := compression min
  let max := compression max
  fun val =>
    let val := compression val
    if Fl.lt val min then black
    else heatColor I (Fl.div (Fl.sub val min) (Fl.sub max min))

/-! ### predefined gradients, vis.go:14-45 -/

def HeatmapReflectivityShort (I : Impl) : ColorFunc := Heatmap I (Fl.lit f64 5) (Fl.lit f64 75) Id
def HeatmapReflectivity (I : Impl) : ColorFunc := Heatmap I (Fl.lit f64 1) (Fl.lit f64 75) Id
def HeatmapReflectivityWide (I : Impl) : ColorFunc := Heatmap I (Fl.lit f64 (-65 / 2)) (Fl.lit f64 75) Id
def HeatmapAccumulatedHour (I : Impl) (L : MathLib) : ColorFunc :=
  Heatmap I (Fl.lit f64 (1 / 10)) (Fl.lit f64 100) (Log L)
def HeatmapAccumulatedDay (I : Impl) (L : MathLib) : ColorFunc :=
  Heatmap I (Fl.lit f64 (1 / 10)) (Fl.lit f64 200) (Log L)
def HeatmapRadialVelocity (I : Impl) (L : MathLib) : ColorFunc :=
  Radialmap I (Fl.lit f64 (-63 / 2)) (Fl.lit f64 (63 / 2)) (Log L)
def GraymapLinear (I : Impl) : ColorFunc := Graymap I (Fl.lit f64 0) (Fl.lit f64 (819 / 2)) Id
def GraymapLinearWide (I : Impl) : ColorFunc := Graymap I (Fl.lit f64 0) (Fl.lit f64 4095) Id

/-! ### image.RGBA (Go standard library) -/

/-- An image with the bounds (0,0)-(w,h), row by row. -/
structure Img where
  w : Nat
  h : Nat
  pix : List (List RGBA)

/-- `image.NewRGBA(image.Rect(0, 0, x, y))`: Rect swaps the coordinates of a negative extent (the bounds are then
(x,y)-(0,0); here only their size is kept). `none`: panic because the pixel buffer is too large. -/
def newRGBA (x y : Int) : Option Img :=
  if !makeOK 1 (4 * (x.natAbs * y.natAbs)) then none
  else some ⟨x.natAbs, y.natAbs, List.replicate y.natAbs (List.replicate x.natAbs RGBA.zero)⟩

/-- `(*image.RGBA).Set` with a color.RGBA value: a no-op outside the bounds -/
def Img.set (img : Img) (x y : Int) (c : RGBA) : Img :=
  if 0 ≤ x ∧ x < img.w ∧ 0 ≤ y ∧ y < img.h then
    { img with pix := img.pix.modify y.toNat fun row => row.set x.toNat c }
  else img

/-- the colour of a pixel -/
def Img.at (img : Img) (x y : Nat) : Option RGBA := (img.pix[y]?).bind fun row => row[x]?

/-- vis.go:69-71: the inner loop, `todo` pixels from column `x` of row `y`; `none` is an index panic -/
def rowLoop (fn : ColorFunc) (c : Composite) (layer : Int) (y : Nat) : (todo x : Nat) → Img → Option Img
  | 0, _, img => some img
  | todo + 1, x, img => do
    let l ← index? c.dataZ layer
    let row ← index? l y
    let v ← index? row x
    rowLoop fn c layer y todo (x + 1) (img.set x y (fn (v.conv f64)))

/-- vis.go:68-72: the outer loop, `todo` rows from row `y` -/
def imageLoop (fn : ColorFunc) (c : Composite) (layer : Int) : (todo y : Nat) → Img → Option Img
  | 0, _, img => some img
  | todo + 1, y, img => do
    let img ← rowLoop fn c layer y c.dx.toNat 0 img
    imageLoop fn c layer todo (y + 1) img

/-- vis.go:60-75. (A loop `for y := 0; y < c.Dy; y++` runs `max(Dy, 0)` times.) -/
def Image (fn : ColorFunc) (c : Composite) (layer : Int) : Option Img := do
  let img ← newRGBA c.dx c.dy
  if layer < 0 ∨ c.dz ≤ layer then some img
  else imageLoop fn c layer c.dy.toNat 0 img

end Radolan.Vis
