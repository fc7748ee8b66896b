/-
Model of /repo/radolan2png/radolan2png.go, function convert.
-/
import Verif.Model.Vis

namespace Radolan.Cli
open Go Radolan.Vis

def borderColor : RGBA := ⟨0xFF, 0xFF, 0x00, 0xFF⟩
def meshColor : RGBA := ⟨0x33, 0xFF, 0x22, 0xFF⟩

/-- time.Hour in nanoseconds -/
def hour : Int := 3600 * 10 ^ 9

/-- radolan2png.go:44-61: the colour function for a composite; `none` is the nil function -/
def colorFunc (I : Impl) (L : MathLib) (c : Composite) : Option ColorFunc :=
  if c.dataUnit = Unit_mm then
    let max : ℚ := 200
    let max := if c.interval ≤ hour then 100 else max
    let max := if hour * 24 * 7 ≤ c.interval then 400 else max
    some (Heatmap I (Fl.lit f64 (1 / 10)) (Fl.lit f64 max) (Log L))
  else if c.dataUnit = Unit_dBZ then some (HeatmapReflectivity I)
  else if c.dataUnit = Unit_km then some (Graymap I (Fl.lit f64 0) (Fl.lit f64 15) Id)
  else if c.dataUnit = Unit_mps then some (HeatmapRadialVelocity I L)
  else none

/-- radolan2png.go:71-77 and 79-87: draw points given by geographic coordinates -/
def drawPoints (E : Env) (I : Impl) (c : Composite) (color : RGBA) (pts : List (F64 × F64)) (img : Img) : Img :=
  pts.foldl (fun img p =>
    let q := c.Project E p.1 p.2
    img.set (Fl.toInt I.int q.1) (Fl.toInt I.int q.2) color) img

/-- a `for v := from; v < to; v += step` loop over float64; `none` if it does not end within `fuel` iterations -/
def floatLoop (lim step : F64) : Nat → F64 → Option (List F64)
  | 0, v => if Fl.lt v lim then none else some []
  | fuel + 1, v => if Fl.lt v lim then (floatLoop lim step fuel (Fl.add v step)).map (v :: ·) else some []

/-- radolan2png.go:82: `e-float64(int(e)) < 0.1` -/
def onLine (I : Impl) (e : F64) : Bool :=
  Fl.lt (Fl.sub e (Fl.lit f64 (Fl.toInt I.int e : ℚ))) (Fl.lit f64 (1 / 10))

/-- radolan2png.go:80-87: the mesh points, in drawing order (the loops have 151 and 90 iterations, see C49_mesh) -/
def meshPoints (I : Impl) : Option (List (F64 × F64)) := do
  let es ← floatLoop (Fl.lit f64 16) (Fl.lit f64 (1 / 10)) 1000 (Fl.lit f64 1)
  let ns ← floatLoop (Fl.lit f64 55) (Fl.lit f64 (1 / 10)) 1000 (Fl.lit f64 46)
  some (es.flatMap fun e => (ns.filter fun n => onLine I e || onLine I n).map fun n => (n, e))

/-- What convert does with the contents of an input file: it exits with an error (`fail`), panics, or encodes an
image. Opening, creating and PNG encoding files are not modelled; `border` is the table of borders.go. -/
inductive Result where
  | fail (e : Err)
  | panic
  | image (img : Img)

/-- radolan2png.go:33-98. A nil colour function panics when Image calls it (on every pixel of a parsed composite). -/
def convert (E : Env) (I : Impl) (border : List (F64 × F64)) (input : Bytes) : Result :=
  match NewComposite E input with
  | .panic => .panic
  | .ret _ (some e) => .fail e
  | .ret c none =>
    match colorFunc I E.math c with
    | none => .panic
    | some fn =>
      match Image fn c 0 with
      | none => .panic
      | some img =>
        if c.hasProjection then
          match meshPoints I with
          | none => .panic
          | some mesh => .image (drawPoints E I c meshColor mesh (drawPoints E I c borderColor border img))
        else .image img

end Radolan.Cli
