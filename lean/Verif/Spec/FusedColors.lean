/-
The colour functions of package vis, evaluated to the set of all colours a compiler that fuses floating point operations
may produce (see Spec/Fusion). Comparisons, conversions to integers and functions of package math see rounded values.
-/
import Verif.Spec.Fusion
import Verif.Model.Cli

namespace Spec.Fusion
open Go Radolan Radolan.Vis

def plus := binary Fl.add (· + ·) (fun _ _ => True)
def minus := binary Fl.sub (· - ·) (fun _ _ => True)
def times := binary Fl.mul (· * ·) (fun _ _ => True)
def over := binary Fl.div (· / ·) (fun _ q => q ≠ 0)

/-- a constant -/
def num (q : ℚ) : Inter → Prop := just (Fl.lit f64 q)

/-- `if p > 1 { p = 1 }` -/
def limited (a : Inter → Prop) : Inter → Prop := fun w =>
  (w = .word (Fl.lit f64 1) ∧ ∃ u x, a u ∧ u.Rounds x ∧ Fl.lt (Fl.lit f64 1) x = true) ∨
  (a w ∧ ∃ x, w.Rounds x ∧ Fl.lt (Fl.lit f64 1) x = false)

/-- `math.Abs`: compiled to a machine instruction, it may also act on an unrounded result -/
def absolute (a : Inter → Prop) : Inter → Prop := fun w =>
  ∃ u, a u ∧ ((∃ x, u.Rounds x ∧ w = .word (Fl.abs x)) ∨ ∃ q, u.Is q ∧ w = .exact |q|)

/-- `math.Mod` -/
def remainder (a b : Inter → Prop) : Inter → Prop := fun w =>
  ∃ u v x y, a u ∧ b v ∧ u.Rounds x ∧ v.Rounds y ∧ w = .word (Fl.fmod x y)

/-- the possible results of a conversion to uint8 -/
def toByte (I : Impl) (a : Inter → Prop) (l : UInt8) : Prop := ∃ u x, a u ∧ u.Rounds x ∧ l = Fl.toU8 I.u8 x

/-- vis.go:158-173, the assignment of chroma, second largest component and zero to the channels by the hue sector -/
def bySector {α : Type} (h : Int) (c x z : α) : α × α × α :=
  if h = 0 then (c, x, z)
  else if h = 1 then (x, c, z)
  else if h = 2 then (z, c, x)
  else if h = 3 then (z, x, c)
  else if h = 4 then (x, z, c)
  else if h = 5 then (c, z, x)
  else (z, z, z)

/-- vis.go:141-181 -/
def permittedHeatColor (I : Impl) (p : Inter → Prop) (col : RGBA) : Prop :=
  let p := limited p
  let h := remainder (plus (minus (num 360) (times (num 330) p)) (num 240)) (num 360)
  let s := num 1
  let l := plus (times (num (1 / 2)) p) (num (1 / 4))
  let c := times (minus (num 1) (absolute (minus (times (num 2) l) (num 1)))) s
  let hh := over h (num 60)
  let x := times c (minus (num 1) (absolute (minus (remainder hh (num 2)) (num 1))))
  let m := minus l (over c (num 2))
  ∃ u y, hh u ∧ u.Rounds y ∧
    let y := if y = .nan then Fl.lit f64 (-1) else y
    let k := bySector (Fl.toInt I.int y) c x (num 0)
    toByte I (times (num 255) (plus k.1 m)) col.r ∧ toByte I (times (num 255) (plus k.2.1 m)) col.g ∧
    toByte I (times (num 255) (plus k.2.2 m)) col.b ∧ col.a = 255

/-- vis.go:132-182 -/
def permittedHeatmap (I : Impl) (min max : F64) (compression : F64 → F64) (val : F64) (col : RGBA) : Prop :=
  if Fl.lt (compression val) (compression min) then col = ⟨0, 0, 0, 255⟩
  else permittedHeatColor I (over (minus (just (compression val)) (just (compression min)))
    (minus (just (compression max)) (just (compression min)))) col

/-- vis.go:79-98 -/
def permittedGraymap (I : Impl) (min max : F64) (compression : F64 → F64) (val : F64) (col : RGBA) : Prop :=
  if Fl.lt (compression val) (compression min) then col = ⟨0, 0, 0, 255⟩
  else ∃ l, toByte I (times (num 255) (limited (over (minus (just (compression val)) (just (compression min)))
    (minus (just (compression max)) (just (compression min)))))) l ∧ col = ⟨l, l, l, 255⟩

/-- vis.go:102-128 -/
def permittedRadialmap (I : Impl) (min max : F64) (compression : F64 → F64) (val : F64) (col : RGBA) : Prop :=
  if !(Fl.beq val val) then col = ⟨0, 0, 0, 255⟩
  else ∃ lev non, (if Fl.le (Fl.abs val) (Fl.lit f64 1) then lev = 255 ∧ non = 0xCC
      else non = 0 ∧ toByte I (times (num 255) (limited (over (just (compression (Fl.abs val)))
        (just (compression (fmax (Fl.abs min) (Fl.abs max))))))) lev) ∧
    col = if Fl.lt val (Fl.lit f64 0) then ⟨non, lev, lev, 255⟩ else ⟨lev, non, non, 255⟩

/-- radolan2png.go:44-61 with vis.go:14-45: the permitted colours of a pixel of a composite -/
def permittedColor (I : Impl) (L : MathLib) (c : Composite) (val : F64) (col : RGBA) : Prop :=
  let hour : Int := 3600 * 10 ^ 9
  if c.dataUnit = Unit_mm then
    let max : ℚ := if 7 * 24 * hour ≤ c.interval then 400 else if c.interval ≤ hour then 100 else 200
    permittedHeatmap I (Fl.lit f64 (1 / 10)) (Fl.lit f64 max) L.log val col
  else if c.dataUnit = Unit_dBZ then permittedHeatmap I (Fl.lit f64 1) (Fl.lit f64 75) id val col
  else if c.dataUnit = Unit_km then permittedGraymap I (Fl.lit f64 0) (Fl.lit f64 15) id val col
  else c.dataUnit = Unit_mps ∧ permittedRadialmap I (Fl.lit f64 (-63 / 2)) (Fl.lit f64 (63 / 2)) L.log val col

end Spec.Fusion
