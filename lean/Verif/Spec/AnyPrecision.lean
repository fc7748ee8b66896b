/-
What radolan2png draws of a file with one or two bytes per pixel: colours by the exact decimal value the file states.
-/
import Verif.Spec.EndToEnd
import Verif.Spec.Hue

namespace Spec
open Go Radolan.Vis

/-- the raw number stored for a pixel (row 0 on top): `some none` means missing data -/
def Content.raw (p : Content) (x y : Nat) : Option (Option Int) :=
  let i := (p.rows - 1 - y) * p.cols + x
  if p.wide then
    match p.data[2 * i]?, p.data[2 * i + 1]? with
    | some lo, some hi => some (
        if hi.toNat / 32 % 2 = 1 then none
        else some (if hi.toNat / 64 % 2 = 1 then -(hi.toNat % 16 * 256 + lo.toNat : Int) else hi.toNat % 16 * 256 + lo.toNat))
    | _, _ => none
  else (p.data[i]?).map fun b => if b.toNat = 250 then none else some (b.toNat : Int)

/-- the exact value stated by the file: raw number times power of ten -/
def Content.stated (p : Content) (r : Int) : ℚ := r * (10 : ℚ) ^ p.precision

/-- `v` is `q` up to the rounding errors of the decoding -/
def Close (v : ℝ) (q : ℚ) : Prop := |v - q| ≤ |(q : ℝ)| / 2 ^ 22

/-- reflectivity in dBZ, given in RVP-6 units of half a dBZ from -32.5 on -/
def DbzOf (missing : RGBA) : Option ℚ → RGBA → Prop
  | none, c => c = missing
  | some q, c =>
    (q / 2 - 65 / 2 < 1 → c = ⟨0, 0, 0, 255⟩) ∧
    (1 ≤ q / 2 - 65 / 2 → q / 2 - 65 / 2 ≤ 75 →
      ∃ v : ℝ, |v - (q / 2 - 65 / 2)| ≤ 300 / 2 ^ 22 ∧ IsHeat c ((v - 1) / 74)) ∧
    (75 ≤ q / 2 - 65 / 2 → c = ⟨191, 127, 255, 255⟩)

/-- echo tops in kilometres -/
def KmOf (missing : RGBA) : Option ℚ → RGBA → Prop
  | none, c => c = missing
  | some q, c =>
    (q ≤ 0 → c = ⟨0, 0, 0, 255⟩) ∧
    (0 ≤ q → q ≤ 15 → ∃ v l, Close v q ∧ c = ⟨l, l, l, 255⟩ ∧ Brightness l (v / 15)) ∧
    (15 ≤ q → c = ⟨255, 255, 255, 255⟩)

/-- velocities in metres per second -/
def VelocityOf : Option ℚ → RGBA → Prop
  | none, c => c = ⟨0, 0, 0, 255⟩
  | some q, c =>
    (0 ≤ q → q ≤ 1 → c = ⟨255, 204, 204, 255⟩) ∧
    (-1 ≤ q → q < 0 → c = ⟨204, 255, 255, 255⟩) ∧
    (1 < q → q ≤ 63 / 2 → ∃ v l, Close v q ∧ c = ⟨l, 0, 0, 255⟩ ∧ Brightness l (Real.log v / Real.log (63 / 2))) ∧
    (-63 / 2 ≤ q → q < -1 → ∃ v l, Close v q ∧ c = ⟨0, l, l, 255⟩ ∧ Brightness l (Real.log (-v) / Real.log (63 / 2))) ∧
    (63 / 2 ≤ q → c = ⟨255, 0, 0, 255⟩) ∧
    (q ≤ -63 / 2 → c = ⟨0, 255, 255, 255⟩)

/-- precipitation in millimetres, the gradient ending at `m`; `seen`: 0.1 mm is drawn in the first colour of the
gradient, not in black -/
def MmOf (missing : RGBA) (m : ℚ) (seen : Bool) : Option ℚ → RGBA → Prop
  | none, c => c = missing
  | some q, c =>
    (q < 0 → c = missing) ∧
    (0 ≤ q → q < 1 / 10 → c = ⟨0, 0, 0, 255⟩) ∧
    (q = 1 / 10 → (c = ⟨0, 0, 0, 255⟩ ↔ seen = false)) ∧
    (1 / 10 < q ∨ q = 1 / 10 ∧ seen = true → (127 ≤ c.r ∨ 127 ≤ c.g ∨ 127 ≤ c.b) ∧
      (q ≤ m → ∃ v, Close v q ∧ IsHeat c (Real.log (10 * v) / Real.log (10 * m)))) ∧
    (m ≤ q → c = ⟨191, 127, 255, 255⟩)

end Spec
