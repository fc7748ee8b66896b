/- The plane coordinates in float64 against the exact ones. -/
import Verif.Lemmas.Tracks

namespace Radolan
open Go Go.Fl Real

/-- float64 arithmetic with an accurate math library is exact up to rounding -/
theorem tracks_f64 {L : MathLib} (hL : Spec.AccurateMath L) : Tracks (f64Arith L) Ap where
  mono h hd := h.mono hd
  lit := lit_ap
  lit_zero := ⟨by rw [show (f64Arith L).lit 0 = Fl.lit f64 0 from rfl, Fl.lit_zero]; rfl, by
    rw [show (f64Arith L).lit 0 = Fl.lit f64 0 from rfl, Fl.lit_zero]; simp [Fl.val, Fl.zero]⟩
  lit_one := ⟨by rw [show (f64Arith L).lit 1 = Fl.lit f64 1 from rfl, Fl.lit_one]; rfl, by
    rw [show (f64Arith L).lit 1 = Fl.lit f64 1 from rfl, Fl.lit_one]; simp [Fl.val]⟩
  piMul _ := rfl
  ofInt h0 h1 h2 := by
    obtain ⟨a, b⟩ := Fl.lit_scaled h0 h1 h2
    refine ⟨a, ?_⟩
    simp only [f64Arith]
    rw [b]; simp
  add := add_ap
  sub := sub_ap
  mul := mul_ap
  div := div_ap
  neg := neg_ap
  sin := sin_ap hL
  cos := cos_ap hL
  tan := tan_ap hL
  pow := pow_ap hL

/-- the float inputs stand for a point in the domain of the accuracy statement -/
abbrev PointAp (xn xe : F64) (n e : ℝ) : Prop := PointTracks Ap xn xe n e

/-- the plane coordinates in float64 are within two micrometres of the exact ones -/
theorem plane_ap {L : MathLib} (hL : Spec.AccurateMath L) (format : Int) {xn xe : F64} {n e : ℝ} (h : PointAp xn xe n e) :
    Ap (planeXY (f64Arith L) format xn xe).1 (planeXY realArith format n e).1 (2 / 10 ^ 9) ∧
    Ap (planeXY (f64Arith L) format xn xe).2 (planeXY realArith format n e).2 (2 / 10 ^ 9) ∧
    |(planeXY realArith format n e).1| ≤ 65000 ∧ |(planeXY realArith format n e).2| ≤ 65000 :=
  plane_tr (tracks_f64 hL) format h

end Radolan
