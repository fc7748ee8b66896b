/- The code of Model/Trig.lean in any arithmetic with bounded rounding errors. -/
import Verif.Lemmas.TrigPoly
import Verif.Lemmas.Tracks
import Verif.Lemmas.FloatOrder
import Verif.Lemmas.FloatDiv
import Mathlib.Tactic.IntervalCases

namespace Radolan.Trig
open Go Go.Fl Real

/-- the value of the constant `PI4A`: it has 23 significant bits, so that its product with a small integer is exact -/
noncomputable def pi4 : ℝ := 6588397 / 8388608

/-- what is needed of an arithmetic to evaluate the trigonometric functions -/
structure TrigTracks {α : Type} (A : Arith α) (P : α → ℝ → ℝ → Prop) (word : F64 → α) (larger : α → α → α → α) : Prop where
  base : Tracks A P
  rebase : ∀ {x : α} {r s ε δ : ℝ}, P x r ε → |r - s| ≤ δ → P x s (ε + δ)
  ofWord : ∀ {x : F64}, x.isFin = true → P (word x) x.val 0
  prod : ∀ {y : F64} {k : Nat}, y.isFin = true → y.val = 2 * k → k ≤ 5 → P (A.mul (word y) (A.lit pi4A)) (2 * k * pi4) 0
  branch : ∀ {zz a b : α} {v w e t : ℝ}, P zz v e → P a w t → (v ≤ 1 / 10 ^ 14 + 1 / 10 ^ 25 + e → P b w t) →
    P (larger zz a b) w t

section
variable {α : Type} {A : Arith α} {P : α → ℝ → ℝ → Prop} {word : F64 → α} {larger : α → α → α → α}
variable (hT : TrigTracks A P word larger)
include hT

theorem near {x : α} {r s ε δ t : ℝ} (h : P x r ε) (hs : |r - s| ≤ δ) (ht : ε + δ ≤ t) : P x s t :=
  hT.base.mono (hT.rebase h hs) ht

theorem const {q : ℚ} {M : ℝ} (hq : |(q : ℝ)| ≤ M) (h1 : 1 / 10 ^ 60 ≤ M) (h2 : M ≤ 10 ^ 60) :
    P (A.lit q) (q : ℝ) (M * (12 / 10 ^ 17)) :=
  hT.base.lit (ε := 0) (M := M) (by simp) (by simpa using hq) h1 h2 (by simp)

/-- one step of a Horner scheme -/
theorem hstep {acc zz : α} {v t ε V C W δ : ℝ} {c : ℚ} (ha : P acc v ε ∧ |v| ≤ V) (hz : P zz t (53 / 10 ^ 17))
    (ht : |t| ≤ 618 / 1000) (hc : |(c : ℝ)| ≤ C) (hW : V * (618 / 1000) + C ≤ W) (h0 : 1 / 10 ^ 20 ≤ V)
    (h1 : 1 / 10 ^ 20 ≤ C) (h2 : W ≤ 10 ^ 20) (h3 : 0 ≤ ε) (h4 : ε ≤ 1)
    (hδ : ((V * (53 / 10 ^ 17) + 619 / 1000 * ε) * (1 + 12 / 10 ^ 17) + V * (618 / 1000) * (12 / 10 ^ 17)
      + C * (12 / 10 ^ 17)) * (1 + 12 / 10 ^ 17) + W * (12 / 10 ^ 17) ≤ δ) :
    P (step A acc zz c) (v * t + c) δ ∧ |v * t + c| ≤ W := by
  obtain ⟨ha, hv⟩ := ha
  have hm := hT.base.mul (B := V) (C := 618 / 1000) (e := V * (53 / 10 ^ 17) + 619 / 1000 * ε)
    (t := (V * (53 / 10 ^ 17) + 619 / 1000 * ε) + (V * (618 / 1000) + (V * (53 / 10 ^ 17) + 619 / 1000 * ε)) * (12 / 10 ^ 17))
    ha hz hv ht (by norm_num; linarith) (by norm_num at h0 ⊢; linarith) (by norm_num at h0 h1 h2 h4 ⊢; linarith) (le_refl _)
  have hl := const hT hc (by norm_num at h1 ⊢; linarith) (by norm_num at h0 h2 ⊢; linarith)
  have hb : |v * t + (c : ℝ)| ≤ W := by
    refine (abs_add_le _ _).trans ?_
    have := Num.abs_mul_le hv ht
    linarith
  refine ⟨hT.base.add (M := W + ((V * (53 / 10 ^ 17) + 619 / 1000 * ε) + (V * (618 / 1000) + (V * (53 / 10 ^ 17)
    + 619 / 1000 * ε)) * (12 / 10 ^ 17) + C * (12 / 10 ^ 17))) hm hl (by linarith) ?_ ?_ ?_, hb⟩
  · norm_num at h0 h1 hW ⊢; linarith
  · norm_num at h0 h1 h2 h4 hW ⊢; linarith
  · norm_num at hδ ⊢; linarith

/-- the square of the reduced argument -/
theorem square {z : α} {r : ℝ} (hz : P z r (29 / 10 ^ 17)) (hr : |r| ≤ 7855 / 10 ^ 4) :
    P (A.mul z z) (r ^ 2) (53 / 10 ^ 17) ∧ |r ^ 2| ≤ 618 / 1000 := by
  obtain ⟨s0, s1⟩ := sq_range hr
  refine ⟨?_, by rw [abs_of_nonneg s0]; exact s1.le⟩
  rw [pow_two]
  exact hT.base.mul (B := 7855 / 10 ^ 4) (C := 7855 / 10 ^ 4) (e := 4556 / 10 ^ 19) hz hz hr hr (by norm_num) (by norm_num)
    (by norm_num) (by norm_num)

theorem sinPoly_tr {z : α} {r : ℝ} (hz : P z r (29 / 10 ^ 17)) (hr : |r| ≤ 7855 / 10 ^ 4) :
    P (sinPoly A z) (sin r) (7 / 10 ^ 16) := by
  obtain ⟨hs, bs⟩ := square hT hz hr
  have c0 : P (A.lit sin0) (sin0 : ℝ) (2 / 10 ^ 26) ∧ |(sin0 : ℝ)| ≤ 16 / 10 ^ 11 := by
    have hb : |(sin0 : ℝ)| ≤ 16 / 10 ^ 11 := by simp only [sin0, Rat.mkRat_eq_div]; norm_num
    exact ⟨hT.base.mono (const hT hb (by norm_num) (by norm_num)) (by norm_num), hb⟩
  have c1 := hstep hT (c := sin1) (C := 251 / 10 ^ 10) (W := 26 / 10 ^ 9) (δ := 7 / 10 ^ 24) c0 hs bs
    (by simp only [sin1, Rat.mkRat_eq_div]; norm_num) (by norm_num) (by norm_num) (by norm_num) (by norm_num) (by norm_num)
    (by norm_num) (by norm_num)
  have c2 := hstep hT (c := sin2) (C := 276 / 10 ^ 8) (W := 28 / 10 ^ 7) (δ := 8 / 10 ^ 22) c1 hs bs
    (by simp only [sin2, Rat.mkRat_eq_div]; norm_num) (by norm_num) (by norm_num) (by norm_num) (by norm_num) (by norm_num)
    (by norm_num) (by norm_num)
  have c3 := hstep hT (c := sin3) (C := 199 / 10 ^ 6) (W := 201 / 10 ^ 6) (δ := 6 / 10 ^ 20) c2 hs bs
    (by simp only [sin3, Rat.mkRat_eq_div]; norm_num) (by norm_num) (by norm_num) (by norm_num) (by norm_num) (by norm_num)
    (by norm_num) (by norm_num)
  have c4 := hstep hT (c := sin4) (C := 834 / 10 ^ 5) (W := 847 / 10 ^ 5) (δ := 3 / 10 ^ 18) c3 hs bs
    (by simp only [sin4, Rat.mkRat_eq_div]; norm_num) (by norm_num) (by norm_num) (by norm_num) (by norm_num) (by norm_num)
    (by norm_num) (by norm_num)
  obtain ⟨c5, b5⟩ := hstep hT (c := sin5) (C := 167 / 10 ^ 3) (W := 173 / 10 ^ 3) (δ := 5 / 10 ^ 17) c4 hs bs
    (by simp only [sin5, Rat.mkRat_eq_div]; norm_num) (by norm_num) (by norm_num) (by norm_num) (by norm_num) (by norm_num)
    (by norm_num) (by norm_num)
  have m1 := hT.base.mul (e := 596 / 10 ^ 18) (t := 66 / 10 ^ 17) hz hs hr bs (by norm_num) (by norm_num) (by norm_num) (by norm_num)
  have b1 := Num.abs_mul_le hr bs
  have m2 := hT.base.mul (e := 14 / 10 ^ 17) (t := 16 / 10 ^ 17) m1 c5 b1 b5 (by norm_num) (by norm_num) (by norm_num) (by norm_num)
  have b2 := Num.abs_mul_le b1 b5
  have ha := sin_approx hr
  have e : r + r * r ^ 2 * (((((((sin0 : ℝ) * r ^ 2 + sin1) * r ^ 2 + sin2) * r ^ 2 + sin3) * r ^ 2 + sin4) * r ^ 2 + sin5))
      = r * Poly.eval polyS (r ^ 2) := by
    simp only [polyS, Poly.eval]; push_cast; ring
  have a := hT.base.add (M := 9 / 10) (t := 6 / 10 ^ 16) hz m2
    ((add_le_add_left ((abs_add_le _ _).trans (add_le_add hr b2)) _).trans (by norm_num)) (by norm_num) (by norm_num) (by norm_num)
  rw [e] at a
  exact near hT a ha (by norm_num)

theorem cosPoly_tr {z : α} {r : ℝ} (hz : P z r (29 / 10 ^ 17)) (hr : |r| ≤ 7855 / 10 ^ 4) :
    P (cosPoly A z) (cos r) (7 / 10 ^ 16) := by
  obtain ⟨hs, bs⟩ := square hT hz hr
  have c0 : P (A.lit cos0) (cos0 : ℝ) (2 / 10 ^ 27) ∧ |(cos0 : ℝ)| ≤ 114 / 10 ^ 13 := by
    have hb : |(cos0 : ℝ)| ≤ 114 / 10 ^ 13 := by simp only [cos0, Rat.mkRat_eq_div]; norm_num
    exact ⟨hT.base.mono (const hT hb (by norm_num) (by norm_num)) (by norm_num), hb⟩
  have c1 := hstep hT (c := cos1) (C := 209 / 10 ^ 11) (W := 21 / 10 ^ 10) (δ := 6 / 10 ^ 25) c0 hs bs
    (by simp only [cos1, Rat.mkRat_eq_div]; norm_num) (by norm_num) (by norm_num) (by norm_num) (by norm_num) (by norm_num)
    (by norm_num) (by norm_num)
  have c2 := hstep hT (c := cos2) (C := 276 / 10 ^ 9) (W := 28 / 10 ^ 8) (δ := 8 / 10 ^ 23) c1 hs bs
    (by simp only [cos2, Rat.mkRat_eq_div]; norm_num) (by norm_num) (by norm_num) (by norm_num) (by norm_num) (by norm_num)
    (by norm_num) (by norm_num)
  have c3 := hstep hT (c := cos3) (C := 249 / 10 ^ 7) (W := 251 / 10 ^ 7) (δ := 7 / 10 ^ 21) c2 hs bs
    (by simp only [cos3, Rat.mkRat_eq_div]; norm_num) (by norm_num) (by norm_num) (by norm_num) (by norm_num) (by norm_num)
    (by norm_num) (by norm_num)
  have c4 := hstep hT (c := cos4) (C := 139 / 10 ^ 5) (W := 141 / 10 ^ 5) (δ := 4 / 10 ^ 19) c3 hs bs
    (by simp only [cos4, Rat.mkRat_eq_div]; norm_num) (by norm_num) (by norm_num) (by norm_num) (by norm_num) (by norm_num)
    (by norm_num) (by norm_num)
  obtain ⟨c5, b5⟩ := hstep hT (c := cos5) (C := 417 / 10 ^ 4) (W := 43 / 10 ^ 3) (δ := 12 / 10 ^ 18) c4 hs bs
    (by simp only [cos5, Rat.mkRat_eq_div]; norm_num) (by norm_num) (by norm_num) (by norm_num) (by norm_num) (by norm_num)
    (by norm_num) (by norm_num)
  have m1 := hT.base.mul (e := 66 / 10 ^ 17) (t := 71 / 10 ^ 17) hs hs bs bs (by norm_num) (by norm_num) (by norm_num) (by norm_num)
  have b1 := Num.abs_mul_le bs bs
  have m2 := hT.base.mul (e := 36 / 10 ^ 18) (t := 39 / 10 ^ 18) m1 c5 b1 b5 (by norm_num) (by norm_num) (by norm_num) (by norm_num)
  have b2 := Num.abs_mul_le b1 b5
  have bh : |(((1 / 2 : ℚ)) : ℝ)| ≤ 1 / 2 := by norm_num
  have hh := const hT bh (by norm_num) (by norm_num)
  have m3 := hT.base.mul (e := 303 / 10 ^ 18) (t := 342 / 10 ^ 18) hh hs bh bs (by norm_num) (by norm_num) (by norm_num) (by norm_num)
  have h1 : 0 ≤ r ^ 2 := sq_nonneg r
  have s1 := hT.base.sub (M := 101 / 100) (t := 465 / 10 ^ 18) hT.base.lit_one m3 (by
    have : r ^ 2 ≤ 618 / 1000 := le_of_abs_le bs
    rw [abs_of_nonneg (by push_cast; linarith)]; push_cast; norm_num; linarith) (by norm_num) (by norm_num) (by norm_num)
  have ha := cos_approx hr
  have e : (1 - ((1 / 2 : ℚ) : ℝ) * r ^ 2) + r ^ 2 * r ^ 2 *
      (((((((cos0 : ℝ) * r ^ 2 + cos1) * r ^ 2 + cos2) * r ^ 2 + cos3) * r ^ 2 + cos4) * r ^ 2 + cos5))
      = Poly.eval polyC (r ^ 2) := by
    simp only [polyC, Poly.eval]; push_cast; ring
  have bsum : |1 - ((1 / 2 : ℚ) : ℝ) * r ^ 2| ≤ 1 := by
    have : r ^ 2 ≤ 618 / 1000 := le_of_abs_le bs
    rw [abs_of_nonneg (by push_cast; linarith)]; push_cast; linarith
  have a := hT.base.add (M := 103 / 100) (t := 64 / 10 ^ 17) s1 m2
    ((add_le_add_left ((abs_add_le _ _).trans (add_le_add bsum b2)) _).trans (by norm_num)) (by norm_num) (by norm_num) (by norm_num)
  rw [e] at a
  exact near hT a ha (by norm_num)


omit hT in
theorem tan_small {r : ℝ} (h : |r| ≤ 2 / 10 ^ 7) : |r - tan r| ≤ 1 / 10 ^ 19 := by
  have hs := Real.sin_bound (x := r) (h.trans (by norm_num))
  have hc := Real.one_sub_sq_div_two_le_cos (x := r)
  have hc1 := Real.cos_le_one r
  have r2 : |r| ^ 2 ≤ 4 / 10 ^ 14 := (pow_le_pow_left₀ (abs_nonneg _) h 2).trans (by norm_num)
  have r3 : |r| ^ 3 ≤ 8 / 10 ^ 21 := (pow_le_pow_left₀ (abs_nonneg _) h 3).trans (by norm_num)
  have r4 : |r| ^ 5 ≤ 16 / 10 ^ 28 := (pow_le_pow_left₀ (abs_nonneg _) h 5).trans (by norm_num)
  have c1 : 0 ≤ 1 - cos r := by linarith
  have c2 : 1 - cos r ≤ 2 / 10 ^ 14 := by rw [sq_abs] at r2; norm_num at r2 ⊢; linarith
  have c0 : 1 / 2 ≤ cos r := by norm_num at c2; linarith
  have e : r - tan r = (-(sin r - (r - r ^ 3 / 6)) + r ^ 3 / 6 - r * (1 - cos r)) / cos r := by
    rw [tan_eq_sin_div_cos]; field_simp; ring
  rw [e, abs_div, abs_of_pos (by linarith : 0 < cos r), div_le_iff₀ (by linarith)]
  have b1 : |r ^ 3 / 6| ≤ 2 / 10 ^ 21 := by rw [abs_div, abs_pow, abs_of_pos (by norm_num : (0 : ℝ) < 6)]; norm_num at r3 ⊢; linarith
  have b2 : |r * (1 - cos r)| ≤ 2 / 10 ^ 7 * (2 / 10 ^ 14) := by
    rw [abs_mul, abs_of_nonneg c1]; exact mul_le_mul h c2 c1 (by norm_num)
  have := (abs_sub (-(sin r - (r - r ^ 3 / 6)) + r ^ 3 / 6) (r * (1 - cos r))).trans
    (add_le_add (abs_add_le _ _) (_root_.le_refl _))
  rw [abs_neg] at this
  refine this.trans ?_
  have b0 : |sin r - (r - r ^ 3 / 6)| ≤ 2 / 10 ^ 28 := hs.trans (by norm_num at r4 ⊢; linarith)
  have n1 : (1 : ℝ) / 10 ^ 19 * (1 / 2) ≤ 1 / 10 ^ 19 * cos r := mul_le_mul_of_nonneg_left c0 (by norm_num)
  have n2 : (2 : ℝ) / 10 ^ 28 + 2 / 10 ^ 21 + 2 / 10 ^ 7 * (2 / 10 ^ 14) ≤ 1 / 10 ^ 19 * (1 / 2) := by norm_num
  linarith

theorem tanPoly_tr {z : α} {r : ℝ} (hz : P z r (29 / 10 ^ 17)) (hr : |r| ≤ 7855 / 10 ^ 4) :
    P (tanPoly A larger z) (tan r) (12 / 10 ^ 16) := by
  obtain ⟨hs, bs⟩ := square hT hz hr
  obtain ⟨q0, q1⟩ := sq_range hr
  have p0 : P (A.lit tanP0) (tanP0 : ℝ) (16 / 10 ^ 13) ∧ |(tanP0 : ℝ)| ≤ 13094 := by
    have hb : |(tanP0 : ℝ)| ≤ 13094 := by simp only [tanP0, Rat.mkRat_eq_div]; norm_num
    exact ⟨hT.base.mono (const hT hb (by norm_num) (by norm_num)) (by norm_num), hb⟩
  have p1 := hstep hT (c := tanP1) (C := 1153517) (W := 1161610) (δ := 29 / 10 ^ 11) p0 hs bs
    (by simp only [tanP1, Rat.mkRat_eq_div]; norm_num) (by norm_num) (by norm_num) (by norm_num) (by norm_num) (by norm_num)
    (by norm_num) (by norm_num)
  obtain ⟨p2, bp⟩ := hstep hT (c := tanP2) (C := 17956526) (W := 18674402) (δ := 53 / 10 ^ 10) p1 hs bs
    (by simp only [tanP2, Rat.mkRat_eq_div]; norm_num) (by norm_num) (by norm_num) (by norm_num) (by norm_num) (by norm_num)
    (by norm_num) (by norm_num)
  have pn := hT.base.mul (e := 132 / 10 ^ 10) (t := 146 / 10 ^ 10) hs p2 bs bp (by norm_num) (by norm_num) (by norm_num) (by norm_num)
  have bpn := Num.abs_mul_le bs bp
  have c1 := const hT (q := tanQ1) (M := 13682) (by simp only [tanQ1, Rat.mkRat_eq_div]; norm_num) (by norm_num) (by norm_num)
  have b1 : |r ^ 2 + (tanQ1 : ℝ)| ≤ 13682 := by
    rw [abs_of_nonneg (by simp only [tanQ1, Rat.mkRat_eq_div]; push_cast; linarith)]
    simp only [tanQ1, Rat.mkRat_eq_div]; push_cast; linarith
  have s1 := hT.base.add (M := 13683) (t := 33 / 10 ^ 13) hs c1 (by norm_num; linarith) (by norm_num) (by norm_num) (by norm_num)
  have s2 := hstep hT (c := tanQ2) (V := 13683) (C := 1320893) (W := 1329350) (δ := 33 / 10 ^ 11) ⟨s1, b1.trans (by norm_num)⟩ hs bs
    (by simp only [tanQ2, Rat.mkRat_eq_div]; norm_num) (by norm_num) (by norm_num) (by norm_num) (by norm_num) (by norm_num)
    (by norm_num) (by norm_num)
  have s3 := hstep hT (c := tanQ3) (C := 25008381) (W := 25829920) (δ := 72 / 10 ^ 10) s2 hs bs
    (by simp only [tanQ3, Rat.mkRat_eq_div]; norm_num) (by norm_num) (by norm_num) (by norm_num) (by norm_num) (by norm_num)
    (by norm_num) (by norm_num)
  obtain ⟨s4, _⟩ := hstep hT (c := tanQ4) (C := 53869576) (W := 69832467) (δ := 35 / 10 ^ 9) s3 hs bs
    (by simp only [tanQ4, Rat.mkRat_eq_div]; norm_num) (by norm_num) (by norm_num) (by norm_num) (by norm_num) (by norm_num)
    (by norm_num) (by norm_num)
  have eP : r ^ 2 * (((tanP0 : ℝ) * r ^ 2 + tanP1) * r ^ 2 + tanP2) = Poly.eval polyP (r ^ 2) := by
    simp only [polyP, Poly.eval]; push_cast; ring
  have eQ : (((r ^ 2 + (tanQ1 : ℝ)) * r ^ 2 + tanQ2) * r ^ 2 + tanQ3) * r ^ 2 + tanQ4 = Poly.eval polyQ (r ^ 2) := by
    simp only [polyQ, Poly.eval]; push_cast; ring
  rw [eP] at pn bpn
  rw [eQ] at s4
  obtain ⟨lo, hi⟩ := polyQ_range q0 q1
  have aQ : |Poly.eval polyQ (r ^ 2)| = -Poly.eval polyQ (r ^ 2) := abs_of_neg (by linarith)
  have hq : |Poly.eval polyP (r ^ 2)| ≤ 31 / 100 * |Poly.eval polyQ (r ^ 2)| := by
    rw [aQ]; norm_num at bpn; linarith
  have d := hT.base.div (m := 38300000) (q := 31 / 100) (e := 67 / 10 ^ 17) (t := 71 / 10 ^ 17) pn s4 (by norm_num)
    (by rw [aQ]; norm_num; linarith) hq (by norm_num) (by norm_num) (by norm_num) (by norm_num)
  have bd : |Poly.eval polyP (r ^ 2) / Poly.eval polyQ (r ^ 2)| ≤ 31 / 100 := by
    rw [abs_div, div_le_iff₀ (by rw [aQ]; linarith)]; exact hq
  have m := hT.base.mul (e := 65 / 10 ^ 17) (t := 68 / 10 ^ 17) hz d hr bd (by norm_num) (by norm_num) (by norm_num) (by norm_num)
  have bm := Num.abs_mul_le hr bd
  have a := hT.base.add (M := 103 / 100) (t := 11 / 10 ^ 16) hz m
    ((add_le_add_left ((abs_add_le _ _).trans (add_le_add hr bm)) _).trans (by norm_num)) (by norm_num) (by norm_num) (by norm_num)
  refine hT.branch hs (near hT a (tan_approx hr) (by norm_num)) fun hle => ?_
  refine near hT hz (tan_small ?_) (by norm_num)
  refine abs_le_of_sq_le_sq ?_ (by norm_num)
  norm_num at hle ⊢
  linarith

/-- the reduced argument -/
theorem reduce_tr {x y : F64} {k : Nat} (hx : x.isFin = true) (hy : y.isFin = true) (hv : y.val = 2 * k) (hk : k ≤ 5)
    (hr : |(x.val : ℝ) - k * (π / 2)| ≤ 7854 / 10 ^ 4) :
    P (reduce A (word x) (word y)) ((x.val : ℝ) - k * (π / 2)) (29 / 10 ^ 17) := by
  have hp1 := pi_gt_d20
  have hp2 := pi_lt_d20
  have hk5 : (k : ℝ) ≤ 5 := by exact_mod_cast hk
  have hk0 : (0 : ℝ) ≤ k := Nat.cast_nonneg _
  have dA : |π / 4 - pi4| ≤ 4 / 10 ^ 8 := by
    unfold pi4; rw [abs_le]; constructor <;> norm_num at hp1 hp2 ⊢ <;> linarith
  have dB : |π / 4 - pi4 - pi4B| ≤ 28 / 10 ^ 16 := by
    unfold pi4; simp only [pi4B, Rat.mkRat_eq_div]; push_cast
    rw [abs_le]; constructor <;> norm_num at hp1 hp2 ⊢ <;> linarith
  have dC : |(pi4C : ℝ) - (π / 4 - pi4 - pi4B)| ≤ 1 / 10 ^ 20 := by
    unfold pi4; simp only [pi4B, pi4C, Rat.mkRat_eq_div]; push_cast
    rw [abs_le]; constructor <;> norm_num at hp1 hp2 ⊢ <;> linarith
  have hy' : P (word y) (2 * k) 0 := by have := hT.ofWord hy; rw [hv] at this; simpa using this
  have b10 : |2 * (k : ℝ)| ≤ 10 := by rw [abs_of_nonneg (by linarith)]; linarith
  have g1 : |(x.val : ℝ) - 2 * k * pi4| ≤ 78541 / 10 ^ 5 := by
    have e : (x.val : ℝ) - 2 * k * pi4 = ((x.val : ℝ) - k * (π / 2)) + 2 * k * (π / 4 - pi4) := by ring
    rw [e]
    have := Num.abs_mul_le b10 dA
    refine (abs_add_le _ _).trans ?_
    norm_num at this hr ⊢; linarith
  have g2 : |(x.val : ℝ) - 2 * k * pi4 - 2 * k * pi4B| ≤ 78541 / 10 ^ 5 := by
    have e : (x.val : ℝ) - 2 * k * pi4 - 2 * k * pi4B = ((x.val : ℝ) - k * (π / 2)) + 2 * k * (π / 4 - pi4 - pi4B) := by ring
    rw [e]
    have := Num.abs_mul_le b10 dB
    refine (abs_add_le _ _).trans ?_
    norm_num at this hr ⊢; linarith
  have s1 := hT.base.sub (M := 7855 / 10 ^ 4) (t := 943 / 10 ^ 19) (hT.ofWord hx) (hT.prod hy hv hk)
    (by norm_num at g1 ⊢; linarith) (by norm_num) (by norm_num) (by norm_num)
  have bB : |(pi4B : ℝ)| ≤ 38 / 10 ^ 9 := by simp only [pi4B, Rat.mkRat_eq_div]; norm_num
  have lB := const hT bB (by norm_num) (by norm_num)
  have mB := hT.base.mul (e := 46 / 10 ^ 24) (t := 1 / 10 ^ 22) hy' lB b10 bB (by norm_num) (by norm_num) (by norm_num) (by norm_num)
  have s2 := hT.base.sub (M := 7855 / 10 ^ 4) (t := 1887 / 10 ^ 19) s1 mB
    (by norm_num at g2 ⊢; linarith) (by norm_num) (by norm_num) (by norm_num)
  have lC : P (A.lit pi4C) (π / 4 - pi4 - pi4B) (11 / 10 ^ 21) :=
    hT.base.lit (ε := 1 / 10 ^ 20) (M := 3 / 10 ^ 15) dC (by norm_num at dB ⊢; linarith) (by norm_num) (by norm_num) (by norm_num)
  have mC := hT.base.mul (e := 111 / 10 ^ 21) (t := 12 / 10 ^ 20) hy' lC b10 dB (by norm_num) (by norm_num) (by norm_num) (by norm_num)
  have e : (x.val : ℝ) - 2 * k * pi4 - 2 * k * pi4B - 2 * k * (π / 4 - pi4 - pi4B) = (x.val : ℝ) - k * (π / 2) := by ring
  have s3 := hT.base.sub (M := 7855 / 10 ^ 4) (t := 29 / 10 ^ 17) s2 mC
    (by rw [e]; norm_num at hr ⊢; linarith) (by norm_num) (by norm_num) (by norm_num)
  rw [e] at s3
  exact s3

end
end Radolan.Trig
