/- math.Exp on amd64 of Model/Elem.lean in any arithmetic with bounded rounding errors. -/
import Verif.Lemmas.ElemFuns

namespace Radolan.Elem
open Go Go.Fl Real

section
variable {α : Type} {A : Arith α} {P : α → ℝ → ℝ → Prop} {word : F64 → α} {observe : α → (F64 → α) → α} {scale : α → Int → α}
variable (hT : ElemTracks A P word observe scale)
include hT

/-- `(1+y)² - 1` of `y` near `E - 1` -/
theorem square_tr {y : α} {E ε Y p e t : ℝ} (hy : P y (E - 1) ε) (hY : |E - 1| ≤ Y) (hY1 : Y ≤ 1 / 5) (hY0 : 1 / 100 ≤ Y)
    (hε0 : 0 ≤ ε) (hε : ε ≤ 1 / 10 ^ 6) (hp : ε + 2 * (12 / 10 ^ 17) + (Y + 2 + 1 / 1000) * (12 / 10 ^ 17) ≤ p)
    (he : Y * p + (Y + 2) * ε + ε * p ≤ e) (hp1 : p ≤ 1) (he0 : 0 ≤ e) (he1 : e ≤ 1) (ht : e + (Y * (Y + 2) + e) * (12 / 10 ^ 17) ≤ t) :
    P (square A y) (E * E - 1) t := by
  have l2 := const hT (q := 2) (M := 2) (by norm_num) (by norm_num) (by norm_num)
  have b2 : |E - 1 + ((2 : ℚ) : ℝ)| ≤ Y + 2 := by
    refine (abs_add_le _ _).trans ?_
    norm_num; exact hY
  have hs := hT.base.add (M := Y + 2 + 1 / 1000) (t := p) hy l2 (by norm_num at b2 hε ⊢; linarith) (by norm_num; linarith)
    (by norm_num; linarith) (by linarith)
  have hYY : 0 ≤ Y * (Y + 2) := by apply mul_nonneg <;> linarith
  have hYY1 : Y * (Y + 2) ≤ 1 := by nlinarith
  have hYY0 : 1 / 100 ≤ Y * (Y + 2) := by nlinarith
  have := hT.base.mul (e := e) (t := t) hy hs hY b2 he (by norm_num; linarith) (by norm_num; linarith) ht
  rwa [show (E - 1) * (E - 1 + ((2 : ℚ) : ℝ)) = E * E - 1 by push_cast; ring] at this

/-- the polynomial of the code -/
theorem poly_tr {s : α} {sv : ℝ} (hs : P s sv (105 / 10 ^ 19)) (bs : |sv| ≤ 217 / 10 ^ 4) :
    P (A.mul s (cstep A 1 s (cstep A (1 / 2) s (cstep A c3 s (cstep A c4 s (cstep A c5 s
        (cstep A c6 s (cstep A c7 s (A.lit c8))))))))) (exp sv - 1) (192 / 10 ^ 19) := by
  have ap := expm1_approx (lt_of_le_of_lt bs (by norm_num))
  have a8 : P (A.lit c8) (c8 : ℝ) (299 / 10 ^ 23) ∧ |(c8 : ℝ)| ≤ 249 / 10 ^ 7 := by
    have hb : |(c8 : ℝ)| ≤ 249 / 10 ^ 7 := by simp only [c8, Rat.mkRat_eq_div]; norm_num
    exact ⟨hT.base.mono (const hT hb (by norm_num) (by norm_num)) (by norm_num), hb⟩
  have a7 := cst hT (c := c7) (C := 199 / 10 ^ 6) (W := 200 / 10 ^ 6) (δ := 483 / 10 ^ 22) ⟨hs, bs⟩ a8
    (by simp only [c7, Rat.mkRat_eq_div]; norm_num) (by norm_num) (by norm_num) (by norm_num) (by norm_num) (by norm_num)
    (by norm_num) (by norm_num) (by norm_num) (by norm_num)
  have a6 := cst hT (c := c6) (C := 139 / 10 ^ 5) (W := 140 / 10 ^ 5) (δ := 339 / 10 ^ 21) ⟨hs, bs⟩ a7
    (by simp only [c6, Rat.mkRat_eq_div]; norm_num) (by norm_num) (by norm_num) (by norm_num) (by norm_num) (by norm_num)
    (by norm_num) (by norm_num) (by norm_num) (by norm_num)
  have a5 := cst hT (c := c5) (C := 834 / 10 ^ 5) (W := 838 / 10 ^ 5) (δ := 204 / 10 ^ 20) ⟨hs, bs⟩ a6
    (by simp only [c5, Rat.mkRat_eq_div]; norm_num) (by norm_num) (by norm_num) (by norm_num) (by norm_num) (by norm_num)
    (by norm_num) (by norm_num) (by norm_num) (by norm_num)
  have a4 := cst hT (c := c4) (C := 417 / 10 ^ 4) (W := 419 / 10 ^ 4) (δ := 102 / 10 ^ 19) ⟨hs, bs⟩ a5
    (by simp only [c4, Rat.mkRat_eq_div]; norm_num) (by norm_num) (by norm_num) (by norm_num) (by norm_num) (by norm_num)
    (by norm_num) (by norm_num) (by norm_num) (by norm_num)
  have a3 := cst hT (c := c3) (C := 167 / 10 ^ 3) (W := 168 / 10 ^ 3) (δ := 410 / 10 ^ 19) ⟨hs, bs⟩ a4
    (by simp only [c3, Rat.mkRat_eq_div]; norm_num) (by norm_num) (by norm_num) (by norm_num) (by norm_num) (by norm_num)
    (by norm_num) (by norm_num) (by norm_num) (by norm_num)
  have a2 := cst hT (c := 1 / 2) (C := 1 / 2) (W := 504 / 10 ^ 3) (δ := 124 / 10 ^ 18) ⟨hs, bs⟩ a3
    (by norm_num) (by norm_num) (by norm_num) (by norm_num) (by norm_num) (by norm_num)
    (by norm_num) (by norm_num) (by norm_num) (by norm_num)
  obtain ⟨a1, b1⟩ := cst hT (c := 1) (C := 1) (W := 102 / 10 ^ 2) (δ := 252 / 10 ^ 18) ⟨hs, bs⟩ a2
    (by norm_num) (by norm_num) (by norm_num) (by norm_num) (by norm_num) (by norm_num)
    (by norm_num) (by norm_num) (by norm_num) (by norm_num)
  have y := hT.base.mul (e := 162 / 10 ^ 19) (t := 189 / 10 ^ 19) hs a1 bs b1 (by norm_num) (by norm_num) (by norm_num) (by norm_num)
  refine near hT y (δ := 3 / 10 ^ 19) ?_ (by norm_num)
  refine _root_.le_trans (_root_.le_of_eq ?_) ap
  congr 1
  simp only [polyA, Poly.eval]
  push_cast
  ring

/-- the exponential of the reduced argument -/
theorem squares_tr {s : α} {sv : ℝ} {k : Int} (hs : P s sv (105 / 10 ^ 19)) (bs : |sv| ≤ 217 / 10 ^ 4) (hk : |k| ≤ 8) :
    P (scale (A.add (square A (square A (square A (square A (A.mul s (cstep A 1 s (cstep A (1 / 2) s (cstep A c3 s (cstep A c4 s
      (cstep A c5 s (cstep A c6 s (cstep A c7 s (A.lit c8)))))))))))))  (A.lit 1)) k)
      (exp (16 * sv) * 2 ^ k) (exp (16 * sv) * 2 ^ k * (22 / 10 ^ 16)) := by
  have y0 := poly_tr hT hs bs
  obtain ⟨e1, e2⟩ := exp_bounds bs
  have d1 : exp (2 * sv) = exp sv * exp sv := by rw [← exp_add]; congr 1; ring
  have d2 : exp (4 * sv) = exp (2 * sv) * exp (2 * sv) := by rw [← exp_add]; congr 1; ring
  have d3 : exp (8 * sv) = exp (4 * sv) * exp (4 * sv) := by rw [← exp_add]; congr 1; ring
  have d4 : exp (16 * sv) = exp (8 * sv) * exp (8 * sv) := by rw [← exp_add]; congr 1; ring
  have sqb : ∀ {x a b c d : ℝ}, 0 ≤ a → a ≤ x → x ≤ b → c ≤ a * a → b * b ≤ d → c ≤ x * x ∧ x * x ≤ d := by
    intro x a b c d h0 h1 h2 h3 h4
    exact ⟨h3.trans (mul_le_mul h1 h1 h0 (h0.trans h1)), (mul_le_mul h2 h2 (h0.trans h1) ((h0.trans h1).trans h2)).trans h4⟩
  obtain ⟨f1, f2⟩ := sqb (c := 95707 / 10 ^ 5) (d := 10449 / 10 ^ 4) (by norm_num) e1 e2 (by norm_num) (by norm_num)
  rw [← d1] at f1 f2
  obtain ⟨g1, g2⟩ := sqb (c := 91598 / 10 ^ 5) (d := 10919 / 10 ^ 4) (by norm_num) f1 f2 (by norm_num) (by norm_num)
  rw [← d2] at g1 g2
  obtain ⟨h1, h2⟩ := sqb (c := 83901 / 10 ^ 5) (d := 11923 / 10 ^ 4) (by norm_num) g1 g2 (by norm_num) (by norm_num)
  rw [← d3] at h1 h2
  obtain ⟨i1, i2⟩ := sqb (c := 70393 / 10 ^ 5) (d := 14216 / 10 ^ 4) (by norm_num) h1 h2 (by norm_num) (by norm_num)
  rw [← d4] at i1 i2
  have y1 := square_tr hT (Y := 222 / 10 ^ 4) (p := 502 / 10 ^ 18) (e := 500 / 10 ^ 19) (t := 554 / 10 ^ 19) y0
    (by rw [abs_le]; constructor <;> norm_num at e1 e2 ⊢ <;> linarith) (by norm_num) (by norm_num) (by norm_num) (by norm_num)
    (by norm_num) (by norm_num) (by norm_num) (by norm_num) (by norm_num) (by norm_num)
  rw [← d1] at y1
  have y2 := square_tr hT (Y := 449 / 10 ^ 4) (p := 541 / 10 ^ 18) (e := 138 / 10 ^ 18) (t := 150 / 10 ^ 18) y1
    (by rw [abs_le]; constructor <;> norm_num at f1 f2 ⊢ <;> linarith) (by norm_num) (by norm_num) (by norm_num) (by norm_num)
    (by norm_num) (by norm_num) (by norm_num) (by norm_num) (by norm_num) (by norm_num)
  rw [← d2] at y2
  have y3 := square_tr hT (Y := 919 / 10 ^ 4) (p := 642 / 10 ^ 18) (e := 373 / 10 ^ 18) (t := 397 / 10 ^ 18) y2
    (by rw [abs_le]; constructor <;> norm_num at g1 g2 ⊢ <;> linarith) (by norm_num) (by norm_num) (by norm_num) (by norm_num)
    (by norm_num) (by norm_num) (by norm_num) (by norm_num) (by norm_num) (by norm_num)
  rw [← d3] at y3
  have y4 := square_tr hT (Y := 1923 / 10 ^ 4) (p := 901 / 10 ^ 18) (e := 105 / 10 ^ 17) (t := 111 / 10 ^ 17) y3
    (by rw [abs_le]; constructor <;> norm_num at h1 h2 ⊢ <;> linarith) (by norm_num) (by norm_num) (by norm_num) (by norm_num)
    (by norm_num) (by norm_num) (by norm_num) (by norm_num) (by norm_num) (by norm_num)
  rw [← d4] at y4
  have yf := hT.base.add (M := 14226 / 10 ^ 4) (t := 129 / 10 ^ 17) y4 hT.base.lit_one (by
    rw [sub_add_cancel, abs_of_pos (exp_pos _)]
    norm_num at i2 ⊢; linarith) (by norm_num) (by norm_num) (by norm_num)
  rw [sub_add_cancel] at yf
  refine hT.base.mono (hT.scale yf (by rw [abs_of_pos (exp_pos _)]; norm_num at i2 ⊢; linarith) hk) ?_
  rw [mul_right_comm]
  refine mul_le_mul_of_nonneg_right ?_ (by positivity)
  norm_num at i1 ⊢; linarith

theorem amdExpOf_tr {x : F64} (hx : x.isFin = true) (h5 : |(x.val : ℝ)| ≤ 5) :
    P (amdExpOf A word observe scale x) (exp x.val) (exp x.val * (22 / 10 ^ 16)) := by
  obtain ⟨x1, x2⟩ := abs_le.mp h5
  have q2 : x.val ≤ (5 : ℚ) := by exact_mod_cast x2
  have t1 : lt (lit f64 (mkRat 709782712893384 (10 ^ 12))) x = false := by
    have h : (lit f64 (mkRat 709782712893384 (10 ^ 12))).isFin = true ∧ 700 ≤ (lit f64 (mkRat 709782712893384 (10 ^ 12))).val := by
      decide +kernel
    rw [lt_fin h.1 hx, decide_eq_false_iff_not]; linarith [h.2]
  have hn : x ≠ .nan ∧ x ≠ .inf false ∧ x ≠ .inf true := by refine ⟨?_, ?_, ?_⟩ <;> (rintro rfl; simp [isFin] at hx)
  unfold amdExpOf
  rw [if_neg (by simp [hn.1, hn.2.1]), if_neg hn.2.2, t1]
  simp only [Bool.false_eq_true, if_false]
  have bq : |(amdLog2e : ℝ)| ≤ 1443 / 1000 := by simp only [amdLog2e, Rat.mkRat_eq_div]; norm_num
  have pm := hT.base.mul (e := 87 / 10 ^ 17) (t := 2 / 10 ^ 15) (hT.ofWord hx) (const hT bq (by norm_num) (by norm_num)) h5 bq
    (by norm_num) (by norm_num) (by norm_num) (by norm_num)
  refine hT.observe pm fun v hv => ?_
  have hv2 := hv.2
  have he : |(roundEven v.val : ℝ) - v.val| ≤ 1 / 2 := by
    have := roundEven_err v.val
    have h' : ((|(roundEven v.val : ℚ) - v.val| : ℚ) : ℝ) ≤ ((1 / 2 : ℚ) : ℝ) := by exact_mod_cast this
    push_cast at h'; exact h'
  generalize roundEven v.val = k at *
  have hk0 : |(k : ℝ) - amdLog2e * x.val| ≤ 1 / 2 + 1 / 10 ^ 13 := by
    have := abs_add_le ((k : ℝ) - v.val) (v.val - x.val * amdLog2e)
    rw [sub_add_sub_cancel, mul_comm (x.val : ℝ)] at this
    rw [mul_comm (x.val : ℝ)] at hv2
    norm_num at this hv2 he ⊢; linarith
  obtain ⟨r1, hk⟩ := reduced_range h5 log2e_near.2 hk0
  obtain ⟨k1, k2⟩ := abs_le.mp hk
  obtain ⟨⟨i1, i2⟩, _, i3⟩ := int_spec (k := k) (by omega) (by omega)
  obtain ⟨n1, n2⟩ := up_near
  have hk' : |(k : ℝ)| ≤ 7 := by
    have : ((|k| : Int) : ℝ) ≤ ((7 : Int) : ℝ) := by exact_mod_cast hk
    push_cast at this; exact this
  have bl : |log 2 - (upV : ℝ)| ≤ 3 / 10 ^ 13 := by rw [abs_sub_comm]; exact n1
  have b := Num.abs_mul_le hk' bl
  have hp := hT.prod (c := ln2U) i1 i2 up_value.1 up_value.2 i3
  push_cast at hp
  have s1 := hT.base.sub (M := 3467 / 10 ^ 4) (t := 417 / 10 ^ 19) (hT.ofWord hx) hp (by
    rw [show (x.val : ℝ) - k * upV = (x.val - k * log 2) + k * (log 2 - upV) by ring]
    have := abs_add_le ((x.val : ℝ) - k * log 2) (k * (log 2 - upV))
    norm_num at this r1 b ⊢; linarith) (by norm_num) (by norm_num) (by norm_num)
  have hw := hT.ofWord i1
  rw [i2] at hw
  push_cast at hw
  have hl : P (A.lit ln2L) (log 2 - upV) (3 / 10 ^ 26) :=
    hT.base.lit (ε := 2 / 10 ^ 26) (M := 31 / 10 ^ 14) n2 (by norm_num at bl ⊢; linarith) (by norm_num) (by norm_num) (by norm_num)
  have kl := hT.base.mul (e := 21 / 10 ^ 26) (t := 22 / 10 ^ 26) hw hl hk' bl (by norm_num) (by norm_num) (by norm_num) (by norm_num)
  have er : (x.val : ℝ) - k * upV - k * (log 2 - upV) = x.val - k * log 2 := by ring
  have s2 := hT.base.sub (M := 3467 / 10 ^ 4) (t := 834 / 10 ^ 19) s1 kl (by
    rw [er]; norm_num at r1 ⊢; linarith) (by norm_num) (by norm_num) (by norm_num)
  rw [er] at s2
  have l16 := const hT (q := 1 / 16) (M := 1 / 16) (by norm_num) (by norm_num) (by norm_num)
  have s3 := hT.base.mul (B := 34658 / 10 ^ 5) (C := 1 / 16) (e := 782 / 10 ^ 20) (t := 105 / 10 ^ 19) s2 l16 r1 (by norm_num) (by norm_num)
    (by norm_num) (by norm_num) (by norm_num)
  have bs : |((x.val : ℝ) - k * log 2) * ((1 / 16 : ℚ) : ℝ)| ≤ 217 / 10 ^ 4 := by
    refine (Num.abs_mul_le r1 (B := 1 / 16) (by norm_num)).trans ?_
    norm_num
  have := squares_tr hT (k := k) s3 bs (by omega)
  have ek : exp (16 * (((x.val : ℝ) - k * log 2) * ((1 / 16 : ℚ) : ℝ))) * 2 ^ k = exp x.val := by
    rw [show 16 * (((x.val : ℝ) - k * log 2) * ((1 / 16 : ℚ) : ℝ)) = x.val - k * log 2 by push_cast; ring, exp_sub,
      mul_comm (k : ℝ), exp_mul, exp_log (by norm_num), rpow_intCast]
    field_simp
  rw [ek] at this
  exact this

end
end Radolan.Elem
