/- Exp and Log of Model/Elem.lean in any arithmetic with bounded rounding errors. -/
import Verif.Lemmas.ElemReal
import Verif.Lemmas.Tracks
import Verif.Lemmas.PowLoop
import Verif.Lemmas.TrigFuns

namespace Radolan.Elem
open Go Go.Fl Real

/-- what is needed of an arithmetic to evaluate exponential and logarithm -/
structure ElemTracks {α : Type} (A : Arith α) (P : α → ℝ → ℝ → Prop) (word : F64 → α) (observe : α → (F64 → α) → α)
    (scale : α → Int → α) : Prop where
  base : Tracks A P
  rebase : ∀ {x : α} {r s ε δ : ℝ}, P x r ε → |r - s| ≤ δ → P x s (ε + δ)
  ofWord : ∀ {x : F64}, x.isFin = true → P (word x) x.val 0
  prod : ∀ {y : F64} {c v w : ℚ}, y.isFin = true → y.val = w → (lit f64 c).isFin = true → (lit f64 c).val = v → IsRep f64 (w * v) →
    P (A.mul (word y) (A.lit c)) ((w * v : ℚ) : ℝ) 0
  observe : ∀ {v : α} {f : F64 → α} {r ε w t : ℝ}, P v r ε → (∀ x : F64, Ap x r ε → P (f x) w t) → P (observe v f) w t
  scale : ∀ {x : α} {r ε : ℝ} {k : Int}, P x r ε → |r| + ε ≤ 2 → |k| ≤ 8 → P (scale x k) (r * 2 ^ k) ((ε + 24 / 10 ^ 17) * 2 ^ k)

section
variable {α : Type} {A : Arith α} {P : α → ℝ → ℝ → Prop} {word : F64 → α} {observe : α → (F64 → α) → α} {scale : α → Int → α}
variable (hT : ElemTracks A P word observe scale)
include hT

theorem near {x : α} {r s ε δ t : ℝ} (h : P x r ε) (hs : |r - s| ≤ δ) (ht : ε + δ ≤ t) : P x s t :=
  hT.base.mono (hT.rebase h hs) ht

theorem const {q : ℚ} {M : ℝ} (hq : |(q : ℝ)| ≤ M) (h1 : 1 / 10 ^ 60 ≤ M) (h2 : M ≤ 10 ^ 60) :
    P (A.lit q) (q : ℝ) (M * (12 / 10 ^ 17)) :=
  hT.base.lit (ε := 0) (M := M) (by simp) (by simpa using hq) h1 h2 (by simp)

/-- one step of a Horner scheme -/
theorem cst {c : ℚ} {t acc : α} {tv τ T v ε V C W δ : ℝ} (ht : P t tv τ ∧ |tv| ≤ T) (ha : P acc v ε ∧ |v| ≤ V)
    (hc : |(c : ℝ)| ≤ C) (hW : T * V + C ≤ W) (h0 : 1 / 10 ^ 60 ≤ C) (h1 : 1 / 10 ^ 60 ≤ T * V) (hε : 0 ≤ ε) (hτ : 0 ≤ τ)
    (hV : 0 ≤ V)
    (h2 : T * V + (T * ε + V * τ + ε * τ) ≤ 10 ^ 20) (h3 : W ≤ 10 ^ 20)
    (hδ : (T * ε + V * τ + ε * τ) + (T * V + (T * ε + V * τ + ε * τ)) * (12 / 10 ^ 17) + C * (12 / 10 ^ 17) + (W + ((T * ε + V * τ + ε * τ)
      + (T * V + (T * ε + V * τ + ε * τ)) * (12 / 10 ^ 17) + C * (12 / 10 ^ 17))) * (12 / 10 ^ 17) ≤ δ) :
    P (cstep A c t acc) (c + tv * v) δ ∧ |c + tv * v| ≤ W := by
  obtain ⟨ht, bt⟩ := ht
  obtain ⟨ha, bv⟩ := ha
  have hT0 : 0 ≤ T := (abs_nonneg _).trans bt
  have he : 0 ≤ T * ε + V * τ + ε * τ := by positivity
  have hm := hT.base.mul (B := T) (C := V) (e := T * ε + V * τ + ε * τ) ht ha bt bv (by rw [mul_comm τ ε]) (by linarith)
    (h2.trans (by norm_num)) (_root_.le_refl _)
  have hl := const hT hc h0 (by
    have : C ≤ W := by have := mul_nonneg hT0 hV; linarith
    exact (this.trans h3).trans (by norm_num))
  have hb : |(c : ℝ) + tv * v| ≤ W := by
    refine (abs_add_le _ _).trans ?_
    have := Num.abs_mul_le bt bv
    linarith
  refine ⟨hT.base.add (M := W + ((T * ε + V * τ + ε * τ)
      + (T * V + (T * ε + V * τ + ε * τ)) * (12 / 10 ^ 17) + C * (12 / 10 ^ 17))) hl hm ?_ ?_ ?_ ?_, hb⟩
  · linarith
  · have : (0 : ℝ) ≤ 12 / 10 ^ 17 := by norm_num
    have := mul_nonneg (by linarith : 0 ≤ T * V + (T * ε + V * τ + ε * τ)) this
    have := mul_nonneg (by linarith : (0 : ℝ) ≤ C) (by norm_num : (0 : ℝ) ≤ 12 / 10 ^ 17)
    linarith
  · have hC : C ≤ 10 ^ 20 := by have := mul_nonneg hT0 hV; linarith
    norm_num at h2 h3 hC ⊢
    linarith
  · linarith

/-- the exponential of the reduced argument -/
theorem expmulti_tr {hi lo : α} {h l : ℝ} {k : Int} (hh : P hi h (42 / 10 ^ 18)) (hl : P lo l (1 / 10 ^ 24))
    (bl : |l| ≤ 2 / 10 ^ 9) (br : |h - l| ≤ 3467 / 10 ^ 4) (hk : |k| ≤ 8) :
    P (expmulti A scale hi lo k) (exp (h - l) * 2 ^ k) (65 / 10 ^ 17 * 2 ^ k) := by
  have hr := hT.base.sub (M := 3468 / 10 ^ 4) (t := 837 / 10 ^ 19) hh hl (by norm_num at br ⊢; linarith) (by norm_num) (by norm_num)
    (by norm_num)
  unfold expmulti
  simp only
  generalize A.sub hi lo = r' at *
  have ap := exp_approx br
  obtain ⟨bc1, bc2⟩ := c_range br
  obtain ⟨s0, s1⟩ := sq_le br
  have e : 1 - ((l - (h - l) * cOf (h - l) / (2 - cOf (h - l))) - h) = 1 + (h - l) + (h - l) * cOf (h - l) / (2 - cOf (h - l)) := by ring
  generalize hrr : h - l = r at *
  have ht := hT.base.mul (e := 581 / 10 ^ 19) (t := 726 / 10 ^ 19) hr hr br br (by norm_num) (by norm_num) (by norm_num) (by norm_num)
  have bt : |r * r| ≤ 1203 / 10 ^ 4 := by rw [abs_of_nonneg s0]; exact s1
  have c5 : P (A.lit p5) (p5 : ℝ) (497 / 10 ^ 26) ∧ |(p5 : ℝ)| ≤ 414 / 10 ^ 10 := by
    have hb : |(p5 : ℝ)| ≤ 414 / 10 ^ 10 := by simp only [p5, Rat.mkRat_eq_div]; norm_num
    exact ⟨hT.base.mono (const hT hb (by norm_num) (by norm_num)) (by norm_num), hb⟩
  have c4 := cst hT (c := p4) (C := 166 / 10 ^ 8) (W := 167 / 10 ^ 8) (δ := 404 / 10 ^ 24) ⟨ht, bt⟩ c5
    (by simp only [p4, Rat.mkRat_eq_div]; norm_num) (by norm_num) (by norm_num) (by norm_num) (by norm_num) (by norm_num)
    (by norm_num) (by norm_num) (by norm_num) (by norm_num)
  have c3 := cst hT (c := p3) (C := 662 / 10 ^ 7) (W := 665 / 10 ^ 7) (δ := 162 / 10 ^ 22) ⟨ht, bt⟩ c4
    (by simp only [p3, Rat.mkRat_eq_div]; norm_num) (by norm_num) (by norm_num) (by norm_num) (by norm_num) (by norm_num)
    (by norm_num) (by norm_num) (by norm_num) (by norm_num)
  have c2 := cst hT (c := p2) (C := 278 / 10 ^ 5) (W := 279 / 10 ^ 5) (δ := 677 / 10 ^ 21) ⟨ht, bt⟩ c3
    (by simp only [p2, Rat.mkRat_eq_div]; norm_num) (by norm_num) (by norm_num) (by norm_num) (by norm_num) (by norm_num)
    (by norm_num) (by norm_num) (by norm_num) (by norm_num)
  obtain ⟨c1, b1⟩ := cst hT (c := p1) (C := 167 / 10 ^ 3) (W := 168 / 10 ^ 3) (δ := 406 / 10 ^ 19) ⟨ht, bt⟩ c2
    (by simp only [p1, Rat.mkRat_eq_div]; norm_num) (by norm_num) (by norm_num) (by norm_num) (by norm_num) (by norm_num)
    (by norm_num) (by norm_num) (by norm_num) (by norm_num)
  have tp := hT.base.mul (e := 171 / 10 ^ 19) (t := 196 / 10 ^ 19) ht c1 bt b1 (by norm_num) (by norm_num) (by norm_num) (by norm_num)
  have hc : P (A.sub r' (A.mul (A.mul r' r') (cstep A p1 (A.mul r' r') (cstep A p2 (A.mul r' r') (cstep A p3 (A.mul r' r')
      (cstep A p4 (A.mul r' r') (A.lit p5))))))) (cOf r) (148 / 10 ^ 18) :=
    hT.base.sub (M := 368 / 1000) hr tp (by
      change |cOf r| + _ ≤ _
      norm_num at bc1 ⊢; linarith) (by norm_num) (by norm_num) (by norm_num)
  generalize A.sub r' (A.mul (A.mul r' r') (cstep A p1 (A.mul r' r') (cstep A p2 (A.mul r' r') (cstep A p3 (A.mul r' r')
      (cstep A p4 (A.mul r' r') (A.lit p5)))))) = c' at *
  generalize cOf r = c at *
  have rc := hT.base.mul (e := 821 / 10 ^ 19) (t := 974 / 10 ^ 19) hr hc br bc1 (by norm_num) (by norm_num) (by norm_num) (by norm_num)
  have l2 := const hT (q := 2) (M := 2) (by norm_num) (by norm_num) (by norm_num)
  have b2c : |((2 : ℚ) : ℝ) - c| ≤ 2367 / 1000 := by
    refine (abs_sub _ _).trans ?_
    norm_num at bc1 ⊢; linarith
  have d2 := hT.base.sub (M := 2368 / 1000) (t := 673 / 10 ^ 18) l2 hc (by norm_num at b2c ⊢; linarith) (by norm_num) (by norm_num)
    (by norm_num)
  have a2c : |((2 : ℚ) : ℝ) - c| = 2 - c := by rw [abs_of_pos (by norm_num at bc2 ⊢; linarith)]; norm_num
  have brc := Num.abs_mul_le br bc1
  have hq8 : |r * c| ≤ 8 / 100 * |((2 : ℚ) : ℝ) - c| := by
    rw [a2c]; norm_num at brc bc2 ⊢; linarith
  have q := hT.base.div (m := 167 / 100) (q := 8 / 100) (e := 906 / 10 ^ 19) (t := 101 / 10 ^ 18) rc d2 (by norm_num)
    (by rw [a2c]; norm_num; linarith) hq8 (by norm_num) (by norm_num) (by norm_num) (by norm_num)
  have bq : |r * c / (((2 : ℚ) : ℝ) - c)| ≤ 77 / 1000 := by
    rw [abs_div, a2c, div_le_iff₀ (by linarith)]
    norm_num at brc ⊢; linarith
  have e2 : ((2 : ℚ) : ℝ) = 2 := by norm_num
  rw [e2] at q bq
  have s1 := hT.base.sub (M := 81 / 1000) (t := 111 / 10 ^ 18) hl q (by
    have := abs_sub l (r * c / (2 - c))
    norm_num at bl bq this ⊢; linarith) (by norm_num) (by norm_num) (by norm_num)
  have b3 : |l - r * c / (2 - c) - h| ≤ 424 / 1000 := by
    rw [show l - r * c / (2 - c) - h = -(r + r * c / (2 - c)) by rw [← hrr]; ring, abs_neg]
    refine (abs_add_le _ _).trans ?_
    norm_num at br bq ⊢; linarith
  have s2 := hT.base.sub (M := 43 / 100) (t := 205 / 10 ^ 18) s1 hh (by norm_num at b3 ⊢; linarith) (by norm_num) (by norm_num)
    (by norm_num)
  have b4 : |1 - (l - r * c / (2 - c) - h)| ≤ 1424 / 1000 := by
    refine (abs_sub _ _).trans ?_
    rw [abs_one]; linarith
  have y := hT.base.sub (M := 143 / 100) (t := 377 / 10 ^ 18) hT.base.lit_one s2 (by norm_num at b4 ⊢; linarith) (by norm_num)
    (by norm_num) (by norm_num)
  rw [e] at y b4
  have y' := near hT (t := 407 / 10 ^ 18) y ap (by norm_num)
  have be : |exp r| ≤ 1425 / 1000 := by
    have := abs_sub_abs_le_abs_sub (exp r) (1 + r + r * c / (2 - c))
    rw [abs_sub_comm] at this
    norm_num at this ap b4 ⊢; linarith
  refine hT.base.mono (hT.scale y' (by norm_num at be ⊢; linarith) hk) ?_
  exact mul_le_mul_of_nonneg_right (by norm_num) (by positivity)

end
end Radolan.Elem
