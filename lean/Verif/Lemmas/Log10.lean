/- math.Log10 with an accurate logarithm. -/
import Verif.Lemmas.PowFun

namespace Radolan.Pow
open Go Go.Fl Real Radolan.Num _root_.Spec.Pow

theorem log10_bounds : 23 / 10 ≤ log 10 ∧ log 10 ≤ 231 / 100 := by
  have h := abs_le.mp ln10_near
  have e : ((ln10 : ℚ) : ℝ) = 230258509299404568401799145468436420760110148862877297603332790 / 10 ^ 62 := by
    unfold ln10; rw [Rat.mkRat_eq_div]; push_cast; norm_num
  rw [e] at h
  norm_num at h ⊢
  constructor <;> linarith [h.1, h.2]

theorem inv_ln2 : Ap (lit f64 (1 / ln2)) (1 / log 2) (3 / 10 ^ 16) := by
  refine lit_ap (ε := 1 / 10 ^ 16) (M := 3 / 2) ?_ ?_ (by norm_num) (by norm_num) (by norm_num)
  · push_cast
    refine (near_div (m := 69 / 100) (q := 3 / 2) (ε := 0) (by simp) ln2_near (by norm_num) ?_ ?_).trans (by norm_num)
    · rw [abs_of_pos (by linarith [log_two.1])]; norm_num; linarith [log_two.1]
    · rw [abs_of_pos (by linarith [log_two.1] : 0 < log 2)]; norm_num; linarith [log_two.1]
  · rw [abs_of_pos (by have := log_two.1; positivity)]
    have : 1 / log 2 ≤ 1 / (693 / 1000) := one_div_le_one_div_of_le (by norm_num) log_two.1
    norm_num at this ⊢; linarith

theorem ln2_ln10 : Ap (lit f64 (ln2 / ln10)) (log 2 / log 10) (2 / 10 ^ 16) := by
  have h10 := log10_bounds
  refine lit_ap (ε := 1 / 10 ^ 16) (M := 1 / 2) ?_ ?_ (by norm_num) (by norm_num) (by norm_num)
  · push_cast
    refine (near_div (m := 2) (q := 1 / 2) ln2_near ln10_near (by norm_num) ?_ ?_).trans (by norm_num)
    · rw [abs_of_pos (by linarith [h10.1])]; norm_num; linarith [h10.1]
    · rw [abs_of_pos (by linarith [log_two.1] : 0 < log 2), abs_of_pos (by linarith [h10.1])]; linarith [h10.1, log_two.2]
  · rw [abs_of_pos (div_pos (by linarith [log_two.1]) (by linarith [h10.1]))]
    have : log 2 / log 10 ≤ 4 / 10 := by rw [div_le_iff₀ (by linarith [h10.1])]; linarith [h10.1, log_two.2]
    norm_num; linarith

theorem goLog2_ap {log' : F64 → F64} (hlog : ∀ x : F64, x.isFin = true → 1 / 2 ≤ (x.val : ℝ) → (x.val : ℝ) ≤ 1 →
      (log' x).isFin = true ∧ |((log' x).val : ℝ) - Real.log x.val| ≤ 7 / 10 ^ 16) (fused : Bool) {x : F64}
    (hx0 : (0 : ℝ) < x.val) (hr : |log (x.val : ℝ)| ≤ 100) :
    Ap (goLog2 fused log' x) (log x.val / log 2) (6 / 10 ^ 14) ∧ |log (x.val : ℝ) / log 2| ≤ 145 := by
  have l2 := log_two
  have hl0 : 0 < log 2 := by linarith [l2.1]
  obtain ⟨f1, f2, f3, _, f5⟩ := frexp_log hx0 hr
  have hbound : |log (x.val : ℝ) / log 2| ≤ 145 := by
    rw [abs_div, abs_of_pos hl0, div_le_iff₀ hl0]; linarith
  refine ⟨?_, hbound⟩
  set F := (frexp x).1 with hF
  set e := (frexp x).2 with he
  have hlF := log_half f2 f3
  have he146 : |(e : ℝ)| ≤ 147 := by
    have h1 := abs_le.mp f5
    have h2 := abs_le.mp hlF
    have h3 := abs_le.mp hr
    have : |(e : ℝ) * log 2| ≤ 101 := by
      rw [abs_le]; norm_num at h1 h2 h3 ⊢; constructor <;> linarith [h1.1, h1.2, h2.1, h2.2, h3.1, h3.2]
    rw [abs_mul, abs_of_pos hl0] at this
    by_contra hc
    have hc := _root_.not_le.mp hc
    have := mul_lt_mul_of_pos_right hc hl0
    linarith
  -- the exact value, up to the rounding in Frexp
  have key : |log (F.val : ℝ) * (1 / log 2) + e - log x.val / log 2| ≤ 2 / 10 ^ 16 := by
    have e1 : log (F.val : ℝ) * (1 / log 2) + e - log x.val / log 2 = (log (F.val : ℝ) + e * log 2 - log x.val) / log 2 := by
      field_simp
    rw [e1, abs_div, abs_of_pos hl0, div_le_iff₀ hl0]
    refine f5.trans ?_
    have := l2.1
    norm_num at this ⊢; linarith
  have hb2 : |log (F.val : ℝ) * (1 / log 2) + e| ≤ 149 := by
    have h1 := abs_le.mp key
    have h2 := abs_le.mp hbound
    rw [abs_le]; norm_num at h1 h2 ⊢; constructor <;> linarith [h1.1, h1.2, h2.1, h2.2]
  have near : ∀ {v : F64} {t : ℝ}, Ap v (log (F.val : ℝ) * (1 / log 2) + e) t → t + 2 / 10 ^ 16 ≤ 6 / 10 ^ 14 →
      Ap v (log x.val / log 2) (6 / 10 ^ 14) := fun hv ht =>
    ⟨hv.1, (abs_sub_le _ (log (F.val : ℝ) * (1 / log 2) + e) _).trans ((add_le_add hv.2 key).trans ht)⟩
  have hle : Ap (lit f64 ((e : Int) : ℚ)) (e : ℝ) (2 / 10 ^ 14) :=
    lit_ap (ε := 0) (M := 147) (by push_cast; simp) (by linarith) (by norm_num) (by norm_num) (by norm_num)
  unfold goLog2
  simp only [← hF, ← he]
  by_cases hh : beq F (lit f64 (1 / 2)) = true
  · rw [if_pos hh]
    rw [beq_fin f1 half_const.1, half_const.2, decide_eq_true_iff] at hh
    refine near (t := 3 / 10 ^ 14) ?_ (by norm_num)
    have e2 : log (F.val : ℝ) * (1 / log 2) + e = e - 1 := by
      rw [hh]; push_cast
      rw [show (1 / 2 : ℝ) = 2⁻¹ by norm_num, log_inv]; field_simp; ring
    rw [e2] at hb2 ⊢
    exact lit_ap (ε := 0) (M := 149) (by push_cast; simp) (by linarith) (by norm_num) (by norm_num) (by norm_num)
  · rw [if_neg hh]
    have f2r : (1 / 2 : ℝ) ≤ F.val := by
      have : ((1 / 2 : ℚ) : ℝ) ≤ F.val := by exact_mod_cast f2
      push_cast at this; exact this
    have f3r : (F.val : ℝ) ≤ 1 := by exact_mod_cast f3
    have hl : Ap (log' F) (log F.val) (7 / 10 ^ 16) := hlog F f1 f2r f3r
    have bi : |1 / log 2| ≤ 3 / 2 := by
      rw [abs_of_pos (by positivity), div_le_iff₀ hl0]; linarith
    by_cases hf : fused = true ∧ (log' F).isFin = true
    · rw [if_pos hf]
      refine near (t := 3 / 10 ^ 14) ?_ (by norm_num)
      have hn := near_mul hl.2 inv_ln2.2
      have h1 : |log (F.val : ℝ)| * (3 / 10 ^ 16) ≤ 1 * (3 / 10 ^ 16) := mul_le_mul_of_nonneg_right (by linarith) (by norm_num)
      have h2 : |1 / log 2| * (7 / 10 ^ 16) ≤ 3 / 2 * (7 / 10 ^ 16) := mul_le_mul_of_nonneg_right bi (by norm_num)
      refine (mk_ap (ε := 2 / 10 ^ 15) (M := 150) ?_ ?_ (by norm_num) (by norm_num)).mono (by norm_num)
      · push_cast
        have := near_add hn (show |(e : ℝ) - e| ≤ 0 by simp)
        refine this.trans ?_
        norm_num at h1 h2 ⊢; linarith
      · norm_num at hb2 ⊢; linarith
    · rw [if_neg hf]
      refine near (t := 5 / 10 ^ 14) ?_ (by norm_num)
      have hm := mul_ap (A := 1) (B := 3 / 2) (e := 2 / 10 ^ 15) (t := 3 / 10 ^ 15) hl inv_ln2 (by linarith) bi (by norm_num)
        (by norm_num) (by norm_num) (by norm_num)
      exact add_ap (M := 150) hm hle (by norm_num at hb2 ⊢; linarith) (by norm_num) (by norm_num) (by norm_num)

theorem goLog10_ap {exp' log' sqrt' : F64 → F64} (h : AccurateElementary exp' log' sqrt') (fused : Bool) {x : F64}
    (hx0 : (0 : ℝ) < x.val) (hr : |log (x.val : ℝ)| ≤ 100) :
    Ap (goLog10 fused log' x) (logb 10 x.val) (1 / 10 ^ 13) := by
  have l2 := log_two
  have h10 := log10_bounds
  have hl0 : 0 < log 2 := by linarith [l2.1]
  have hlog : ∀ x : F64, x.isFin = true → 1 / 2 ≤ (x.val : ℝ) → (x.val : ℝ) ≤ 1 →
      (log' x).isFin = true ∧ |((log' x).val : ℝ) - Real.log x.val| ≤ 7 / 10 ^ 16 := by
    intro z hz z1 z2
    obtain ⟨a, b⟩ := h.log z hz z1 (z2.trans (by norm_num))
    refine ⟨a, b.trans ?_⟩
    have := log_half (v := z.val) (by
      have : ((1 / 2 : ℚ) : ℝ) ≤ z.val := by push_cast; exact z1
      exact_mod_cast this) (by exact_mod_cast z2)
    have := mul_le_mul_of_nonneg_right (add_le_add_right this 1) (by norm_num : (0 : ℝ) ≤ 4 / 10 ^ 16)
    refine this.trans ?_
    norm_num
  obtain ⟨g1, g2⟩ := goLog2_ap hlog fused hx0 hr
  have e : logb 10 (x.val : ℝ) = log x.val / log 2 * (log 2 / log 10) := by
    unfold logb; field_simp
  rw [e]
  refine mul_ap (A := 145) (B := 1 / 2) (e := 7 / 10 ^ 14) g1 ln2_ln10 g2 ?_ (by norm_num) (by norm_num) (by norm_num) (by norm_num)
  rw [abs_of_pos (div_pos hl0 (by linarith [h10.1])), div_le_iff₀ (by linarith [h10.1])]
  linarith [h10.1]

end Radolan.Pow
