/- math.Log10 of every positive number. -/
import Verif.Lemmas.Log10
import Verif.Lemmas.ElemLog

namespace Radolan.Pow
open Go Go.Fl Real Radolan.Num _root_.Spec.Pow Radolan.Elem

/-- the logarithm of a positive float64 -/
theorem log_range {x : F64} (hx0 : (0 : ℝ) < x.val) :
    |log (x.val : ℝ)| ≤ 746 ∧ log ((frexp x).1.val : ℝ) + (frexp x).2 * log 2 = log x.val := by
  have l2 := log_two
  obtain ⟨f1, f2, f3, f4, f5, f6⟩ := frexp_exact (x := x) (by exact_mod_cast hx0)
  have hpos : (0 : ℝ) < (frexp x).1.val := by
    have : ((1 / 2 : ℚ) : ℝ) ≤ (frexp x).1.val := by exact_mod_cast f3
    norm_num at this ⊢; linarith
  have hlog : log ((frexp x).1.val : ℝ) + (frexp x).2 * log 2 = log x.val := by
    rw [← f2]; push_cast
    rw [log_mul hpos.ne' (by rw [pow2_real]; positivity), log_pow2]
  refine ⟨?_, hlog⟩
  have hlF := log_half f3 f4.le
  have hk : |((frexp x).2 : ℝ)| ≤ 1073 := by
    have h : |(frexp x).2| ≤ 1073 := by rw [abs_le]; omega
    exact_mod_cast h
  have hm : |((frexp x).2 : ℝ) * log 2| ≤ 1073 * (694 / 1000) :=
    abs_mul_le hk (by rw [abs_of_pos (by linarith [l2.1])]; exact l2.2)
  rw [← hlog]
  refine (abs_add_le _ _).trans ?_
  norm_num at hm hlF ⊢; linarith

theorem goLog2_wide {log' : F64 → F64} (hlog : ∀ x : F64, x.isFin = true → 1 / 2 ≤ (x.val : ℝ) → (x.val : ℝ) ≤ 1 →
      (log' x).isFin = true ∧ |((log' x).val : ℝ) - Real.log x.val| ≤ 7 / 10 ^ 16) (fused : Bool) {x : F64}
    (hx0 : (0 : ℝ) < x.val) :
    Ap (goLog2 fused log' x) (log x.val / log 2) (3 / 10 ^ 13) ∧ |log (x.val : ℝ) / log 2| ≤ 1077 := by
  have l2 := log_two
  have hl0 : 0 < log 2 := by linarith [l2.1]
  obtain ⟨hr, hl⟩ := log_range hx0
  obtain ⟨f1, _, f2, f3, f5, f6⟩ := frexp_exact (x := x) (by exact_mod_cast hx0)
  have hbound : |log (x.val : ℝ) / log 2| ≤ 1077 := by
    rw [abs_div, abs_of_pos hl0, div_le_iff₀ hl0]; linarith
  refine ⟨?_, hbound⟩
  have he : |((frexp x).2 : ℝ)| ≤ 1074 := by
    have h : |(frexp x).2| ≤ 1074 := by rw [abs_le]; omega
    exact_mod_cast h
  have key : log x.val / log 2 = log ((frexp x).1.val : ℝ) * (1 / log 2) + (frexp x).2 := by
    rw [← hl]; field_simp
  rw [key] at hbound ⊢
  have hlF := log_half f2 f3.le
  unfold goLog2
  simp only []
  generalize (frexp x).1 = F at *
  generalize (frexp x).2 = e at *
  have hle : Ap (lit f64 ((e : Int) : ℚ)) (e : ℝ) (13 / 10 ^ 14) :=
    lit_ap (ε := 0) (M := 1074) (by push_cast; simp) (by linarith) (by norm_num) (by norm_num) (by norm_num)
  by_cases hh : beq F (lit f64 (1 / 2)) = true
  · rw [if_pos hh]
    rw [beq_fin f1 half_const.1, half_const.2, decide_eq_true_iff] at hh
    have e2 : log (F.val : ℝ) * (1 / log 2) + e = e - 1 := by
      rw [hh]; push_cast
      rw [show (1 / 2 : ℝ) = 2⁻¹ by norm_num, log_inv]; field_simp; ring
    rw [e2] at hbound ⊢
    exact lit_ap (ε := 0) (M := 1077) (by push_cast; simp) (by linarith) (by norm_num) (by norm_num) (by norm_num)
  · rw [if_neg hh]
    have f2r : (1 / 2 : ℝ) ≤ F.val := by
      have : ((1 / 2 : ℚ) : ℝ) ≤ F.val := by exact_mod_cast f2
      push_cast at this; exact this
    have f3r : (F.val : ℝ) ≤ 1 := by exact_mod_cast f3.le
    have hl : Ap (log' F) (log F.val) (7 / 10 ^ 16) := hlog F f1 f2r f3r
    have bi : |1 / log 2| ≤ 3 / 2 := by
      rw [abs_of_pos (by positivity), div_le_iff₀ hl0]; linarith
    by_cases hf : fused = true ∧ (log' F).isFin = true
    · rw [if_pos hf]
      have hn := near_mul hl.2 inv_ln2.2
      have h1 : |log (F.val : ℝ)| * (3 / 10 ^ 16) ≤ 1 * (3 / 10 ^ 16) := mul_le_mul_of_nonneg_right (by linarith) (by norm_num)
      have h2 : |1 / log 2| * (7 / 10 ^ 16) ≤ 3 / 2 * (7 / 10 ^ 16) := mul_le_mul_of_nonneg_right bi (by norm_num)
      refine (mk_ap (ε := 2 / 10 ^ 15) (M := 1078) ?_ ?_ (by norm_num) (by norm_num)).mono (by norm_num)
      · push_cast
        have := near_add hn (show |(e : ℝ) - e| ≤ 0 by simp)
        refine this.trans ?_
        norm_num at h1 h2 ⊢; linarith
      · norm_num at hbound ⊢; linarith
    · rw [if_neg hf]
      have hm := mul_ap (A := 1) (B := 3 / 2) (e := 2 / 10 ^ 15) (t := 3 / 10 ^ 15) hl inv_ln2 (by linarith) bi (by norm_num)
        (by norm_num) (by norm_num) (by norm_num)
      exact add_ap (M := 1078) hm hle (by norm_num at hbound ⊢; linarith) (by norm_num) (by norm_num) (by norm_num)

/-- math.Log10 of every positive number -/
theorem goLog10_wide {exp' log' sqrt' : F64 → F64} (h : AccurateElementary exp' log' sqrt') (fused : Bool) {x : F64}
    (hx0 : (0 : ℝ) < x.val) :
    Ap (goLog10 fused log' x) (logb 10 x.val) (1 / 10 ^ 12) ∧ |logb 10 (x.val : ℝ)| ≤ 325 := by
  have l2 := log_two
  have h10 := log10_bounds
  have hl0 : 0 < log 2 := by linarith [l2.1]
  have hlog : ∀ x : F64, x.isFin = true → 1 / 2 ≤ (x.val : ℝ) → (x.val : ℝ) ≤ 1 →
      (log' x).isFin = true ∧ |((log' x).val : ℝ) - Real.log x.val| ≤ 7 / 10 ^ 16 := by
    intro z hz z1 z2
    obtain ⟨a, b⟩ := h.log z hz z1 (z2.trans (by norm_num))
    refine ⟨a, b.trans ?_⟩
    have := log_half (v := z.val) (by
      have : ((1 / 2 : ℚ) : ℝ) ≤ z.val := by push_cast; exact z1
      exact_mod_cast this) (by exact_mod_cast z2)
    have := mul_le_mul_of_nonneg_right (add_le_add_right this 1) (by norm_num : (0 : ℝ) ≤ 4 / 10 ^ 16)
    refine this.trans ?_
    norm_num
  obtain ⟨g1, g2⟩ := goLog2_wide hlog fused hx0
  have e : logb 10 (x.val : ℝ) = log x.val / log 2 * (log 2 / log 10) := by
    unfold logb; field_simp
  constructor
  · rw [e]
    refine mul_ap (A := 1077) (B := 1 / 2) (e := 5 / 10 ^ 13) g1 ln2_ln10 g2 ?_ (by norm_num) (by norm_num) (by norm_num) (by norm_num)
    rw [abs_of_pos (div_pos hl0 (by linarith [h10.1])), div_le_iff₀ (by linarith [h10.1])]
    linarith [h10.1]
  · unfold logb
    rw [abs_div, abs_of_pos (by linarith [h10.1] : 0 < log 10), div_le_iff₀ (by linarith [h10.1])]
    linarith [(log_range hx0).1, h10.1]

end Radolan.Pow
