/- The constants math.Ln2 and math.Ln10. -/
import Verif.Model.Pow
import Mathlib.Analysis.SpecialFunctions.Log.Deriv
import Mathlib.Analysis.SpecialFunctions.Pow.Real

namespace Radolan.Pow
open Real

set_option maxHeartbeats 1000000 in
theorem ln2_near : |((ln2 : ℚ) : ℝ) - log 2| ≤ 1 / 10 ^ 17 := by
  have h := abs_log_sub_add_sum_range_le (x := 1 / 2) (by rw [abs_of_pos (by norm_num)]; norm_num) 60
  have e : log (1 - 1 / 2 : ℝ) = - log 2 := by
    rw [show (1 - 1 / 2 : ℝ) = 2⁻¹ by norm_num, log_inv]
  rw [e, abs_of_pos (by norm_num : (0 : ℝ) < 1 / 2)] at h
  have hs : |∑ i ∈ Finset.range 60, ((1 / 2 : ℝ) ^ (i + 1) / (i + 1)) - ((ln2 : ℚ) : ℝ)| ≤ 2 / 10 ^ 18 := by
    have : |∑ i ∈ Finset.range 60, ((1 / 2 : ℚ) ^ (i + 1) / (i + 1)) - ln2| ≤ 2 / 10 ^ 18 := by decide +kernel
    have h2 : ((|∑ i ∈ Finset.range 60, ((1 / 2 : ℚ) ^ (i + 1) / (i + 1)) - ln2| : ℚ) : ℝ) ≤ ((2 / 10 ^ 18 : ℚ) : ℝ) := by
      exact_mod_cast this
    push_cast at h2
    exact h2
  have h2 : ((1 / 2 : ℝ) ^ (60 + 1) / (1 - 1 / 2)) ≤ 1 / 10 ^ 18 := by norm_num
  have h3 := abs_le.mp (h.trans h2)
  have h4 := abs_le.mp hs
  rw [abs_le]
  constructor <;> linarith [h3.1, h3.2, h4.1, h4.2]

theorem ln10_near : |((ln10 : ℚ) : ℝ) - log 10| ≤ 5 / 10 ^ 17 := by
  have h := abs_log_sub_add_sum_range_le (x := 1 / 5) (by rw [abs_of_pos (by norm_num)]; norm_num) 26
  have e : log (1 - 1 / 5 : ℝ) = 3 * log 2 - log 10 := by
    rw [show (1 - 1 / 5 : ℝ) = 2 ^ 3 / 10 by norm_num, log_div (by norm_num) (by norm_num), log_pow]; norm_num
  rw [e, abs_of_pos (by norm_num : (0 : ℝ) < 1 / 5)] at h
  have hs : |∑ i ∈ Finset.range 26, ((1 / 5 : ℝ) ^ (i + 1) / (i + 1)) - (((ln10 : ℚ) : ℝ) - 3 * ((ln2 : ℚ) : ℝ))| ≤ 2 / 10 ^ 18 := by
    have : |∑ i ∈ Finset.range 26, ((1 / 5 : ℚ) ^ (i + 1) / (i + 1)) - (ln10 - 3 * ln2)| ≤ 2 / 10 ^ 18 := by decide +kernel
    have h2 : ((|∑ i ∈ Finset.range 26, ((1 / 5 : ℚ) ^ (i + 1) / (i + 1)) - (ln10 - 3 * ln2)| : ℚ) : ℝ) ≤ ((2 / 10 ^ 18 : ℚ) : ℝ) := by
      exact_mod_cast this
    push_cast at h2
    exact h2
  have h2 : ((1 / 5 : ℝ) ^ (26 + 1) / (1 - 1 / 5)) ≤ 1 / 10 ^ 18 := by norm_num
  have h3 := abs_le.mp (h.trans h2)
  have h4 := abs_le.mp hs
  have h5 := abs_le.mp ln2_near
  rw [abs_le]
  constructor <;> linarith [h3.1, h3.2, h4.1, h4.2, h5.1, h5.2]

end Radolan.Pow
