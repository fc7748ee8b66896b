/- Float64 arithmetic on moderate numbers: finite, with a uniform absolute error bound. -/
import Verif.Lemmas.FloatOrder

namespace Go

/-- rounding error below 2^-43 for magnitudes up to 1024 -/
theorem rnd_near {q : ℚ} (h : |q| ≤ 1024) : |rnd f64 q - q| ≤ pow2 (-43) := by
  by_cases hn : pow2 (-1022) ≤ |q|
  · have hn' : pow2 (f64.emin + f64.prec - 1) ≤ |q| := by
      rw [show f64.emin + (f64.prec : Int) - 1 = -1022 by decide]; exact hn
    have h1 := rnd_rel_err f64 hn'
    have h2 : |q| * pow2 (-(f64.prec : Int)) ≤ 1024 * pow2 (-(f64.prec : Int)) :=
      mul_le_mul_of_nonneg_right h (pow2_pos _).le
    have h3 : (1024 : ℚ) * pow2 (-(f64.prec : Int)) = pow2 (-43) := by
      have : (1024 : ℚ) = pow2 10 := by rw [pow2_eq]; norm_num
      rw [this, ← pow2_add]; congr 1
    linarith
  · have hn := lt_of_not_ge hn
    have h1 : |q| < pow2 (f64.emin + f64.prec) :=
      lt_trans hn (pow2_lt.mpr (by decide))
    have h2 := rnd_abs_err f64 h1
    have h3 : pow2 (f64.emin - 1) ≤ pow2 (-43) := pow2_le.mpr (by decide)
    linarith

/-- the error bound -/
def ε : ℚ := pow2 (-43)
theorem ε_eq : ε = 1 / 8796093022208 := by unfold ε; rw [pow2_eq]; norm_num

namespace Fl

/-- a float close to `q` -/
def Near (x : F64) (q : ℚ) : Prop := x.isFin = true ∧ |x.val - q| ≤ ε

theorem mk_near {b : Bool} {q : ℚ} (h : |q| ≤ 1024) : Near (mk f64 b q) q := by
  have hr := rnd_near h
  have hb : |rnd f64 q| < pow2 f64.emax := by
    have h1 : |rnd f64 q| ≤ |q| + |rnd f64 q - q| := by
      have := abs_add_le q (rnd f64 q - q); rwa [add_sub_cancel] at this
    have h2 : pow2 (-43) ≤ 1024 := by have := ε_eq; unfold ε at this; rw [this]; norm_num
    have h3 : (2048 : ℚ) = pow2 11 := by rw [pow2_eq]; norm_num
    have h4 : pow2 11 < pow2 f64.emax := pow2_lt.mpr (by decide)
    linarith
  obtain ⟨h1, h2⟩ := mk_fin (b := b) hb
  exact ⟨h1, by rw [h2]; exact hr⟩

theorem add_near {x y : F64} (hx : x.isFin = true) (hy : y.isFin = true) (h : |x.val + y.val| ≤ 1024) :
    Near (add x y) (x.val + y.val) := by rw [add_fin hx hy]; exact mk_near h

theorem sub_near {x y : F64} (hx : x.isFin = true) (hy : y.isFin = true) (h : |x.val - y.val| ≤ 1024) :
    Near (sub x y) (x.val - y.val) := by rw [sub_fin hx hy]; exact mk_near h

theorem mul_near {x y : F64} (hx : x.isFin = true) (hy : y.isFin = true) (h : |x.val * y.val| ≤ 1024) :
    Near (mul x y) (x.val * y.val) := by rw [mul_fin hx hy]; exact mk_near h

theorem div_near {x y : F64} (hx : x.isFin = true) (hy : y.isFin = true) (h0 : y.val ≠ 0) (h : |x.val / y.val| ≤ 1024) :
    Near (div x y) (x.val / y.val) := by rw [div_fin hx hy h0]; exact mk_near h

theorem ratTrunc_nonneg_bounds {a : ℚ} (h : 0 ≤ a) : (ratTrunc a : ℚ) ≤ a ∧ a < ratTrunc a + 1 := by
  unfold ratTrunc; rw [if_pos h]; exact floor_bounds a

theorem ratTrunc_neg_bounds {a : ℚ} (h : a < 0) : a ≤ (ratTrunc a : ℚ) ∧ (ratTrunc a : ℚ) < a + 1 := by
  unfold ratTrunc; rw [if_neg (_root_.not_le.mpr h)]
  have := floor_bounds (-a)
  push_cast
  constructor <;> linarith

/-- remainder by a positive number up to 512: its absolute value is below the divisor, up to rounding -/
theorem fmod_near {x y : F64} (hx : x.isFin = true) (hy : y.isFin = true) (h0 : 0 < y.val) (hy1 : y.val ≤ 512) :
    ∃ r : ℚ, Near (fmod x y) r ∧ (0 ≤ x.val → 0 ≤ r) ∧ |r| < y.val := by
  have heq : fmod x y = mk f64 x.sign (x.val - (ratTrunc (x.val / y.val) : ℚ) * y.val) := by
    have hy0 : y.val ≠ 0 := h0.ne'
    cases x <;> cases y <;> simp_all [isFin, fmod]
  set r := x.val - (ratTrunc (x.val / y.val) : ℚ) * y.val with hr
  have hb : |r| < y.val ∧ (0 ≤ x.val → 0 ≤ r) := by
    have e : x.val = x.val / y.val * y.val := by field_simp
    rcases le_or_gt 0 (x.val / y.val) with h | h
    · obtain ⟨h1, h2⟩ := ratTrunc_nonneg_bounds h
      have h3 : 0 ≤ r := by
        rw [hr]; have := mul_le_mul_of_nonneg_right h1 h0.le; linarith
      have h4 : r < y.val := by
        have := mul_lt_mul_of_pos_right h2 h0
        rw [add_mul, one_mul] at this
        rw [hr]; linarith
      exact ⟨by rw [abs_of_nonneg h3]; exact h4, fun _ => h3⟩
    · obtain ⟨h1, h2⟩ := ratTrunc_neg_bounds h
      have h3 : r ≤ 0 := by
        rw [hr]; have := mul_le_mul_of_nonneg_right h1 h0.le; linarith
      have h4 : -y.val < r := by
        have := mul_lt_mul_of_pos_right h2 h0
        rw [add_mul, one_mul] at this
        rw [hr]; linarith
      refine ⟨by rw [abs_of_nonpos h3]; linarith, ?_⟩
      intro hx0
      exfalso
      have := div_nonneg hx0 h0.le
      linarith
  refine ⟨r, ?_, hb.2, hb.1⟩
  rw [heq]
  exact mk_near (by linarith [hb.1])

/-- the integer part of a moderate number does not depend on the implementation -/
theorem toInt_indep (i j : F64 → Int) {x : F64} (hx : x.isFin = true) (h : |x.val| ≤ 1024) : toInt i x = toInt j x := by
  have hb : -(2 ^ 63) ≤ ratTrunc x.val ∧ ratTrunc x.val < 2 ^ 63 := by
    obtain ⟨h1, h2⟩ := abs_le.mp h
    rcases le_or_gt 0 x.val with h0 | h0
    · obtain ⟨k1, k2⟩ := ratTrunc_nonneg_bounds h0
      have a : (ratTrunc x.val : ℚ) ≤ 1024 := by linarith
      have b : (-1 : ℚ) ≤ ratTrunc x.val := by linarith
      have a : ratTrunc x.val ≤ 1024 := by exact_mod_cast a
      have b : -1 ≤ ratTrunc x.val := by exact_mod_cast b
      omega
    · obtain ⟨k1, k2⟩ := ratTrunc_neg_bounds h0
      have a : (ratTrunc x.val : ℚ) ≤ 1 := by linarith
      have b : (-1024 : ℚ) ≤ ratTrunc x.val := by linarith
      have a : ratTrunc x.val ≤ 1 := by exact_mod_cast a
      have b : -1024 ≤ ratTrunc x.val := by exact_mod_cast b
      omega
  unfold toInt
  rw [if_pos hx, if_pos hx, if_pos hb, if_pos hb]

/-- conversion to a byte of a number in (-1, 256) does not depend on the implementation -/
theorem toU8_indep (i j : F64 → UInt8) {x : F64} (hx : x.isFin = true) (h0 : -1 < x.val) (h : x.val < 256) :
    toU8 i x = toU8 j x := by
  have hb := ratTrunc_byte h0 h
  unfold toU8
  rw [if_pos hx, if_pos hx, if_pos hb, if_pos hb]

end Fl
end Go
