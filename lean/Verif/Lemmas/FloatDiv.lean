/- Division facts of the soft-float model. -/
import Verif.Lemmas.Calib

namespace Go
variable {f : Fmt}

theorem abs_rnd (q : ℚ) : |rnd f q| = rnd f |q| := by
  rcases le_total 0 q with h | h
  · rw [abs_of_nonneg h, abs_of_nonneg (rnd_nonneg f h)]
  · have := rnd_nonneg f (q := -q) (by linarith)
    rw [rnd_neg] at this
    rw [abs_of_nonpos h, rnd_neg, abs_of_nonpos (by linarith)]

/-- a result of magnitude at least `2^(e+1)` comes from an exact value of magnitude at least `2^e` -/
theorem abs_ge_of_rnd_ge {q : ℚ} {e : Int} (he : f.emin ≤ e) (h : pow2 (e + 1) ≤ |rnd f q|) : pow2 e ≤ |q| := by
  by_contra hc
  have hc : |q| < pow2 e := lt_of_not_ge hc
  rw [abs_rnd] at h
  rcases eq_or_lt_of_le (abs_nonneg q) with h0 | h0
  · rw [← h0, rnd_zero] at h; linarith [pow2_pos (e + 1)]
  · have h1 := rnd_le_pow2 f h0 he hc.le
    have h2 : pow2 e < pow2 (e + 1) := pow2_lt.mpr (by omega)
    linarith

/-- scaling by a power of two commutes with rounding in the normal range -/
theorem rnd_scale {q : ℚ} (k : Nat) (h : pow2 (f.emin + f.prec - 1) ≤ |q|) :
    rnd f (q * pow2 k) = rnd f q * pow2 k := by
  have hqpos : 0 < |q| := lt_of_lt_of_le (pow2_pos _) h
  have h0 : q ≠ 0 := abs_pos.mp hqpos
  have hs := ilog2_spec hqpos
  have hil : f.emin + f.prec - 1 ≤ ilog2 |q| := by
    have := pow2_lt.mp (lt_of_le_of_lt h hs.2); omega
  have hk := pow2_pos (k : Int)
  have hq' : |q * pow2 k| = |q| * pow2 k := by rw [abs_mul, abs_of_pos hk]
  have hil' : ilog2 |q * pow2 k| = ilog2 |q| + k := by
    rw [hq']
    apply ilog2_unique
    · rw [pow2_add]; exact mul_le_mul_of_nonneg_right hs.1 hk.le
    · rw [show ilog2 |q| + (k : Int) + 1 = (ilog2 |q| + 1) + k by ring, pow2_add]
      exact mul_lt_mul_of_pos_right hs.2 hk
  have hu : ulpExp f |q * pow2 k| = ulpExp f |q| + k := by
    unfold ulpExp; rw [hil']; omega
  unfold rnd
  rw [if_neg h0, if_neg (mul_ne_zero h0 hk.ne'), hu, pow2_add]
  have : q * pow2 k / (pow2 (ulpExp f |q|) * pow2 k) = q / pow2 (ulpExp f |q|) := by
    have := (pow2_pos (ulpExp f |q|)).ne'
    have := hk.ne'
    field_simp
  rw [this]; ring

namespace Fl

/-- an integer multiple of a power of two that fits is exact as a float64 -/
theorem lit_scaled {b : Int} {k : Nat} (h0 : 0 < b) (hb : b ≤ 2 ^ 53) (hk : b * 2 ^ k < 2 ^ 63) :
    (lit f64 ((b * 2 ^ k : Int) : ℚ)).isFin = true ∧ (lit f64 ((b * 2 ^ k : Int) : ℚ)).val = ((b * 2 ^ k : Int) : ℚ) := by
  have hq : ((b * 2 ^ k : Int) : ℚ) = (b : ℚ) * pow2 (k : Int) := by rw [pow2_nat]; push_cast; rfl
  have he : rnd f64 ((b * 2 ^ k : Int) : ℚ) = ((b * 2 ^ k : Int) : ℚ) := by
    rw [hq]
    apply rnd_exact
    · show (-1074 : Int) ≤ k; omega
    · rw [abs_of_pos h0]; exact hb
  have hlt : |rnd f64 ((b * 2 ^ k : Int) : ℚ)| < pow2 f64.emax := by
    rw [he, abs_of_nonneg (by exact_mod_cast (by positivity : 0 ≤ b * 2 ^ k))]
    have h1 : ((b * 2 ^ k : Int) : ℚ) < ((2 ^ 63 : Int) : ℚ) := by exact_mod_cast hk
    have h2 : ((2 ^ 63 : Int) : ℚ) = pow2 63 := by simp [pow2]
    rw [h2] at h1
    exact lt_trans h1 (pow2_lt.mpr (by decide))
  have := mk_fin (f := f64) (b := false) hlt
  rw [he] at this
  exact this

theorem div_val {x y : Fl f} (hr : (div x y).isFin = true) (h0 : (div x y).val ≠ 0) :
    (div x y).val = rnd f (x.val / y.val) := by
  obtain ⟨hx, hy, hy0⟩ := div_fin_of_result hr h0
  rw [div_fin hx hy hy0] at hr ⊢
  exact mk_val_of_isFin hr

/-- dividing by the quotient gives back the divisor up to two roundings -/
theorem div_div_self {d n : F64} (_ : n.isFin = true) (h1 : 1 ≤ n.val) (h2 : n.val ≤ pow2 63)
    (hr : (div d n).isFin = true) (hlo : pow2 (-1021) ≤ |(div d n).val|) :
    (div d (div d n)).isFin = true ∧ |(div d (div d n)).val - n.val| ≤ n.val * pow2 (-51) := by
  have hr0 : (div d n).val ≠ 0 := by
    intro h; rw [h, abs_zero] at hlo; linarith [pow2_pos (-1021)]
  obtain ⟨hd, _, hn0⟩ := div_fin_of_result hr hr0
  have hv := div_val hr hr0
  set R := (div d n).val with hR
  set N := n.val
  set D := d.val
  have hN : 0 < N := by linarith
  have hq : pow2 (-1022) ≤ |D / N| := by
    rw [hv] at hlo
    exact abs_ge_of_rnd_ge (f := f64) (e := -1022) (by decide) hlo
  have herr : |R - D / N| ≤ |D / N| * pow2 (-53) := by
    rw [hv]; exact rnd_rel_err f64 hq
  have hu : pow2 (-53) = 1 / 9007199254740992 := by rw [pow2_eq]; norm_num
  have hu51 : pow2 (-51) = 1 / 2251799813685248 := by rw [pow2_eq]; norm_num
  rw [hu] at herr
  rw [hu51]
  have hqpos : 0 < |D / N| := lt_of_lt_of_le (pow2_pos _) hq
  have hRpos : 0 < |R| := abs_pos.mpr hr0
  have hRlo : |D / N| * (1 - 1 / 9007199254740992) ≤ |R| := by
    have := abs_sub_abs_le_abs_sub (D / N) R
    rw [abs_sub_comm] at this
    linarith
  -- the exact second quotient
  have ht : |D / R - N| ≤ N * (1 / 9007199254740991) := by
    have e : D / R - N = N * ((D / N - R) / R) := by
      field_simp
    rw [e, abs_mul, abs_of_pos hN, abs_div]
    apply mul_le_mul_of_nonneg_left _ hN.le
    rw [div_le_iff₀ hRpos, abs_sub_comm]
    linarith
  have ht1 := abs_le.mp ht
  have htlo : pow2 (-1022) ≤ |D / R| := by
    have h3 : (1 : ℚ) / 2 ≤ D / R := by nlinarith
    have h4 : pow2 (-1022) ≤ pow2 (-1) := pow2_le.mpr (by decide)
    have h5 : pow2 (-1) = 1 / 2 := by rw [pow2_eq]; norm_num
    rw [abs_of_pos (by linarith)]
    linarith
  have herr2 : |rnd f64 (D / R) - D / R| ≤ |D / R| * (1 / 9007199254740992) := by
    rw [← hu]; exact rnd_rel_err f64 htlo
  have hDR : 0 < D / R := by nlinarith
  rw [abs_of_pos hDR] at herr2
  have hfin : |rnd f64 (D / R)| < pow2 f64.emax := by
    have h3 := abs_le.mp herr2
    have h4 : |rnd f64 (D / R)| ≤ 2 * (D / R) := by
      rw [abs_le]; constructor <;> linarith
    have h5 : 2 * (D / R) ≤ pow2 65 := by
      have : pow2 65 = 4 * pow2 63 := by simp [pow2]; norm_num
      linarith
    exact lt_of_le_of_lt (le_trans h4 h5) (pow2_lt.mpr (by decide))
  rw [div_fin hd hr hr0]
  obtain ⟨hf, hval⟩ := mk_fin (f := f64) (b := (d.sign ^^ (div d n).sign)) hfin
  refine ⟨hf, ?_⟩
  rw [hval]
  have h3 := abs_le.mp herr2
  rw [abs_le]
  constructor <;> linarith

/-- quotients by a divisor scaled by `2^k` -/
theorem div_scaled_divisor {d n n' : F64} {k : Nat} (hn : n.isFin = true) (hn0 : n.val ≠ 0) (_ : n'.isFin = true)
    (hs : n'.val = n.val * pow2 k) (hr : (div d n).isFin = true) (hr' : (div d n').isFin = true)
    (hlo : pow2 (-1021) ≤ |(div d n').val|) : (div d n).val = (div d n').val * pow2 k := by
  have hr0 : (div d n').val ≠ 0 := by
    intro h; rw [h, abs_zero] at hlo; linarith [pow2_pos (-1021)]
  obtain ⟨hd, _, hn0'⟩ := div_fin_of_result hr' hr0
  have hv := div_val hr' hr0
  rw [hv] at hlo ⊢
  have hq : pow2 (-1022) ≤ |d.val / n'.val| := abs_ge_of_rnd_ge (f := f64) (e := -1022) (by decide) hlo
  have hq' : pow2 (f64.emin + f64.prec - 1) ≤ |d.val / n'.val| := by
    rw [show f64.emin + (f64.prec : Int) - 1 = -1022 by decide]; exact hq
  rw [← rnd_scale k hq']
  rw [div_fin hd hn hn0] at hr ⊢
  rw [mk_val_of_isFin hr, hs]
  congr 1
  have := (pow2_pos (k : Int)).ne'
  field_simp

end Fl
end Go
