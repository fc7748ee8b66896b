/- Rounding yields the nearest representable value. -/
import Verif.Go.Float

namespace Go

theorem roundEven_nearest (x : ℚ) (n : Int) : |(roundEven x : ℚ) - x| ≤ |(n : ℚ) - x| := by
  by_cases h : n = roundEven x
  · rw [h]
  · have he := roundEven_err x
    have h1 : (1 : ℚ) ≤ |(n : ℚ) - roundEven x| := by
      have : 1 ≤ |n - roundEven x| := Int.one_le_abs (sub_ne_zero.mpr h)
      have : ((1 : Int) : ℚ) ≤ ((|n - roundEven x| : Int) : ℚ) := by exact_mod_cast this
      push_cast at this; exact this
    have h2 : |(n : ℚ) - roundEven x| ≤ |(n : ℚ) - x| + |(roundEven x : ℚ) - x| := by
      have : (n : ℚ) - roundEven x = (n - x) - (roundEven x - x) := by ring
      rw [this]; exact abs_sub _ _
    linarith

/-- a representable value is a multiple of its own ulp -/
theorem rep_multiple {f : Fmt} {g : ℚ} (hg : rnd f g = g) {e : Int} (he : e ≤ ulpExp f |g|) :
    ∃ n : Int, g = n * pow2 e := by
  by_cases h0 : g = 0
  · exact ⟨0, by simp [h0]⟩
  · unfold rnd at hg
    rw [if_neg h0] at hg
    refine ⟨roundEven (g / pow2 (ulpExp f |g|)) * 2 ^ (ulpExp f |g| - e).toNat, ?_⟩
    push_cast
    rw [mul_assoc, ← pow2_toNat (by omega), ← pow2_add]
    rw [show ulpExp f |g| - e + e = ulpExp f |g| by ring]
    exact hg.symm

theorem rnd_nearest_pos (f : Fmt) {q g : ℚ} (hq : 0 < q) (hg : rnd f g = g) : |rnd f q - q| ≤ |g - q| := by
  have hs := ilog2_spec hq
  have mult : ∀ n : Int, |rnd f q - q| ≤ |n * pow2 (ulpExp f q) - q| := by
    intro n
    have hu := pow2_pos (ulpExp f q)
    unfold rnd
    rw [if_neg hq.ne', abs_of_pos hq]
    have e : ∀ m : ℚ, m * pow2 (ulpExp f q) - q = (m - q / pow2 (ulpExp f q)) * pow2 (ulpExp f q) := by
      intro m; rw [sub_mul, div_mul_cancel₀ _ hu.ne']
    rw [e, e, abs_mul, abs_mul]
    exact mul_le_mul_of_nonneg_right (roundEven_nearest _ n) (abs_nonneg _)
  by_cases h0 : g = 0
  · have := mult 0
    simpa [h0] using this
  by_cases hu : ulpExp f q ≤ ulpExp f |g|
  · obtain ⟨n, hn⟩ := rep_multiple hg hu
    rw [hn]; exact mult n
  · have hgs := ilog2_spec (abs_pos.mpr h0)
    have hx : ulpExp f q = ilog2 q - ((f.prec : Int) - 1) ∧ ilog2 |g| + 1 ≤ ilog2 q := by
      unfold ulpExp at hu ⊢; omega
    have hp := f.hprec
    have hB := mult (2 ^ (f.prec - 1))
    have hb : (((2 : Int) ^ (f.prec - 1) : Int) : ℚ) * pow2 (ulpExp f q) = pow2 (ilog2 q) := by
      push_cast
      rw [← pow2_nat, ← pow2_add, hx.1]
      congr 1
      omega
    rw [hb] at hB
    refine le_trans hB ?_
    have h1 : |g| ≤ pow2 (ilog2 q) := le_trans hgs.2.le (pow2_le.mpr hx.2)
    have h2 := le_abs_self g
    rw [abs_of_nonpos (by linarith [hs.1]), abs_of_nonpos (by linarith [hs.1])]
    linarith

/-- no representable value is closer to `q` than `rnd f q` -/
theorem rnd_nearest (f : Fmt) {q g : ℚ} (hg : rnd f g = g) : |rnd f q - q| ≤ |g - q| := by
  rcases lt_trichotomy q 0 with h | h | h
  · have := rnd_nearest_pos f (q := -q) (g := -g) (by linarith) (by rw [rnd_neg, hg])
    rw [rnd_neg] at this
    have e1 : -rnd f q - -q = -(rnd f q - q) := by ring
    have e2 : -g - -q = -(g - q) := by ring
    rwa [e1, e2, abs_neg, abs_neg] at this
  · subst h; simp
  · exact rnd_nearest_pos f h hg

end Go
