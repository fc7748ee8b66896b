/- The loop of math.Sqrt computes the integer square root. -/
import Verif.Model.Sqrt
import Verif.Lemmas.ElemLog

namespace Radolan.Sqrt
open Go Go.Fl Radolan.Pow Radolan.Elem

/-- invariant of the loop: `q` is the root of `M` to the bits above `r`, `ix * r` the remainder -/
theorem sqrtLoop_spec (M : Nat) (hM : M < 2 ^ 108) : ∀ (k q ix : Nat), k ≤ 53 → ix * 2 ^ k + q * q = M →
    M < (q + 2 * 2 ^ k) * (q + 2 * 2 ^ k) →
    ∃ q' rem, sqrtLoop (2 ^ k) q (2 * q) ix = (q', 2 * rem) ∧ q' * q' + rem = M ∧ M < (q' + 1) * (q' + 1) ∧ q' < 2 ^ 54 := by
  intro k
  induction k with
  | zero =>
    intro q ix _ h1 h2
    have hq : q < 2 ^ 54 := by
      by_contra hc
      have hc := Nat.not_lt.mp hc
      have : 2 ^ 54 * 2 ^ 54 ≤ q * q := Nat.mul_le_mul hc hc
      have e : 2 ^ 54 * 2 ^ 54 = 2 ^ 108 := by norm_num
      omega
    have hix : ix < 2 ^ 58 := by
      have : ix < 4 * q + 5 := by nlinarith
      omega
    rw [pow_zero, sqrtLoop, if_neg (by norm_num)]
    simp only []
    have e1 : (2 * q + 1) % 2 ^ 64 = 2 * q + 1 := Nat.mod_eq_of_lt (by omega)
    rw [e1]
    by_cases ht : 2 * q + 1 ≤ ix
    · rw [if_pos ht]
      have e2 : (q + 1) % 2 ^ 64 = q + 1 := Nat.mod_eq_of_lt (by omega)
      have e3 : 2 * (ix - (2 * q + 1)) % 2 ^ 64 = 2 * (ix - (2 * q + 1)) := Nat.mod_eq_of_lt (by omega)
      rw [e2, e3, sqrtLoop, if_pos (by norm_num)]
      obtain ⟨d, rfl⟩ := Nat.exists_eq_add_of_le ht
      refine ⟨q + 1, d, by rw [Nat.add_sub_cancel_left], by rw [← h1]; ring, by simpa [add_assoc] using h2, ?_⟩
      by_contra hc
      have hc := Nat.not_lt.mp hc
      have h3 : 2 ^ 54 * 2 ^ 54 ≤ (q + 1) * (q + 1) := Nat.mul_le_mul hc hc
      have e : 2 ^ 54 * 2 ^ 54 = 2 ^ 108 := by norm_num
      have h4 : (q + 1) * (q + 1) ≤ M := by rw [← h1]; nlinarith
      omega
    · rw [if_neg ht]
      have e3 : 2 * ix % 2 ^ 64 = 2 * ix := Nat.mod_eq_of_lt (by omega)
      rw [e3, sqrtLoop, if_pos (by norm_num)]
      refine ⟨q, ix, rfl, by rw [← h1]; ring, ?_, hq⟩
      have : ix < 2 * q + 1 := Nat.not_le.mp ht
      rw [← h1]; nlinarith
  | succ k ih =>
    intro q ix hk h1 h2
    have hr : (2 ^ (k + 1) : Nat) = 2 * 2 ^ k := by ring
    have hr0 : 0 < 2 ^ k := by positivity
    have hrk : 2 ^ k ≤ 2 ^ 52 := Nat.pow_le_pow_right (by norm_num) (by omega)
    have hdiv : 2 ^ (k + 1) / 2 = 2 ^ k := by omega
    rw [sqrtLoop, if_neg (by positivity), hdiv]
    rw [hr] at h1 h2 ⊢
    generalize 2 ^ k = r at *
    have hq : q < 2 ^ 54 := by
      by_contra hc
      have hc := Nat.not_lt.mp hc
      have : 2 ^ 54 * 2 ^ 54 ≤ q * q := Nat.mul_le_mul hc hc
      have e : 2 ^ 54 * 2 ^ 54 = 2 ^ 108 := by norm_num
      have : q * q ≤ M := by omega
      omega
    have hix : ix < 4 * q + 8 * r := by
      have h3 : ix * (2 * r) < (4 * q + 8 * r) * (2 * r) := by nlinarith
      exact Nat.lt_of_mul_lt_mul_right h3
    simp only []
    have e1 : (2 * q + 2 * r) % 2 ^ 64 = 2 * q + 2 * r := Nat.mod_eq_of_lt (by omega)
    rw [e1]
    by_cases ht : 2 * q + 2 * r ≤ ix
    · rw [if_pos ht]
      have e2 : (q + 2 * r) % 2 ^ 64 = q + 2 * r := Nat.mod_eq_of_lt (by omega)
      have e4 : (2 * q + 2 * r + 2 * r) % 2 ^ 64 = 2 * (q + 2 * r) := by rw [Nat.mod_eq_of_lt (by omega)]; ring
      have e3 : 2 * (ix - (2 * q + 2 * r)) % 2 ^ 64 = 2 * (ix - (2 * q + 2 * r)) := Nat.mod_eq_of_lt (by omega)
      rw [e2, e3, e4]
      obtain ⟨d, rfl⟩ := Nat.exists_eq_add_of_le ht
      rw [Nat.add_sub_cancel_left]
      exact ih (q + 2 * r) (2 * d) (by omega) (by rw [← h1]; ring) (by
        rw [show q + 2 * r + 2 * r = q + 2 * (2 * r) by ring]; exact h2)
    · rw [if_neg ht]
      have e3 : 2 * ix % 2 ^ 64 = 2 * ix := Nat.mod_eq_of_lt (by omega)
      rw [e3]
      refine ih q (2 * ix) (by omega) (by rw [← h1]; ring) ?_
      have : ix < 2 * q + 2 * r := Nat.not_le.mp ht
      rw [← h1]; nlinarith

theorem normalize_spec : ∀ (j fuel ix : Nat) (exp : Int), j ≤ fuel → 2 ^ 52 ≤ ix * 2 ^ j → ix * 2 ^ j < 2 ^ 53 →
    normalize fuel ix exp = (ix * 2 ^ j, exp - j) := by
  intro j
  induction j with
  | zero =>
    intro fuel ix exp _ h1 h2
    rw [pow_zero, mul_one] at h1 h2 ⊢
    cases fuel with
    | zero => simp [normalize]
    | succ f =>
      rw [normalize, if_neg (by omega)]
      simp
  | succ j ih =>
    intro fuel ix exp hf h1 h2
    obtain ⟨f, rfl⟩ : ∃ f, fuel = f + 1 := ⟨fuel - 1, by omega⟩
    have e : ix * 2 ^ (j + 1) = 2 * ix * 2 ^ j := by ring
    rw [e] at h1 h2
    have h3 : 1 ≤ 2 ^ j := Nat.one_le_two_pow
    have h4 : 2 * ix < 2 ^ 53 := lt_of_le_of_lt (Nat.le_mul_of_pos_right _ h3) h2
    rw [normalize, if_pos (by omega), Nat.mod_eq_of_lt (by omega), ih f (2 * ix) (exp - 1) (by omega) h1 h2, e]
    push_cast
    congr 1
    ring

/-- a float64 of at least 2^E is a multiple of 2^(E - 52) -/
theorem multiple {q : ℚ} (hq : IsRep f64 q) {E : Int} (h : pow2 E ≤ q) : ∃ n : Int, q = n * pow2 (E - 52) := by
  obtain ⟨n, e, he, hn, hr⟩ := rnd_form f64 q
  rw [hq.1] at hr
  by_cases hc : E - 52 ≤ e
  · refine ⟨n * 2 ^ (e - (E - 52)).toNat, ?_⟩
    have : ((2 ^ (e - (E - 52)).toNat : Int) : ℚ) = pow2 (e - (E - 52)) := by
      rw [pow2_eq]
      obtain ⟨k, hk⟩ := Int.eq_ofNat_of_zero_le (show 0 ≤ e - (E - 52) by omega)
      rw [hk]; simp
    rw [hr]
    push_cast at this ⊢
    rw [this, mul_assoc, ← pow2_add]
    congr 2; omega
  · have h1 : pow2 53 * pow2 e ≥ (n : ℚ) * pow2 e := by
      refine mul_le_mul_of_nonneg_right ?_ (pow2_pos e).le
      have h1 : n ≤ 2 ^ 53 := (le_abs_self n).trans hn
      have h2 : pow2 53 = ((2 ^ 53 : Int) : ℚ) := by decide +kernel
      rw [h2]; exact_mod_cast h1
    rw [← hr, ← pow2_add] at h1
    have h2 : E ≤ 53 + e := pow2_le.mp (h.trans h1)
    have h3 : E = 53 + e := by omega
    refine ⟨2 ^ 52, ?_⟩
    have h4 : q = pow2 E := _root_.le_antisymm (by rw [h3]; exact h1) h
    have h5 : ((2 ^ 52 : Int) : ℚ) = pow2 52 := by decide +kernel
    rw [h4, h5, ← pow2_add]
    congr 1; omega

theorem unpack_normal {ix : Nat} (h : ix / 2 ^ 52 % 2 ^ 11 ≠ 0) :
    unpack ix = (ix % 2 ^ 52 + 2 ^ 52, ((ix / 2 ^ 52 % 2 ^ 11 : Nat) : Int) - 1023) := by
  unfold unpack; simp only [if_neg h]

theorem unpack_denormal {ix : Nat} (h : ix / 2 ^ 52 % 2 ^ 11 = 0) :
    unpack ix = ((normalize 64 ix 0).1 % 2 ^ 52 + 2 ^ 52, (normalize 64 ix 0).2 + 1 - 1023) := by
  unfold unpack; simp only [if_pos h]

/-- the significand and the exponent of a positive number -/
theorem unpack_spec {q : ℚ} (hq : IsRep f64 q) (h0 : 0 < q) :
    ∃ m : Nat, unpack (float64bits q) = (m, ilog2 q) ∧ 2 ^ 52 ≤ m ∧ m < 2 ^ 53 ∧ q = m * pow2 (ilog2 q - 52) := by
  obtain ⟨s1, s2⟩ := ilog2_spec h0
  have hmax : f64.emax = 1024 := by decide
  have hE1 : ilog2 q ≤ 1023 := by
    have h1 := hq.2
    rw [abs_of_pos h0, hmax] at h1
    have := pow2_lt.mp (lt_of_le_of_lt s1 h1); omega
  have p53 : pow2 53 = ((2 ^ 53 : Int) : ℚ) := by decide +kernel
  have p52 : pow2 52 = ((2 ^ 52 : Int) : ℚ) := by decide +kernel
  obtain ⟨n, hn⟩ := multiple hq s1
  have n1 : (2 ^ 52 : Int) ≤ n := by
    have : pow2 52 * pow2 (ilog2 q - 52) ≤ n * pow2 (ilog2 q - 52) := by
      rw [← hn, ← pow2_add, show 52 + (ilog2 q - 52) = ilog2 q by omega]; exact s1
    have := le_of_mul_le_mul_right this (pow2_pos _)
    rw [p52] at this; exact_mod_cast this
  have n2 : n < (2 ^ 53 : Int) := by
    have : (n : ℚ) * pow2 (ilog2 q - 52) < pow2 53 * pow2 (ilog2 q - 52) := by
      rw [← hn, ← pow2_add, show 53 + (ilog2 q - 52) = ilog2 q + 1 by omega]; exact s2
    have := lt_of_mul_lt_mul_right this (pow2_pos _).le
    rw [p53] at this; exact_mod_cast this
  obtain ⟨m, rfl⟩ := Int.eq_ofNat_of_zero_le (show 0 ≤ n by omega)
  have m1 : 2 ^ 52 ≤ m := by exact_mod_cast n1
  have m2 : m < 2 ^ 53 := by exact_mod_cast n2
  refine ⟨m, ?_, m1, m2, by simpa using hn⟩
  unfold float64bits
  by_cases hd : ilog2 q < -1022
  · rw [if_pos hd]
    obtain ⟨k, e, he, hk, hr⟩ := rnd_form f64 q
    rw [hq.1] at hr
    have he : -1074 ≤ e := he
    -- the integer q * 2^1074
    obtain ⟨N, hN⟩ : ∃ N : Nat, q * pow2 1074 = N := by
      obtain ⟨j, hj⟩ := Int.eq_ofNat_of_zero_le (show 0 ≤ e + 1074 by omega)
      have hz : q * pow2 1074 = ((k * 2 ^ j : Int) : ℚ) := by
        rw [hr, mul_assoc, ← pow2_add, hj, pow2_eq]; push_cast; simp
      have hpos : (0 : ℚ) < ((k * 2 ^ j : Int) : ℚ) := by rw [← hz]; exact mul_pos h0 (pow2_pos _)
      obtain ⟨N, hN⟩ := Int.eq_ofNat_of_zero_le (show 0 ≤ k * 2 ^ j by exact_mod_cast hpos.le)
      exact ⟨N, by rw [hz, hN]; simp⟩
    have hnum : (q * pow2 1074).num.toNat = N := by rw [hN]; simp
    rw [hnum]
    have hE0 : -1074 ≤ ilog2 q := by
      have hN1 : 1 ≤ N := by
        have : (0 : ℚ) < N := by rw [← hN]; exact mul_pos h0 (pow2_pos _)
        exact_mod_cast this
      have h3 : pow2 (-1074) ≤ q := by
        have h4 : (1 : ℚ) ≤ q * pow2 1074 := by rw [hN]; exact_mod_cast hN1
        have := mul_le_mul_of_nonneg_right h4 (pow2_pos (-1074)).le
        rwa [mul_assoc, ← pow2_add, show (1074 : Int) + -1074 = 0 by norm_num, show pow2 0 = 1 by decide, mul_one, one_mul] at this
      have := pow2_lt.mp (lt_of_le_of_lt h3 s2); omega
    obtain ⟨j, hj⟩ := Int.eq_ofNat_of_zero_le (show 0 ≤ -1022 - ilog2 q by omega)
    have hm : N * 2 ^ j = m := by
      have : ((N * 2 ^ j : Nat) : ℚ) = m := by
        push_cast
        rw [← hN, hn]
        have : (2 : ℚ) ^ j = pow2 (-1022 - ilog2 q) := by rw [hj, pow2_eq]; simp
        rw [this, mul_assoc, mul_assoc, ← pow2_add, ← pow2_add, show ilog2 q - 52 + (1074 + (-1022 - ilog2 q)) = 0 by omega,
          show pow2 0 = 1 by decide, mul_one]
        simp
      exact_mod_cast this
    have hNs : N < 2 ^ 52 := by
      have h3 : 2 ≤ 2 ^ j := by
        have : 1 ≤ j := by omega
        calc 2 = 2 ^ 1 := by norm_num
          _ ≤ 2 ^ j := Nat.pow_le_pow_right (by norm_num) this
      have : N * 2 ≤ m := by rw [← hm]; exact Nat.mul_le_mul_left _ h3
      omega
    have z : N / 2 ^ 52 % 2 ^ 11 = 0 := by rw [Nat.div_eq_of_lt hNs]; norm_num
    rw [unpack_denormal z, normalize_spec j 64 N 0 (by omega) (by rw [hm]; exact m1) (by rw [hm]; exact m2), hm]
    have e1 : m % 2 ^ 52 + 2 ^ 52 = m := by omega
    have e2 : (0 : Int) - j + 1 - 1023 = ilog2 q := by omega
    exact Prod.ext e1 e2
  · rw [if_neg hd]
    have hnum : (q * pow2 (52 - ilog2 q)).num.toNat = m := by
      have : q * pow2 (52 - ilog2 q) = (m : ℚ) := by
        have e : ((m : Int) : ℚ) * pow2 (ilog2 q - 52) * pow2 (52 - ilog2 q) = m := by
          rw [mul_assoc, ← pow2_add, show ilog2 q - 52 + (52 - ilog2 q) = 0 by omega, show pow2 0 = 1 by decide, mul_one]
          simp
        rw [← hn] at e; exact e
      rw [this]; simp
    rw [hnum]
    obtain ⟨b, hb⟩ := Int.eq_ofNat_of_zero_le (show 0 ≤ ilog2 q + 1023 by omega)
    have hb1 : 1 ≤ b := by omega
    have hb2 : b ≤ 2046 := by omega
    rw [hb]
    have hE : ilog2 q = (b : Int) - 1023 := by omega
    rw [hE]
    rw [Int.toNat_natCast]
    have d1 : (b * 2 ^ 52 + (m - 2 ^ 52)) / 2 ^ 52 % 2 ^ 11 = b := by omega
    have d2 : (b * 2 ^ 52 + (m - 2 ^ 52)) % 2 ^ 52 + 2 ^ 52 = m := by omega
    generalize b * 2 ^ 52 + (m - 2 ^ 52) = w at d1 d2 ⊢
    rw [unpack_normal (by rw [d1]; omega), d1, d2]

theorem sqrtBits_eq {b m : Nat} {e : Int} {q r : Nat} (h1 : unpack b = (m, e))
    (h2 : sqrtLoop (2 ^ 53) 0 0 (2 * (if e % 2 = 1 then 2 * m % 2 ^ 64 else m) % 2 ^ 64) = (q, r)) :
    sqrtBits b = float64frombits (((if r ≠ 0 then q + q % 2 else q) / 2 + (e / 2 - 1 + 1023).toNat * 2 ^ 52) % 2 ^ 64) := by
  unfold sqrtBits
  rw [h1]
  simp only []
  rw [h2]

/-- the rounded root of `M`, which has no root exactly between two even numbers -/
theorem rounded_root {M q rem : Nat} (hM : 4 ∣ M) (h1 : q * q + rem = M) (h2 : M < (q + 1) * (q + 1)) :
    ∃ h : Nat, (if 2 * rem ≠ 0 then q + q % 2 else q) = 2 * h ∧ M < (2 * h + 1) * (2 * h + 1) ∧
      (2 * h = q ∨ 2 * h = q + 1 ∧ q * q < M) := by
  by_cases hr : rem = 0
  · subst hr
    rw [if_neg (by simp)]
    have : Even q := by
      by_contra ho
      have ho := Nat.not_even_iff_odd.mp ho
      have h3 : Odd (q * q) := ho.mul ho
      rw [add_zero] at h1
      rw [h1] at h3
      obtain ⟨k, hk⟩ := hM
      obtain ⟨l, hl⟩ := h3
      omega
    obtain ⟨h, hh⟩ := this
    refine ⟨h, by omega, ?_, Or.inl (by omega)⟩
    rw [show 2 * h = q by omega]; exact h2
  · rw [if_pos (by omega)]
    rcases Nat.even_or_odd q with ⟨h, hh⟩ | ⟨h, hh⟩
    · refine ⟨h, by omega, ?_, Or.inl (by omega)⟩
      rw [show 2 * h = q by omega]; exact h2
    · refine ⟨h + 1, by omega, ?_, Or.inr ⟨by omega, by omega⟩⟩
      rw [show 2 * (h + 1) = q + 1 by omega]; nlinarith

theorem frombits {h : Nat} {E : Int} (h1 : 2 ^ 52 ≤ h) (h2 : h < 2 ^ 53) (e1 : -600 ≤ E) (e2 : E ≤ 600) :
    float64frombits ((h + (E - 1 + 1023).toNat * 2 ^ 52) % 2 ^ 64) = Fl.lit f64 (h * pow2 (E - 52)) := by
  obtain ⟨b, hb⟩ := Int.eq_ofNat_of_zero_le (show 0 ≤ E - 1 + 1023 by omega)
  rw [hb]
  have hb1 : 400 ≤ b := by omega
  have hb2 : b ≤ 1700 := by omega
  have hE : E - 52 = ((b + 1 : Nat) : Int) - 1075 := by push_cast; omega
  rw [hE, Int.toNat_natCast]
  have d0 : (h + b * 2 ^ 52) % 2 ^ 64 = h + b * 2 ^ 52 := Nat.mod_eq_of_lt (by omega)
  have d1 : (h + b * 2 ^ 52) / 2 ^ 52 % 2 ^ 11 = b + 1 := by omega
  have d2 : 2 ^ 52 + (h + b * 2 ^ 52) % 2 ^ 52 = h := by omega
  rw [d0]
  generalize h + b * 2 ^ 52 = w at d1 d2 ⊢
  unfold float64frombits
  simp only [d1, d2]
  rw [if_neg (by omega), if_neg (by omega)]

/-- the result of the computation with bits for a positive number: a float64 of 53 bits, off the root by half a unit at most -/
theorem sqrtBits_spec {q : ℚ} (hq : IsRep f64 q) (h0 : 0 < q) :
    ∃ (h : Nat) (E : Int), sqrtBits (float64bits q) = Fl.lit f64 (h * pow2 (E - 52)) ∧ h < 2 ^ 53 ∧ -600 ≤ E ∧ E ≤ 600 ∧
      ((pow2 E : ℚ) : ℝ) ≤ Real.sqrt q ∧ |(((h : ℚ) * pow2 (E - 52) : ℚ) : ℝ) - Real.sqrt q| < ((pow2 (E - 53) : ℚ) : ℝ) := by
  obtain ⟨m, hu, m1, m2, hm⟩ := unpack_spec hq h0
  have hmax : f64.emax = 1024 := by decide
  obtain ⟨s1, s2⟩ := ilog2_spec h0
  have hE1 : ilog2 q ≤ 1023 := by
    have h1 := hq.2
    rw [abs_of_pos h0, hmax] at h1
    have := pow2_lt.mp (lt_of_le_of_lt s1 h1); omega
  have hE0 : -1100 ≤ ilog2 q := by
    obtain ⟨k, e, he, hk, hr⟩ := rnd_form f64 q
    rw [hq.1] at hr
    have he : -1074 ≤ e := he
    have hk1 : 1 ≤ k := by
      by_contra hc
      have : (k : ℚ) ≤ 0 := by exact_mod_cast (show k ≤ 0 by omega)
      have := mul_nonpos_of_nonpos_of_nonneg this (pow2_pos e).le
      rw [← hr] at this; linarith
    have h3 : pow2 e ≤ q := by
      rw [hr]
      have : (1 : ℚ) ≤ k := by exact_mod_cast hk1
      nlinarith [pow2_pos e]
    have := pow2_lt.mp (lt_of_le_of_lt h3 s2); omega
  generalize ilog2 q = L at *
  -- the doubled significand
  obtain ⟨m', hm', c1, c2, c3⟩ : ∃ m' : Nat, (if L % 2 = 1 then 2 * m % 2 ^ 64 else m) = m' ∧ 2 ^ 52 ≤ m' ∧ m' ≤ 2 ^ 54 - 2 ∧
      q = m' * pow2 (2 * (L / 2) - 52) := by
    by_cases ho : L % 2 = 1
    · refine ⟨2 * m, ?_, by omega, by omega, ?_⟩
      · rw [if_pos ho]; omega
      · have e : pow2 (L - 52) = 2 * pow2 (2 * (L / 2) - 52) := by
          rw [show L - 52 = 1 + (2 * (L / 2) - 52) by omega, pow2_add]
          rfl
        rw [hm, e]; push_cast; ring
    · refine ⟨m, by rw [if_neg ho], m1, by omega, ?_⟩
      rw [show 2 * (L / 2) - 52 = L - 52 by omega]; exact hm
  clear hm s1 s2
  have hE2 : -600 ≤ L / 2 := by omega
  have hE3 : L / 2 ≤ 600 := by omega
  have h54 : 2 ^ 54 * m' < 2 ^ 108 := by omega
  obtain ⟨r, rem, l1, l2, l3, l4⟩ := sqrtLoop_spec (2 ^ 54 * m') h54 53 0 (2 * m') (by omega) (by ring) (by omega)
  rw [mul_zero] at l1
  have hl : sqrtLoop (2 ^ 53) 0 0 (2 * (if L % 2 = 1 then 2 * m % 2 ^ 64 else m) % 2 ^ 64) = (r, 2 * rem) := by
    rw [hm', Nat.mod_eq_of_lt (by omega)]; exact l1
  obtain ⟨h, hh, k2, k3⟩ := rounded_root (q := r) (rem := rem) (M := 2 ^ 54 * m') ⟨2 ^ 52 * m', by ring⟩ l2 l3
  have hlow : 2 ^ 53 ≤ r := by
    by_contra hc
    have : (r + 1) * (r + 1) ≤ 2 ^ 53 * 2 ^ 53 := Nat.mul_le_mul (by omega) (by omega)
    omega
  have hhigh : r < 2 ^ 54 - 1 := by
    by_contra hc
    have : (2 ^ 54 - 1) * (2 ^ 54 - 1) ≤ r * r := Nat.mul_le_mul (by omega) (by omega)
    omega
  have b1 : 2 ^ 52 ≤ h := by omega
  have b2 : h < 2 ^ 53 := by omega
  rw [sqrtBits_eq hu hl, hh, Nat.mul_div_cancel_left _ (by norm_num), frombits b1 b2 hE2 hE3]
  refine ⟨h, L / 2, rfl, b2, hE2, hE3, ?_⟩
  -- the root over the reals
  generalize L / 2 = E at *
  have hs : Real.sqrt (q : ℝ) = Real.sqrt ((2 ^ 54 * m' : Nat) : ℝ) * ((pow2 (E - 53) : ℚ) : ℝ) := by
    have hp : (0 : ℝ) ≤ ((pow2 (E - 53) : ℚ) : ℝ) := by exact_mod_cast (pow2_pos (E - 53)).le
    have e : q = ((2 ^ 54 * m' : Nat) : ℚ) * (pow2 (E - 53) * pow2 (E - 53)) := by
      have e2 : pow2 (2 * E - 52) = ((2 ^ 54 : Nat) : ℚ) * (pow2 (E - 53) * pow2 (E - 53)) := by
        rw [show ((2 ^ 54 : Nat) : ℚ) = pow2 54 by decide +kernel, ← pow2_add, ← pow2_add]
        rw [show 54 + (E - 53 + (E - 53)) = 2 * E - 52 by omega]
      rw [c3, e2, Nat.cast_mul]; ring
    have er : (q : ℝ) = ((2 ^ 54 * m' : Nat) : ℝ) * (((pow2 (E - 53) : ℚ) : ℝ) * ((pow2 (E - 53) : ℚ) : ℝ)) := by
      rw [e, Rat.cast_mul, Rat.cast_mul, Rat.cast_natCast]
    rw [er, Real.sqrt_mul (Nat.cast_nonneg _), Real.sqrt_mul_self hp]
  have hp : (0 : ℝ) < ((pow2 (E - 53) : ℚ) : ℝ) := by exact_mod_cast pow2_pos (E - 53)
  generalize 2 ^ 54 * m' = M at *
  have hrl : (r : ℝ) ≤ Real.sqrt M := by
    apply Real.le_sqrt_of_sq_le
    have : r * r ≤ M := by omega
    rw [pow_two]; exact_mod_cast this
  have key : |((2 * h : Nat) : ℝ) - Real.sqrt M| < 1 := by
    rw [abs_lt]
    constructor
    · have : Real.sqrt M < ((2 * h + 1 : Nat) : ℝ) := by
        rw [Real.sqrt_lt' (by exact_mod_cast Nat.succ_pos _), pow_two]
        exact_mod_cast k2
      push_cast at this ⊢; linarith
    · have : ((2 * h : Nat) : ℝ) - 1 < Real.sqrt M := by
        rcases k3 with k3 | ⟨k3, k4⟩
        · rw [k3]; linarith
        · rw [k3]
          have : (r : ℝ) < Real.sqrt M := by
            apply Real.lt_sqrt_of_sq_lt
            rw [pow_two]; exact_mod_cast k4
          push_cast; linarith
      linarith
  have e53 : pow2 E = ((2 ^ 53 : Nat) : ℚ) * pow2 (E - 53) := by
    rw [show ((2 ^ 53 : Nat) : ℚ) = pow2 53 by decide +kernel, ← pow2_add, show 53 + (E - 53) = E by omega]
  have e1 : pow2 (E - 52) = 2 * pow2 (E - 53) := by
    rw [show E - 52 = 1 + (E - 53) by omega, pow2_add]; rfl
  constructor
  · rw [hs, e53, Rat.cast_mul, Rat.cast_natCast]
    have : ((2 ^ 53 : Nat) : ℝ) ≤ r := by exact_mod_cast hlow
    exact mul_le_mul_of_nonneg_right (this.trans hrl) hp.le
  · have e2 : (((h : ℚ) * pow2 (E - 52) : ℚ) : ℝ) = ((2 * h : Nat) : ℝ) * ((pow2 (E - 53) : ℚ) : ℝ) := by
      rw [e1]; push_cast; ring
    rw [hs, e2, ← sub_mul, abs_mul, abs_of_pos hp]
    calc _ < 1 * ((pow2 (E - 53) : ℚ) : ℝ) := mul_lt_mul_of_pos_right key hp
      _ = _ := one_mul _

theorem sqrt_rep {h : Nat} {E : Int} (b : h < 2 ^ 53) (E1 : -600 ≤ E) (E2 : E ≤ 600) : IsRep f64 ((h : ℚ) * pow2 (E - 52)) := by
  have hc : ((h : Int) : ℚ) * pow2 (E - 52) = (h : ℚ) * pow2 (E - 52) := by simp
  rw [← hc]
  refine ⟨rnd_exact f64 (by rw [show f64.emin = -1074 by decide]; omega) ?_, ?_⟩
  · rw [abs_of_nonneg (by omega), show f64.prec = 53 by decide]; omega
  · rw [hc, abs_of_nonneg (mul_nonneg (Nat.cast_nonneg _) (pow2_pos _).le), show f64.emax = 1024 by decide]
    have h1 : (h : ℚ) ≤ pow2 53 := by
      rw [show pow2 53 = ((2 ^ 53 : Nat) : ℚ) by decide +kernel]; exact_mod_cast b.le
    calc (h : ℚ) * pow2 (E - 52) ≤ pow2 53 * pow2 (E - 52) := mul_le_mul_of_nonneg_right h1 (pow2_pos _).le
      _ = pow2 (53 + (E - 52)) := by rw [pow2_add]
      _ < pow2 1024 := pow2_lt.mpr (by omega)

/-- no other float64 is as near to the root -/
theorem sqrtBits_nearest {q : ℚ} (hq : IsRep f64 q) (h0 : 0 < q) :
    (sqrtBits (float64bits q)).isFin = true ∧ 0 < (sqrtBits (float64bits q)).val ∧ ∀ z : ℚ, IsRep f64 z →
      z ≠ (sqrtBits (float64bits q)).val → |((sqrtBits (float64bits q)).val : ℝ) - Real.sqrt q| < |(z : ℝ) - Real.sqrt q| := by
  obtain ⟨h, E, e, b, E1, E2, l1, l2⟩ := sqrtBits_spec hq h0
  have rep := sqrt_rep b E1 E2
  rw [e, lit_of_repr rep]
  have hv : (Fl.fin ((h : ℚ) * pow2 (E - 52)) rep : F64).val = (h : ℚ) * pow2 (E - 52) := rfl
  rw [hv]
  have hu : (0 : ℝ) < ((pow2 (E - 53) : ℚ) : ℝ) := by exact_mod_cast pow2_pos (E - 53)
  have hu2 : ((pow2 (E - 52) : ℚ) : ℝ) = 2 * ((pow2 (E - 53) : ℚ) : ℝ) := by
    rw [show E - 52 = 1 + (E - 53) by omega, pow2_add]; push_cast; rfl
  have hE : ((pow2 E : ℚ) : ℝ) = 2 ^ 53 * ((pow2 (E - 53) : ℚ) : ℝ) := by
    have : pow2 E = ((2 ^ 53 : Nat) : ℚ) * pow2 (E - 53) := by
      rw [show ((2 ^ 53 : Nat) : ℚ) = pow2 53 by decide +kernel, ← pow2_add, show 53 + (E - 53) = E by omega]
    rw [this]; push_cast; ring
  -- multiples of the unit are further away
  have mult : ∀ n : Int, (n : ℝ) ≠ h → |(((h : ℚ) * pow2 (E - 52) : ℚ) : ℝ) - Real.sqrt q| <
      |(n : ℝ) * ((pow2 (E - 52) : ℚ) : ℝ) - Real.sqrt q| := by
    intro n hn
    have e1 : (((h : ℚ) * pow2 (E - 52) : ℚ) : ℝ) = (h : ℝ) * ((pow2 (E - 52) : ℚ) : ℝ) := by push_cast; ring
    rw [e1] at l2 ⊢
    have hn' : n ≠ (h : Int) := fun hc => hn (by rw [hc]; simp)
    rw [hu2] at l2 ⊢
    generalize ((pow2 (E - 53) : ℚ) : ℝ) = u at *
    generalize Real.sqrt (q : ℝ) = s at *
    obtain ⟨l3, l4⟩ := abs_lt.mp l2
    refine lt_of_lt_of_le l2 ?_
    rcases lt_or_gt_of_ne hn' with hlt | hgt
    · have : (n : ℝ) + 1 ≤ h := by exact_mod_cast hlt
      have : ((n : ℝ) + 1) * (2 * u) ≤ h * (2 * u) := mul_le_mul_of_nonneg_right this (by linarith)
      rw [abs_of_nonpos (by linarith)]; linarith
    · have : (h : ℝ) + 1 ≤ n := by exact_mod_cast hgt
      have : ((h : ℝ) + 1) * (2 * u) ≤ n * (2 * u) := mul_le_mul_of_nonneg_right this (by linarith)
      rw [abs_of_nonneg (by linarith)]; linarith
  refine ⟨rfl, ?_, ?_⟩
  · refine mul_pos ?_ (pow2_pos _)
    by_contra hc
    have hc : (h : ℚ) = 0 := _root_.le_antisymm (_root_.not_lt.mp hc) (Nat.cast_nonneg _)
    rw [hc, zero_mul, Rat.cast_zero, zero_sub, abs_neg] at l2
    have := le_abs_self (Real.sqrt (q : ℝ))
    rw [hE] at l1
    norm_num at l1
    linarith
  · intro z hz hne
    by_cases hc : z < pow2 E
    · have hz' : (z : ℝ) < ((pow2 E : ℚ) : ℝ) := by exact_mod_cast hc
      have far : |((pow2 E : ℚ) : ℝ) - Real.sqrt q| < |(z : ℝ) - Real.sqrt q| := by
        rw [abs_of_nonpos (by linarith), abs_of_nonpos (by linarith)]; linarith
      by_cases h52 : h = 2 ^ 52
      · have : (((h : ℚ) * pow2 (E - 52) : ℚ) : ℝ) = ((pow2 E : ℚ) : ℝ) := by
          rw [Rat.cast_mul, hu2, hE, h52]; push_cast; ring
        rw [this]; exact far
      · refine (mult (2 ^ 52) ?_).trans ?_
        · intro hc
          apply h52
          have : ((2 ^ 52 : Nat) : ℝ) = h := by rw [← hc]; push_cast; rfl
          exact_mod_cast this.symm
        · have : (((2 ^ 52 : Int) : ℝ)) * ((pow2 (E - 52) : ℚ) : ℝ) = ((pow2 E : ℚ) : ℝ) := by
            rw [hu2, hE]; push_cast; ring
          rw [this]; exact far
    · obtain ⟨n, hn⟩ := multiple hz (_root_.not_lt.mp hc)
      have : (z : ℝ) = (n : ℝ) * ((pow2 (E - 52) : ℚ) : ℝ) := by rw [hn]; push_cast; ring
      rw [this]
      refine mult n fun hc => hne ?_
      have : (n : ℚ) = h := by exact_mod_cast hc
      rw [hn, this]

end Radolan.Sqrt
