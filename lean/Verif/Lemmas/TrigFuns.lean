/- Sine, cosine and tangent of Model/Trig.lean in any arithmetic with bounded rounding errors. -/
import Verif.Lemmas.TrigTracks

namespace Radolan.Trig
open Go Go.Fl Real

/-- a small natural number is a float64 -/
theorem small_lit {j : Nat} (hj : j ≤ 20) : (lit f64 (j : ℚ)).isFin = true ∧ (lit f64 (j : ℚ)).val = j := by
  rcases Nat.eq_zero_or_pos j with rfl | hp
  · simp [Fl.lit_zero, Fl.zero, Fl.isFin, Fl.val]
  · have := Fl.lit_scaled (b := j) (k := 0) (by omega) (by omega) (by omega)
    simpa using this

theorem small_succ {j : Nat} (hj : j ≤ 19) :
    (add (lit f64 (j : ℚ)) (lit f64 1)).isFin = true ∧ (add (lit f64 (j : ℚ)) (lit f64 1)).val = j + 1 := by
  obtain ⟨a1, a2⟩ := small_lit (j := j) (by omega)
  obtain ⟨b1, b2⟩ := small_lit (j := j + 1) (by omega)
  have o := small_lit (j := 1) (by omega)
  simp only [Nat.cast_one] at o
  rw [add_fin a1 o.1, a2, o.2]
  push_cast at b1 b2
  have hr : |rnd f64 ((j : ℚ) + 1)| < pow2 f64.emax := mk_isFin_iff.mp b1
  have := mk_fin (f := f64) (b := (lit f64 (j : ℚ)).sign && (lit f64 1).sign) hr
  refine ⟨this.1, ?_⟩
  rw [lit, (mk_fin hr).2] at b2
  rw [this.2, b2]

/-- the octant: `x` is at most 45° (and a bit) from a multiple of 90° -/
theorem octant_spec {x : F64} (hx : x.isFin = true) (h0 : 0 ≤ x.val) (h8 : (x.val : ℝ) ≤ 8) :
    ∃ k, k ≤ 5 ∧ (octant x).1 = 2 * k ∧ (octant x).2.isFin = true ∧ (octant x).2.val = 2 * k ∧
      |(x.val : ℝ) - k * (π / 2)| ≤ 7854 / 10 ^ 4 ∧ ((x.val : ℝ) ≤ 6 / 5 → k ≤ 1) := by
  have hp := pi_pos
  have hp1 := pi_gt_d6
  have hp2 := pi_lt_d6
  have h0' : (0 : ℝ) ≤ x.val := by exact_mod_cast h0
  have hg := goPi_near
  have g1 : (3 : ℝ) < goPi := by have := (abs_le.mp hg).1; norm_num at this hp1; linarith
  have hlit : Ap (lit f64 (4 / goPi)) (4 / π) (2 / 10 ^ 16) := by
    refine lit_ap (ε := 1 / 10 ^ 19) (M := 128 / 100) ?_ ?_ (by norm_num) (by norm_num) (by norm_num)
    · push_cast
      have e : 4 / (goPi : ℝ) - 4 / π = -(4 * ((goPi : ℝ) - π)) / (goPi * π) := by
        have : (goPi : ℝ) ≠ 0 := by linarith
        field_simp; ring
      rw [e, abs_div, abs_neg, abs_mul, abs_of_pos (by norm_num : (0 : ℝ) < 4),
        abs_of_pos (mul_pos (by linarith) hp : 0 < (goPi : ℝ) * π)]
      rw [div_le_iff₀ (mul_pos (by linarith) hp)]
      have : (9 : ℝ) ≤ goPi * π := by nlinarith
      norm_num at hg ⊢; linarith
    · rw [abs_of_pos (by positivity)]
      have : 4 / π ≤ 1274 / 1000 := by rw [div_le_iff₀ hp]; norm_num at hp1 ⊢; linarith
      norm_num; linarith
  have hpr : Ap (mul x (lit f64 (4 / goPi))) (x.val * (4 / π)) (3 / 10 ^ 15) := by
    refine mul_ap (A := 8) (B := 1274 / 1000) (e := 16 / 10 ^ 16) (Ap.exact hx) hlit ?_ ?_ (by norm_num) (by norm_num)
      (by norm_num) (by norm_num)
    · rw [abs_of_nonneg h0']; exact h8
    · rw [abs_of_pos (by positivity), div_le_iff₀ hp]; norm_num at hp1 ⊢; linarith
  obtain ⟨pf, pe⟩ := hpr
  obtain ⟨pe1, pe2⟩ := abs_le.mp pe
  set a := (x.val : ℝ) * (4 / π) with ha
  have a0 : 0 ≤ a := by positivity
  have xa : (x.val : ℝ) = a * (π / 4) := by rw [ha]; field_simp
  have a11 : a ≤ 102 / 10 := by
    rw [ha, ← mul_div_assoc, div_le_iff₀ hp]; norm_num at hp1; linarith
  -- the integer part
  generalize hj : (Fl.ratTrunc (Fl.mul x (Fl.lit f64 (4 / goPi))).val).toNat = j
  have ho : octant x = if j % 2 = 1 then (j + 1, Fl.add (Fl.lit f64 (j : ℚ)) (Fl.lit f64 1)) else (j, Fl.lit f64 (j : ℚ)) := by
    unfold octant; rw [hj]
  have jb : (j : ℝ) ≤ a + 3 / 10 ^ 15 ∧ a < j + 1 + 3 / 10 ^ 15 := by
    generalize (Fl.mul x (Fl.lit f64 (4 / goPi))).val = v at *
    unfold ratTrunc at hj
    by_cases hv : 0 ≤ v
    · rw [if_pos hv] at hj
      have hf : 0 ≤ ⌊v⌋ := Int.floor_nonneg.mpr hv
      change ⌊v⌋.toNat = j at hj
      have e : (j : ℤ) = ⌊v⌋ := by rw [← hj]; exact Int.toNat_of_nonneg hf
      have l1 : ((⌊v⌋ : ℤ) : ℚ) ≤ v := Int.floor_le v
      have l2 : v < ((⌊v⌋ : ℤ) : ℚ) + 1 := Int.lt_floor_add_one v
      rw [← e] at l1 l2
      have l1' : (j : ℝ) ≤ v := by exact_mod_cast l1
      have l2' : (v : ℝ) < j + 1 := by exact_mod_cast l2
      constructor <;> linarith
    · rw [if_neg hv] at hj
      have hv' : v < 0 := not_le.mp hv
      have hv'' : (v : ℝ) < 0 := by exact_mod_cast hv'
      have hf : 0 ≤ ⌊-v⌋ := Int.floor_nonneg.mpr (by linarith)
      change (-⌊-v⌋).toNat = j at hj
      have e : j = 0 := by rw [← hj]; omega
      rw [e]; push_cast
      constructor <;> linarith
  have j10 : j ≤ 10 := by
    have : (j : ℝ) < (11 : ℕ) := by push_cast; linarith [jb.1]
    have : j < 11 := by exact_mod_cast this
    omega
  have fin : ∀ k : Nat, |a - 2 * k| ≤ 1 + 3 / 10 ^ 15 → |(x.val : ℝ) - k * (π / 2)| ≤ 7854 / 10 ^ 4 := by
    intro k hk
    have e : (x.val : ℝ) - k * (π / 2) = (a - 2 * k) * (π / 4) := by rw [xa]; ring
    rw [e, abs_mul, abs_of_pos (by positivity : 0 < π / 4)]
    have := mul_le_mul_of_nonneg_right hk (by positivity : 0 ≤ π / 4)
    norm_num at this hp2 ⊢; linarith
  have small : (x.val : ℝ) ≤ 6 / 5 → j ≤ 1 := by
    intro h
    have : a ≤ 16 / 10 := by rw [ha, ← mul_div_assoc, div_le_iff₀ hp]; norm_num at hp1; linarith
    have : (j : ℝ) < (2 : ℕ) := by push_cast; linarith [jb.1]
    have : j < 2 := by exact_mod_cast this
    omega
  by_cases hodd : j % 2 = 1
  · rw [if_pos hodd] at ho
    obtain ⟨k, hk⟩ : ∃ k, j + 1 = 2 * k := ⟨(j + 1) / 2, by omega⟩
    have hkr : (j : ℝ) + 1 = 2 * k := by exact_mod_cast hk
    obtain ⟨f1, f2⟩ := small_succ (j := j) (by omega)
    refine ⟨k, by omega, by rw [ho]; exact hk, by rw [ho]; exact f1, ?_, fin k ?_, fun h => ?_⟩
    · rw [ho]; show (add _ _).val = _; rw [f2]; exact_mod_cast hk
    · rw [abs_le]; constructor <;> linarith [jb.1, jb.2]
    · have := small h; omega
  · rw [if_neg hodd] at ho
    obtain ⟨k, hk⟩ : ∃ k, j = 2 * k := ⟨j / 2, by omega⟩
    have hkr : (j : ℝ) = 2 * k := by exact_mod_cast hk
    obtain ⟨f1, f2⟩ := small_lit (j := j) (by omega)
    refine ⟨k, by omega, by rw [ho]; exact hk, by rw [ho]; exact f1, ?_, fin k ?_, fun h => ?_⟩
    · rw [ho]; show (lit _ _).val = _; rw [f2]; exact_mod_cast hk
    · rw [abs_le]; constructor <;> linarith [jb.1, jb.2]
    · have := small h; omega

/-- arguments up to 8 are reduced by subtraction -/
theorem not_big {x : F64} (hx : x.isFin = true) (h8 : (x.val : ℝ) ≤ 8) : Fl.le (Fl.lit f64 (2 ^ 29)) x = false := by
  have h := Fl.lit_scaled (b := 1) (k := 29) (by omega) (by omega) (by omega)
  have e : ((1 * 2 ^ 29 : Int) : ℚ) = 2 ^ 29 := by norm_num
  rw [e] at h
  rw [Bool.eq_false_iff]
  intro hle
  rw [Fl.le_fin h.1 hx, h.2] at hle
  have : ((2 ^ 29 : ℚ) : ℝ) ≤ x.val := by exact_mod_cast hle
  norm_num at this
  linarith

/-- the absolute value of an argument that is neither zero nor NaN -/
theorem strip {x : F64} (hx : x.isFin = true) :
    (if Fl.lt x Fl.zero then Fl.neg x else x).isFin = true ∧
    (if Fl.lt x Fl.zero then Fl.neg x else x).val = |x.val| ∧ (Fl.lt x Fl.zero = decide (x.val < 0)) := by
  have hl : Fl.lt x Fl.zero = decide (x.val < 0) := by
    rw [Fl.lt_fin hx (by rfl)]; rfl
  rw [hl]
  by_cases hn : x.val < 0
  · simp [hn, neg_isFin, hx, abs_of_neg hn]
  · simp [hn, hx, abs_of_nonneg (not_lt.mp hn)]

section
variable {α : Type} {A : Arith α} {P : α → ℝ → ℝ → Prop} {word : F64 → α} {larger : α → α → α → α}
variable (hT : TrigTracks A P word larger)
include hT

/-- the reduced argument, for arguments from 0 to 8 -/
theorem reduced_tr (big : F64 → Nat × F64) {x : F64} (hx : x.isFin = true) (h0 : 0 ≤ x.val) (h8 : (x.val : ℝ) ≤ 8) :
    ∃ k, k ≤ 5 ∧ (reduced A word big x).1 = 2 * k ∧ P (reduced A word big x).2 ((x.val : ℝ) - k * (π / 2)) (29 / 10 ^ 17) ∧
      |(x.val : ℝ) - k * (π / 2)| ≤ 7855 / 10 ^ 4 ∧ ((x.val : ℝ) ≤ 6 / 5 → k ≤ 1) := by
  obtain ⟨k, k5, o1, o2, o3, o4, o5⟩ := octant_spec hx h0 h8
  have e : reduced A word big x = ((octant x).1, reduce A (word x) (word (octant x).2)) := by
    unfold reduced; rw [not_big hx h8]; simp
  rw [e]
  exact ⟨k, k5, o1, reduce_tr hT hx o2 o3 k5 o4, o4.trans (by norm_num), o5⟩

theorem sinOf_tr (big : F64 → Nat × F64) {x : F64} (hx : x.isFin = true) (h8 : |(x.val : ℝ)| ≤ 8) :
    P (sinOf A word big x) (sin x.val) (7 / 10 ^ 16) := by
  have hnan : x ≠ .nan := isFin_ne_nan hx
  by_cases hz : x.val = 0
  · have hb : Fl.beq x Fl.zero = true := by
      rcases isFin_cases hx with rfl | ⟨q, hq, rfl⟩
      · rfl
      · simp only [Fl.val] at hz; subst hz; rfl
    have e : sinOf A word big x = word x := by unfold sinOf; rw [if_pos (Or.inr hb)]
    have := hT.ofWord hx
    rw [e, hz]
    rw [hz] at this
    simp only [Rat.cast_zero, sin_zero] at this ⊢
    exact hT.base.mono this (by norm_num)
  have hb : Fl.beq x Fl.zero = false := by
    rcases isFin_cases hx with rfl | ⟨q, hq, rfl⟩
    · exact absurd rfl hz
    · simp only [Fl.val] at hz; simp [Fl.beq, Fl.zero, Fl.val, hz]
  obtain ⟨t1, t2, t3⟩ := strip hx
  have tv : (((if Fl.lt x Fl.zero then Fl.neg x else x).val : ℚ) : ℝ) = |(x.val : ℝ)| := by rw [t2]; push_cast; rfl
  obtain ⟨k, k5, r1, r2, r3, _⟩ := reduced_tr hT big t1 (by rw [t2]; exact abs_nonneg _) (by rw [tv]; exact h8)
  unfold sinOf
  rw [if_neg (by simp [hnan, hb]), if_neg (by simp [hx])]
  simp only [r1]
  generalize hr : reduced A word big (if Fl.lt x Fl.zero then Fl.neg x else x) = r at *
  rw [tv] at r2 r3
  have ks := sinPoly_tr hT r2 r3
  have kc := cosPoly_tr hT r2 r3
  have ns := hT.base.neg ks
  have nc := hT.base.neg kc
  rw [t3]
  -- sine of the absolute value from the reduced argument
  have sgn : sin (x.val : ℝ) = if x.val < 0 then -sin |(x.val : ℝ)| else sin |(x.val : ℝ)| := by
    by_cases hn : x.val < 0
    · have : (x.val : ℝ) < 0 := by exact_mod_cast hn
      rw [if_pos hn, abs_of_neg this, sin_neg, neg_neg]
    · have : 0 ≤ (x.val : ℝ) := by exact_mod_cast not_lt.mp hn
      rw [if_neg hn, abs_of_nonneg this]
  rw [sgn]
  generalize |(x.val : ℝ)| = b at *
  have hk : k = 0 ∨ k = 1 ∨ k = 2 ∨ k = 3 ∨ k = 4 ∨ k = 5 := by omega
  have e1 : ∀ c : ℝ, sin (c + π / 2) = cos c := sin_add_pi_div_two
  have e2 : ∀ c : ℝ, cos (c + π / 2) = -sin c := cos_add_pi_div_two
  have shift : ∀ n : ℕ, b = (b - (n : ℝ) * (π / 2)) + n * (π / 2) := fun n => by ring
  have val : ∀ n : ℕ, ∀ c : ℝ, (n = 0 ∨ n = 4 → sin (c + n * (π / 2)) = sin c) ∧ (n = 1 ∨ n = 5 → sin (c + n * (π / 2)) = cos c) ∧
      (n = 2 → sin (c + n * (π / 2)) = -sin c) ∧ (n = 3 → sin (c + n * (π / 2)) = -cos c) := by
    intro n c
    refine ⟨?_, ?_, ?_, ?_⟩
    · rintro (rfl | rfl)
      · simp
      · rw [show c + (4 : ℕ) * (π / 2) = c + 2 * π by push_cast; ring, sin_add_two_pi]
    · rintro (rfl | rfl)
      · rw [show c + (1 : ℕ) * (π / 2) = c + π / 2 by push_cast; ring, e1]
      · rw [show c + (5 : ℕ) * (π / 2) = c + π / 2 + 2 * π by push_cast; ring, sin_add_two_pi, e1]
    · rintro rfl
      rw [show c + (2 : ℕ) * (π / 2) = c + π by push_cast; ring, sin_add_pi]
    · rintro rfl
      rw [show c + (3 : ℕ) * (π / 2) = c + π / 2 + π by push_cast; ring, sin_add_pi, e1]
  have vb := val k (b - k * (π / 2))
  rw [sub_add_cancel] at vb
  by_cases hn : x.val < 0
  · rcases hk with rfl | rfl | rfl | rfl | rfl | rfl
    · rw [vb.1 (by simp)]; simp [hn] at ns ⊢; exact ns
    · rw [vb.2.1 (by simp)]; simp [hn] at nc ⊢; exact nc
    · rw [vb.2.2.1 (by simp)]; simp [hn] at ks ⊢; exact ks
    · rw [vb.2.2.2 (by simp)]; simp [hn] at kc ⊢; exact kc
    · rw [vb.1 (by simp)]; simp [hn] at ns ⊢; exact ns
    · rw [vb.2.1 (by simp)]; simp [hn] at nc ⊢; exact nc
  · rcases hk with rfl | rfl | rfl | rfl | rfl | rfl
    · rw [vb.1 (by simp)]; simp [hn] at ks ⊢; exact ks
    · rw [vb.2.1 (by simp)]; simp [hn] at kc ⊢; exact kc
    · rw [vb.2.2.1 (by simp)]; simp [hn] at ns ⊢; exact ns
    · rw [vb.2.2.2 (by simp)]; simp [hn] at nc ⊢; exact nc
    · rw [vb.1 (by simp)]; simp [hn] at ks ⊢; exact ks
    · rw [vb.2.1 (by simp)]; simp [hn] at kc ⊢; exact kc


theorem cosOf_tr (big : F64 → Nat × F64) {x : F64} (hx : x.isFin = true) (h8 : |(x.val : ℝ)| ≤ 8) :
    P (cosOf A word big x) (cos x.val) (7 / 10 ^ 16) := by
  have tv : ((Fl.abs x).val : ℝ) = |(x.val : ℝ)| := by rw [Fl.abs_val]; push_cast; rfl
  obtain ⟨k, k5, r1, r2, r3, _⟩ := reduced_tr hT big (x := Fl.abs x) (by rw [abs_isFin]; exact hx)
    (by rw [Fl.abs_val]; exact abs_nonneg _) (by rw [tv]; exact h8)
  unfold cosOf
  rw [if_neg (by simp [hx])]
  simp only [r1]
  generalize reduced A word big (Fl.abs x) = r at *
  rw [tv] at r2 r3
  have ks := sinPoly_tr hT r2 r3
  have kc := cosPoly_tr hT r2 r3
  have ns := hT.base.neg ks
  have nc := hT.base.neg kc
  rw [← cos_abs]
  generalize |(x.val : ℝ)| = b at *
  have hk : k = 0 ∨ k = 1 ∨ k = 2 ∨ k = 3 ∨ k = 4 ∨ k = 5 := by omega
  have e2 : ∀ c : ℝ, cos (c + π / 2) = -sin c := cos_add_pi_div_two
  have val : ∀ n : ℕ, ∀ c : ℝ, (n = 0 ∨ n = 4 → cos (c + n * (π / 2)) = cos c) ∧ (n = 1 ∨ n = 5 → cos (c + n * (π / 2)) = -sin c) ∧
      (n = 2 → cos (c + n * (π / 2)) = -cos c) ∧ (n = 3 → cos (c + n * (π / 2)) = sin c) := by
    intro n c
    refine ⟨?_, ?_, ?_, ?_⟩
    · rintro (rfl | rfl)
      · simp
      · rw [show c + (4 : ℕ) * (π / 2) = c + 2 * π by push_cast; ring, cos_add_two_pi]
    · rintro (rfl | rfl)
      · rw [show c + (1 : ℕ) * (π / 2) = c + π / 2 by push_cast; ring, e2]
      · rw [show c + (5 : ℕ) * (π / 2) = c + π / 2 + 2 * π by push_cast; ring, cos_add_two_pi, e2]
    · rintro rfl
      rw [show c + (2 : ℕ) * (π / 2) = c + π by push_cast; ring, cos_add_pi]
    · rintro rfl
      rw [show c + (3 : ℕ) * (π / 2) = c + π / 2 + π by push_cast; ring, cos_add_pi, e2, neg_neg]
  have vb := val k (b - k * (π / 2))
  rw [sub_add_cancel] at vb
  rcases hk with rfl | rfl | rfl | rfl | rfl | rfl
  · rw [vb.1 (by simp)]; simp at kc ⊢; exact kc
  · rw [vb.2.1 (by simp)]; simp at ns ⊢; exact ns
  · rw [vb.2.2.1 (by simp)]; simp at nc ⊢; exact nc
  · rw [vb.2.2.2 (by simp)]; simp at ks ⊢; exact ks
  · rw [vb.1 (by simp)]; simp at kc ⊢; exact kc
  · rw [vb.2.1 (by simp)]; simp at ns ⊢; exact ns

theorem tanOf_tr (big : F64 → Nat × F64) {x : F64} (hx : x.isFin = true) (h6 : |(x.val : ℝ)| ≤ 6 / 5) :
    P (tanOf A word larger big x) (tan x.val) (1 / 10 ^ 14) := by
  have hnan : x ≠ .nan := isFin_ne_nan hx
  by_cases hz : x.val = 0
  · have hb : Fl.beq x Fl.zero = true := by
      rcases isFin_cases hx with rfl | ⟨q, hq, rfl⟩
      · rfl
      · simp only [Fl.val] at hz; subst hz; rfl
    have e : tanOf A word larger big x = word x := by unfold tanOf; rw [if_pos (Or.inr hb)]
    have := hT.ofWord hx
    rw [e, hz]
    rw [hz] at this
    simp only [Rat.cast_zero, tan_zero] at this ⊢
    exact hT.base.mono this (by norm_num)
  have hb : Fl.beq x Fl.zero = false := by
    rcases isFin_cases hx with rfl | ⟨q, hq, rfl⟩
    · exact absurd rfl hz
    · simp only [Fl.val] at hz; simp [Fl.beq, Fl.zero, Fl.val, hz]
  obtain ⟨t1, t2, t3⟩ := strip hx
  have tv : (((if Fl.lt x Fl.zero then Fl.neg x else x).val : ℚ) : ℝ) = |(x.val : ℝ)| := by rw [t2]; push_cast; rfl
  obtain ⟨k, k5, r1, r2, r3, r4⟩ := reduced_tr hT big t1 (by rw [t2]; exact abs_nonneg _) (by rw [tv]; linarith)
  unfold tanOf
  rw [if_neg (by simp [hnan, hb]), if_neg (by simp [hx])]
  simp only [r1]
  generalize hr : reduced A word big (if Fl.lt x Fl.zero then Fl.neg x else x) = r at *
  rw [tv] at r2 r3 r4
  have kt := tanPoly_tr hT r2 r3
  rw [t3]
  have sgn : tan (x.val : ℝ) = if x.val < 0 then -tan |(x.val : ℝ)| else tan |(x.val : ℝ)| := by
    by_cases hn : x.val < 0
    · have : (x.val : ℝ) < 0 := by exact_mod_cast hn
      rw [if_pos hn, abs_of_neg this, tan_neg, neg_neg]
    · have : 0 ≤ (x.val : ℝ) := by exact_mod_cast not_lt.mp hn
      rw [if_neg hn, abs_of_nonneg this]
  rw [sgn]
  have h6' : |(x.val : ℝ)| ≤ 6 / 5 := h6
  have hk1 := r4 h6'
  have b0 : 0 ≤ |(x.val : ℝ)| := abs_nonneg _
  generalize |(x.val : ℝ)| = b at *
  have main : P (if 2 * k / 2 % 2 = 1 then A.div (A.lit (-1)) (tanPoly A larger r.2) else tanPoly A larger r.2) (tan b) (1 / 10 ^ 14) := by
    have hk : k = 0 ∨ k = 1 := by omega
    rcases hk with rfl | rfl
    · simp at kt ⊢
      exact hT.base.mono kt (by norm_num)
    · have hp1 := pi_gt_d6
      have hp2 := pi_lt_d6
      simp only [Nat.cast_one, one_mul] at kt r3
      rw [if_pos (by norm_num)]
      -- the tangent of the reduced argument is below -0.37
      have lo : 3705 / 10 ^ 4 ≤ π / 2 - b := by norm_num at hp1 ⊢; linarith
      have r3' := abs_le.mp r3
      have hlt : π / 2 - b < tan (π / 2 - b) := lt_tan (by linarith) (by norm_num at r3' hp1; linarith [r3'.1])
      have et : tan (b - π / 2) = -tan (π / 2 - b) := by rw [← tan_neg, neg_sub]
      have at' : |tan (b - π / 2)| = tan (π / 2 - b) := by rw [et, abs_neg, abs_of_pos (by linarith)]
      have h1 : |((-1 : ℚ) : ℝ)| ≤ 1 := by norm_num
      have l1 := const hT h1 (by norm_num) (by norm_num)
      have d := hT.base.div (m := 3704 / 10 ^ 4) (q := 27 / 10) (e := 92 / 10 ^ 16) (t := 1 / 10 ^ 14) l1 kt (by norm_num)
        (by rw [at']; norm_num at lo ⊢; linarith) (by rw [at']; push_cast; rw [abs_neg, abs_one]; norm_num at lo ⊢; linarith)
        (by norm_num) (by norm_num) (by norm_num) (by norm_num)
      have e : ((-1 : ℚ) : ℝ) / tan (b - π / 2) = tan b := by
        rw [et, tan_pi_div_two_sub]; push_cast; rw [neg_div_neg_eq, one_div, inv_inv]
      rw [e] at d
      exact d
  by_cases hn : x.val < 0
  · simp only [hn, decide_true, if_true]
    exact hT.base.neg main
  · simp only [hn, decide_false, if_false]
    exact main

end
end Radolan.Trig
