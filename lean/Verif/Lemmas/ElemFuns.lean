/- math.Exp of Model/Elem.lean in any arithmetic with bounded rounding errors. -/
import Verif.Lemmas.ElemTracks

namespace Radolan.Elem
open Go Go.Fl Real

/-- the values of `Ln2Hi` and `LN2U`: 32 and 41 bits, so that products with small integers are exact -/
def hiV : ℚ := 2977044471 / 4294967296
def upV : ℚ := 1524246769571 / 2199023255552

theorem hi_value : (lit f64 ln2Hi).isFin = true ∧ (lit f64 ln2Hi).val = hiV := by decide +kernel
theorem up_value : (lit f64 ln2U).isFin = true ∧ (lit f64 ln2U).val = upV := by decide +kernel

theorem ints : ∀ k ∈ Finset.Icc (-8 : Int) 15, ((lit f64 (k : ℚ)).isFin = true ∧ (lit f64 (k : ℚ)).val = k) ∧
    (rnd f64 (k * hiV) = k * hiV ∧ |(k : ℚ) * hiV| < pow2 f64.emax) ∧
    (rnd f64 (k * upV) = k * upV ∧ |(k : ℚ) * upV| < pow2 f64.emax) := by decide +kernel

theorem int_spec {k : Int} (h1 : -8 ≤ k) (h2 : k ≤ 15) : ((lit f64 (k : ℚ)).isFin = true ∧ (lit f64 (k : ℚ)).val = k) ∧
    IsRep f64 (k * hiV) ∧ IsRep f64 (k * upV) :=
  ints k (Finset.mem_Icc.mpr ⟨h1, h2⟩)

theorem hi_near : |(hiV : ℝ) - log 2| ≤ 191 / 10 ^ 12 ∧ |(ln2Lo : ℝ) - (log 2 - hiV)| ≤ 3 / 10 ^ 26 := by
  have h := abs_le.mp ln2_close
  simp only [Pow.ln2, Rat.mkRat_eq_div] at h
  simp only [hiV, ln2Lo, Rat.mkRat_eq_div]
  constructor <;> rw [abs_le] <;> constructor <;> push_cast at h ⊢ <;> norm_num at h ⊢ <;> linarith [h.1, h.2]

theorem up_near : |(upV : ℝ) - log 2| ≤ 3 / 10 ^ 13 ∧ |(ln2L : ℝ) - (log 2 - upV)| ≤ 2 / 10 ^ 26 := by
  have h := abs_le.mp ln2_close
  simp only [Pow.ln2, Rat.mkRat_eq_div] at h
  simp only [upV, ln2L, Rat.mkRat_eq_div]
  constructor <;> rw [abs_le] <;> constructor <;> push_cast at h ⊢ <;> norm_num at h ⊢ <;> linarith [h.1, h.2]

theorem log2_bounds : 69314718 / 10 ^ 8 ≤ log 2 ∧ log 2 ≤ 69314719 / 10 ^ 8 := by
  have := Real.log_two_gt_d9
  have := Real.log_two_lt_d9
  constructor <;> norm_num at * <;> linarith

/-- `1 / log 2` -/
theorem log2e_near : |(log2e : ℝ) * log 2 - 1| ≤ 1 / 10 ^ 16 ∧ |(amdLog2e : ℝ) * log 2 - 1| ≤ 1 / 10 ^ 16 := by
  have h := abs_le.mp ln2_close
  simp only [Pow.ln2, Rat.mkRat_eq_div] at h
  simp only [log2e, amdLog2e, Rat.mkRat_eq_div]
  constructor <;> rw [abs_le] <;> constructor <;> push_cast at h ⊢ <;> norm_num at h ⊢ <;> linarith [h.1, h.2]

/-- an integer within 1/2 (and a bit) of `x / log 2` -/
theorem reduced_range {x : ℝ} {k : Int} (hx : |x| ≤ 5) {q : ℝ} (hq : |q * log 2 - 1| ≤ 1 / 10 ^ 16)
    (h : |(k : ℝ) - q * x| ≤ 1 / 2 + 1 / 10 ^ 13) :
    |x - k * log 2| ≤ 34658 / 10 ^ 5 ∧ |k| ≤ 7 := by
  obtain ⟨l1, l2⟩ := log2_bounds
  have e : x - k * log 2 = -((k - q * x) * log 2) - (q * log 2 - 1) * x := by ring
  have b1 : |(k - q * x) * log 2| ≤ (1 / 2 + 1 / 10 ^ 13) * (69314719 / 10 ^ 8) := by
    rw [abs_mul, abs_of_pos (by norm_num at l1; linarith : 0 < log 2)]
    exact mul_le_mul h l2 (by norm_num at l1; linarith) (by norm_num)
  have b2 : |(q * log 2 - 1) * x| ≤ 1 / 10 ^ 16 * 5 := Num.abs_mul_le hq hx
  have b3 : |x - k * log 2| ≤ 34658 / 10 ^ 5 := by
    rw [e]
    refine (abs_sub _ _).trans ?_
    rw [abs_neg]
    refine (add_le_add b1 b2).trans ?_
    norm_num
  refine ⟨b3, ?_⟩
  have b4 : |(k : ℝ) * log 2| ≤ 5 + 34658 / 10 ^ 5 := by
    have := abs_sub_abs_le_abs_sub ((k : ℝ) * log 2) x
    rw [abs_sub_comm] at this
    linarith
  rw [abs_mul, abs_of_pos (by norm_num at l1; linarith : 0 < log 2)] at b4
  have : |(k : ℝ)| < 8 := by
    by_contra hc
    have h8 := not_lt.mp hc
    have := mul_le_mul h8 l1 (by norm_num) (abs_nonneg _)
    norm_num at this b4; linarith
  have : ((|k| : Int) : ℝ) < ((8 : Int) : ℝ) := by push_cast; exact this
  have : |k| < 8 := by exact_mod_cast this
  omega

/-- conversion to int of a number `±1/2` away from `a` -/
theorem trunc_near {v : ℚ} {a δ : ℝ} (hd : δ < 1 / 10) :
    (0 ≤ a → |(v : ℝ) - (a + 1 / 2)| ≤ δ → |(ratTrunc v : ℝ) - a| ≤ 1 / 2 + δ) ∧
    (a ≤ 0 → |(v : ℝ) - (a - 1 / 2)| ≤ δ → |(ratTrunc v : ℝ) - a| ≤ 1 / 2 + δ) := by
  constructor
  · intro ha h
    obtain ⟨h1, h2⟩ := abs_le.mp h
    have hv : 0 ≤ v := by
      have : (0 : ℝ) ≤ v := by linarith
      exact_mod_cast this
    unfold ratTrunc
    rw [if_pos hv]
    obtain ⟨f1, f2⟩ := floor_bounds v
    have f1' : (v.floor : ℝ) ≤ v := by exact_mod_cast f1
    have f2' : (v : ℝ) < v.floor + 1 := by exact_mod_cast f2
    rw [abs_le]; constructor <;> linarith
  · intro ha h
    obtain ⟨h1, h2⟩ := abs_le.mp h
    have hv : ¬ 0 ≤ v := by
      intro hc
      have : (0 : ℝ) ≤ v := by exact_mod_cast hc
      linarith
    unfold ratTrunc
    rw [if_neg hv]
    obtain ⟨f1, f2⟩ := floor_bounds (-v)
    have f1' : ((-v).floor : ℝ) ≤ -v := by exact_mod_cast f1
    have f2' : -(v : ℝ) < (-v).floor + 1 := by exact_mod_cast f2
    push_cast
    rw [abs_le]; constructor <;> linarith

section
variable {α : Type} {A : Arith α} {P : α → ℝ → ℝ → Prop} {word : F64 → α} {observe : α → (F64 → α) → α} {scale : α → Int → α}
variable (hT : ElemTracks A P word observe scale)
include hT

/-- `hi` and `lo` -/
theorem hilo_tr {x : F64} {k : Int} (hx : x.isFin = true) (hk : |k| ≤ 7) (hr : |(x.val : ℝ) - k * log 2| ≤ 34658 / 10 ^ 5) :
    P (A.sub (word x) (A.mul (word (lit f64 (k : ℚ))) (A.lit ln2Hi))) (x.val - k * hiV) (42 / 10 ^ 18) ∧
    P (A.mul (word (lit f64 (k : ℚ))) (A.lit ln2Lo)) (k * (log 2 - hiV)) (1 / 10 ^ 24) ∧
    |(k : ℝ) * (log 2 - hiV)| ≤ 2 / 10 ^ 9 := by
  obtain ⟨k1, k2⟩ := abs_le.mp hk
  obtain ⟨⟨i1, i2⟩, i3, _⟩ := int_spec (k := k) (by omega) (by omega)
  obtain ⟨n1, n2⟩ := hi_near
  have hk' : |(k : ℝ)| ≤ 7 := by
    have : ((|k| : Int) : ℝ) ≤ ((7 : Int) : ℝ) := by exact_mod_cast hk
    push_cast at this; exact this
  have bl : |log 2 - (hiV : ℝ)| ≤ 191 / 10 ^ 12 := by rw [abs_sub_comm]; exact n1
  have b := Num.abs_mul_le hk' bl
  have hp := hT.prod (c := ln2Hi) i1 i2 hi_value.1 hi_value.2 i3
  push_cast at hp
  refine ⟨?_, ?_, b.trans (by norm_num)⟩
  · refine hT.base.sub (M := 3467 / 10 ^ 4) (hT.ofWord hx) hp ?_ (by norm_num) (by norm_num) (by norm_num)
    rw [show (x.val : ℝ) - k * hiV = (x.val - k * log 2) + k * (log 2 - hiV) by ring]
    have := abs_add_le ((x.val : ℝ) - k * log 2) (k * (log 2 - hiV))
    norm_num at this hr b ⊢; linarith
  · have hw := hT.ofWord i1
    rw [i2] at hw
    push_cast at hw
    have hl : P (A.lit ln2Lo) (log 2 - hiV) (6 / 10 ^ 26) :=
      hT.base.lit (ε := 3 / 10 ^ 26) (M := 192 / 10 ^ 12) n2 (by norm_num at bl ⊢; linarith) (by norm_num) (by norm_num) (by norm_num)
    exact hT.base.mul (e := 43 / 10 ^ 26) hw hl hk' bl (by norm_num) (by norm_num) (by norm_num) (by norm_num)

/-- thresholds that are not reached -/
theorem expOf_tr {x : F64} (hx : x.isFin = true) (h5 : |(x.val : ℝ)| ≤ 5) :
    P (expOf A word observe scale x) (exp x.val) (exp x.val * (16 / 10 ^ 16)) := by
  have hep := exp_pos (x.val : ℝ)
  obtain ⟨x1, x2⟩ := abs_le.mp h5
  have q1 : (-5 : ℚ) ≤ x.val := by have : ((-5 : ℚ) : ℝ) ≤ x.val := by push_cast; linarith
                                   exact_mod_cast this
  have q2 : x.val ≤ (5 : ℚ) := by exact_mod_cast x2
  have t1 : lt (lit f64 (mkRat 709782712893383973096 (10 ^ 18))) x = false := by
    have h : (lit f64 (mkRat 709782712893383973096 (10 ^ 18))).isFin = true ∧ 700 ≤ (lit f64 (mkRat 709782712893383973096 (10 ^ 18))).val := by
      decide +kernel
    rw [lt_fin h.1 hx, decide_eq_false_iff_not]; linarith [h.2]
  have t2 : lt x (lit f64 (-mkRat 745133219101941108420 (10 ^ 18))) = false := by
    have h : (lit f64 (-mkRat 745133219101941108420 (10 ^ 18))).isFin = true ∧ (lit f64 (-mkRat 745133219101941108420 (10 ^ 18))).val ≤ -700 := by
      decide +kernel
    rw [lt_fin hx h.1, decide_eq_false_iff_not]; linarith [h.2]
  have hn : x ≠ .nan ∧ x ≠ .inf false ∧ x ≠ .inf true := by refine ⟨?_, ?_, ?_⟩ <;> (rintro rfl; simp [isFin] at hx)
  have c1 : (lit f64 (-1 / 2 ^ 28)).isFin = true ∧ (lit f64 (-1 / 2 ^ 28)).val = -1 / 2 ^ 28 := by decide +kernel
  have c2 : (lit f64 (1 / 2 ^ 28)).isFin = true ∧ (lit f64 (1 / 2 ^ 28)).val = 1 / 2 ^ 28 := by decide +kernel
  unfold expOf
  rw [if_neg (by simp [hn.1, hn.2.1]), if_neg hn.2.2, t1, t2, lt_fin c1.1 hx, lt_fin hx c2.1, c1.2, c2.2]
  simp only [Bool.false_eq_true, if_false, decide_eq_true_eq]
  by_cases hs : -1 / 2 ^ 28 < x.val ∧ x.val < 1 / 2 ^ 28
  · rw [if_pos hs]
    have hr : |(x.val : ℝ)| ≤ 1 / 2 ^ 28 := by
      have a1 : ((-1 / 2 ^ 28 : ℚ) : ℝ) < x.val := by exact_mod_cast hs.1
      have a2 : (x.val : ℝ) < ((1 / 2 ^ 28 : ℚ) : ℝ) := by exact_mod_cast hs.2
      rw [abs_le]; constructor <;> norm_num at a1 a2 ⊢ <;> linarith
    have ha := hT.base.add (M := 101 / 100) (t := 122 / 10 ^ 18) hT.base.lit_one (hT.ofWord hx) (by
      have := abs_add_le 1 (x.val : ℝ)
      rw [abs_one] at this
      norm_num at this hr ⊢; linarith) (by norm_num) (by norm_num) (by norm_num)
    have hb := Real.abs_exp_sub_one_sub_id_le (x := (x.val : ℝ)) (hr.trans (by norm_num))
    have hsq : (x.val : ℝ) ^ 2 ≤ (1 / 2 ^ 28) ^ 2 := by rw [← sq_abs]; exact pow_le_pow_left₀ (abs_nonneg _) hr 2
    refine near hT (δ := 2 / 10 ^ 17) ha ?_ ?_
    · rw [abs_sub_comm, ← sub_sub]
      refine hb.trans (hsq.trans ?_)
      norm_num
    · have := add_one_le_exp (x.val : ℝ)
      have := (abs_le.mp hr).1
      norm_num at this ⊢; linarith
  · rw [if_neg hs]
    have hlz : lt x zero = decide (x.val < 0) := by rw [lt_fin hx (by rfl)]; rfl
    have bq : |(log2e : ℝ)| ≤ 1443 / 1000 := by simp only [log2e, Rat.mkRat_eq_div]; norm_num
    have pm := hT.base.mul (e := 87 / 10 ^ 17) (t := 2 / 10 ^ 15) (const hT bq (by norm_num) (by norm_num)) (hT.ofWord hx) bq h5
      (by norm_num) (by norm_num) (by norm_num) (by norm_num)
    have bm := Num.abs_mul_le bq h5
    have half := const hT (q := 1 / 2) (M := 1 / 2) (by norm_num) (by norm_num) (by norm_num)
    have main : ∀ v : F64, |(ratTrunc v.val : ℝ) - log2e * x.val| ≤ 1 / 2 + 1 / 10 ^ 14 →
        P (expmulti A scale (A.sub (word x) (A.mul (word (lit f64 ((ratTrunc v.val : Int) : ℚ))) (A.lit ln2Hi)))
          (A.mul (word (lit f64 ((ratTrunc v.val : Int) : ℚ))) (A.lit ln2Lo)) (ratTrunc v.val)) (exp x.val) (exp x.val * (16 / 10 ^ 16)) := by
      intro v hv
      generalize ratTrunc v.val = k at *
      obtain ⟨r1, r2⟩ := reduced_range h5 log2e_near.1 (hv.trans (by norm_num))
      obtain ⟨p1, p2, p3⟩ := hilo_tr hT hx r2 r1
      have er : (x.val : ℝ) - k * hiV - k * (log 2 - hiV) = x.val - k * log 2 := by ring
      have := expmulti_tr hT (k := k) p1 p2 p3 (by rw [er]; exact r1.trans (by norm_num)) (by omega)
      rw [er] at this
      have ek : exp ((x.val : ℝ) - k * log 2) * 2 ^ k = exp x.val := by
        rw [exp_sub, mul_comm (k : ℝ), exp_mul, exp_log (by norm_num), rpow_intCast]
        field_simp
      rw [ek] at this
      refine hT.base.mono this ?_
      rw [← ek]
      have hlow : 65 / 100 ≤ exp ((x.val : ℝ) - k * log 2) := by
        have := add_one_le_exp ((x.val : ℝ) - k * log 2)
        have := (abs_le.mp r1).1
        norm_num at this ⊢; linarith
      rw [mul_right_comm]
      refine mul_le_mul_of_nonneg_right ?_ (by positivity)
      norm_num at hlow ⊢; linarith
    have conv : log2e * (x.val : ℝ) = (log2e : ℝ) * x.val := rfl
    have lpos : (0 : ℝ) < log2e := by simp only [log2e, Rat.mkRat_eq_div]; norm_num
    rw [hlz]
    by_cases hneg : x.val < 0
    · simp only [hneg, decide_true, if_true]
      have hneg' : (x.val : ℝ) < 0 := by exact_mod_cast hneg
      have hv := hT.base.sub (M := 8) (t := 4 / 10 ^ 15) pm half (by
        have := abs_sub ((log2e : ℝ) * x.val) ((1 / 2 : ℚ) : ℝ)
        norm_num at this bm ⊢; linarith) (by norm_num) (by norm_num) (by norm_num)
      refine hT.observe hv fun v hv => main v ?_
      have := (trunc_near (v := v.val) (a := log2e * x.val) (δ := 4 / 10 ^ 15) (by norm_num)).2
        (mul_nonpos_of_nonneg_of_nonpos lpos.le hneg'.le) (by have := hv.2; push_cast at this; exact this)
      exact this.trans (by norm_num)
    · simp only [hneg, decide_false, Bool.false_eq_true, if_false]
      have hpos' : (0 : ℝ) ≤ x.val := by exact_mod_cast _root_.not_lt.mp hneg
      have hv := hT.base.add (M := 8) (t := 4 / 10 ^ 15) pm half (by
        have := abs_add_le ((log2e : ℝ) * x.val) ((1 / 2 : ℚ) : ℝ)
        norm_num at this bm ⊢; linarith) (by norm_num) (by norm_num) (by norm_num)
      refine hT.observe hv fun v hv => main v ?_
      have := (trunc_near (v := v.val) (a := log2e * x.val) (δ := 4 / 10 ^ 15) (by norm_num)).1
        (mul_nonneg lpos.le hpos') (by have := hv.2; push_cast at this; exact this)
      exact this.trans (by norm_num)

end
end Radolan.Elem
