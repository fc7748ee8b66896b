/- math.Log of Model/Elem.lean in any arithmetic with bounded rounding errors. -/
import Verif.Lemmas.ElemFuns

namespace Radolan.Elem
open Go Go.Fl Real Radolan.Pow

/-- `math.Frexp` is exact -/
theorem frexp_exact {x : F64} (hx : 0 < x.val) :
    (frexp x).1.isFin = true ∧ (frexp x).1.val * pow2 (frexp x).2 = x.val ∧ 1 / 2 ≤ (frexp x).1.val ∧ (frexp x).1.val < 1 ∧
      -1073 ≤ (frexp x).2 ∧ (frexp x).2 ≤ 1024 := by
  have hx' : (0 : ℝ) < x.val := by exact_mod_cast hx
  obtain ⟨q, hq, rfl, h0⟩ := fin_of_pos hx'
  have hfe : frexp (.fin q hq) = (mk f64 (sign (.fin q hq)) (q * pow2 (-(ilog2 q + 1))), ilog2 q + 1) := by
    unfold frexp
    simp only []
    rw [if_neg h0.ne', abs_of_pos h0]
  obtain ⟨s1, s2⟩ := ilog2_spec h0
  have hp1 : pow2 (-1) = 1 / 2 := by decide +kernel
  have hp0 : pow2 0 = 1 := by decide
  have hmax : f64.emax = 1024 := by decide
  have hmin : f64.emin = -1074 := by decide
  obtain ⟨n, e, he, hn, hr⟩ := rnd_form f64 q
  rw [hq.1] at hr
  have hpe := pow2_pos e
  have hn0 : (0 : ℚ) < n := by
    by_contra hc
    have := mul_nonpos_of_nonpos_of_nonneg (_root_.not_lt.mp hc) hpe.le
    rw [← hr] at this
    linarith
  have hn1 : (1 : ℚ) ≤ n := by
    have : (0 : Int) < n := by exact_mod_cast hn0
    exact_mod_cast this
  have hn53 : (n : ℚ) ≤ pow2 53 := by
    have h1 : n ≤ 2 ^ 53 := (le_abs_self n).trans hn
    have h2 : pow2 53 = ((2 ^ 53 : Int) : ℚ) := by decide +kernel
    rw [h2]; exact_mod_cast h1
  have hE0 : -1074 ≤ ilog2 q := by
    have : pow2 e < pow2 (ilog2 q + 1) := by
      refine lt_of_le_of_lt ?_ s2
      rw [hr]; exact le_mul_of_one_le_left hpe.le hn1
    have := pow2_lt.mp this; omega
  have hE1 : ilog2 q ≤ 1023 := by
    have h1 := hq.2
    rw [abs_of_pos h0, hmax] at h1
    have := pow2_lt.mp (lt_of_le_of_lt s1 h1); omega
  have hE2 : ilog2 q ≤ e + 53 := by
    refine pow2_le.mp (s1.trans ?_)
    rw [hr, add_comm, pow2_add]
    exact mul_le_mul_of_nonneg_right hn53 hpe.le
  have e1 : 1 / 2 ≤ q * pow2 (-(ilog2 q + 1)) := by
    have := mul_le_mul_of_nonneg_right s1 (pow2_pos (-(ilog2 q + 1))).le
    rwa [← pow2_add, show ilog2 q + -(ilog2 q + 1) = -1 by omega, hp1] at this
  have e2 : q * pow2 (-(ilog2 q + 1)) < 1 := by
    have := mul_lt_mul_of_pos_right s2 (pow2_pos (-(ilog2 q + 1)))
    rwa [← pow2_add, show ilog2 q + 1 + -(ilog2 q + 1) = 0 by omega, hp0] at this
  have e3 : q * pow2 (-(ilog2 q + 1)) * pow2 (ilog2 q + 1) = q := by
    rw [mul_assoc, ← pow2_add, show -(ilog2 q + 1) + (ilog2 q + 1) = 0 by omega, hp0, mul_one]
  have hrep : IsRep f64 (q * pow2 (-(ilog2 q + 1))) := by
    constructor
    · have : q * pow2 (-(ilog2 q + 1)) = n * pow2 (e + -(ilog2 q + 1)) := by
        rw [pow2_add, ← mul_assoc, ← hr]
      rw [this]
      exact rnd_exact f64 (by omega) hn
    · rw [abs_of_pos (by linarith)]
      refine e2.trans ?_
      decide +kernel
  rw [hfe]
  simp only []
  rw [mk_of_repr hrep (by linarith)]
  exact ⟨rfl, e3, e1, e2, by omega, by omega⟩

/-- integers, and their products with `Ln2Hi`, are exact -/
theorem int_exact {k : Int} (hk : |k| ≤ 1100) : ((lit f64 (k : ℚ)).isFin = true ∧ (lit f64 (k : ℚ)).val = k) ∧ IsRep f64 (k * hiV) := by
  have hp0 : pow2 0 = 1 := by decide
  have hp32 : pow2 (-32) = 1 / 4294967296 := by decide +kernel
  have hmax : (4294967296 : ℚ) < pow2 f64.emax := by decide +kernel
  have hb : |(k : ℚ)| ≤ 1100 := by exact_mod_cast hk
  have r1 : rnd f64 (k : ℚ) = k := by
    have := rnd_exact f64 (n := k) (e := 0) (by decide) (hk.trans (by decide))
    rwa [hp0, mul_one] at this
  constructor
  · have := lit_of_repr (f := f64) (q := (k : ℚ)) ⟨r1, by linarith⟩
    rw [this]; exact ⟨rfl, rfl⟩
  · constructor
    · have := rnd_exact f64 (n := k * 2977044471) (e := -32) (by decide) (by
        rw [abs_mul]
        refine (mul_le_mul_of_nonneg_right hk (abs_nonneg _)).trans ?_
        decide)
      rw [hp32] at this
      push_cast at this
      have e : (k : ℚ) * hiV = k * 2977044471 * (1 / 4294967296) := by unfold hiV; ring
      rw [e]; exact this
    · rw [abs_mul]
      refine lt_of_le_of_lt (mul_le_mul_of_nonneg_right hb (abs_nonneg _)) (lt_trans ?_ hmax)
      unfold hiV
      rw [abs_of_pos (by norm_num)]; norm_num

theorem sqrt2_value : (lit f64 (sqrt2 / 2)).isFin = true ∧ (lit f64 (sqrt2 / 2)).val = 6369051672525773 / 9007199254740992 := by
  decide +kernel

/-- `f1 *= 2` is exact -/
theorem double_exact {x : F64} (hx : x.isFin = true) (h1 : 1 / 2 ≤ x.val) (h2 : x.val < 1) :
    (mul x (lit f64 2)).isFin = true ∧ (mul x (lit f64 2)).val = x.val * 2 := by
  have c2 : (lit f64 2).isFin = true ∧ (lit f64 2).val = 2 := by decide +kernel
  have hsc := rnd_scale (f := f64) (q := x.val) 1 (by
    rw [abs_of_pos (by linarith)]
    refine _root_.le_trans ?_ h1
    decide +kernel)
  have hp : pow2 ((1 : Nat) : Int) = 2 := by decide +kernel
  rw [hp, rnd_val] at hsc
  have hlt : |rnd f64 (x.val * 2)| < pow2 f64.emax := by
    rw [hsc, abs_of_pos (by linarith)]
    have : (2 : ℚ) < pow2 f64.emax := by decide +kernel
    linarith
  have hmul : ∃ b, mul x (lit f64 2) = mk f64 b (x.val * 2) := by
    have hy := c2.2
    cases x with
    | fin q hq =>
      cases hl : lit f64 2 with
      | fin r hr =>
        rw [hl] at hy
        change r = 2 at hy
        subst hy
        exact ⟨_, rfl⟩
      | _ => rw [hl] at hy; simp [val] at hy
    | _ => simp [val] at h1; norm_num at h1
  obtain ⟨b, hb⟩ := hmul
  rw [hb]
  obtain ⟨m1, m2⟩ := mk_fin (b := b) hlt
  exact ⟨m1, by rw [m2, hsc]⟩

section
variable {α : Type} {A : Arith α} {P : α → ℝ → ℝ → Prop} {word : F64 → α} {observe : α → (F64 → α) → α} {scale : α → Int → α}
variable (hT : ElemTracks A P word observe scale)
include hT

/-- a constant below `M` -/
theorem constB {q : ℚ} {M t : ℝ} (hq : |(q : ℝ)| ≤ M) (h1 : 1 / 10 ^ 60 ≤ M) (h2 : M ≤ 10 ^ 60) (ht : M * (12 / 10 ^ 17) ≤ t) :
    P (A.lit q) (q : ℝ) t ∧ |(q : ℝ)| ≤ M := ⟨hT.base.mono (const hT hq h1 h2) ht, hq⟩

/-- the two halves of the polynomial: `R` -/
theorem R_tr {s : α} {sv : ℝ} (hs : P s sv (109 / 10 ^ 18)) (bs : |sv| ≤ 1716 / 10 ^ 4) :
    P (A.add (A.mul (A.mul s s) (cstep A l1 (A.mul (A.mul s s) (A.mul s s)) (cstep A l3 (A.mul (A.mul s s) (A.mul s s))
      (cstep A l5 (A.mul (A.mul s s) (A.mul s s)) (A.lit l7)))))
      (A.mul (A.mul (A.mul s s) (A.mul s s)) (cstep A l2 (A.mul (A.mul s s) (A.mul s s)) (cstep A l4 (A.mul (A.mul s s) (A.mul s s))
        (A.lit l6))))) (Poly.eval polyL (sv * sv)) (383 / 10 ^ 19) ∧ |Poly.eval polyL (sv * sv)| ≤ 202 / 10 ^ 4 := by
  have h2 := hT.base.mul (e := 375 / 10 ^ 19) (t := 411 / 10 ^ 19) hs hs bs bs (by norm_num) (by norm_num) (by norm_num) (by norm_num)
  have b2 : |sv * sv| ≤ 2945 / 10 ^ 5 := (Num.abs_mul_le bs bs).trans (by norm_num)
  have h4 := hT.base.mul (e := 243 / 10 ^ 20) (t := 254 / 10 ^ 20) h2 h2 b2 b2 (by norm_num) (by norm_num) (by norm_num) (by norm_num)
  have b4 : |sv * sv * (sv * sv)| ≤ 868 / 10 ^ 6 := (Num.abs_mul_le b2 b2).trans (by norm_num)
  have a7 := constB hT (q := l7) (M := 148 / 1000) (t := 178 / 10 ^ 19) (by simp only [l7, Rat.mkRat_eq_div]; norm_num) (by norm_num)
    (by norm_num) (by norm_num)
  have a5 := cst hT (c := l5) (C := 182 / 10 ^ 3) (W := 183 / 10 ^ 3) (δ := 443 / 10 ^ 19) ⟨h4, b4⟩ a7
    (by simp only [l5, Rat.mkRat_eq_div]; norm_num) (by norm_num) (by norm_num) (by norm_num) (by norm_num) (by norm_num)
    (by norm_num) (by norm_num) (by norm_num) (by norm_num)
  have a3 := cst hT (c := l3) (C := 286 / 10 ^ 3) (W := 287 / 10 ^ 3) (δ := 693 / 10 ^ 19) ⟨h4, b4⟩ a5
    (by simp only [l3, Rat.mkRat_eq_div]; norm_num) (by norm_num) (by norm_num) (by norm_num) (by norm_num) (by norm_num)
    (by norm_num) (by norm_num) (by norm_num) (by norm_num)
  obtain ⟨a1, d1⟩ := cst hT (c := l1) (C := 667 / 10 ^ 3) (W := 668 / 10 ^ 3) (δ := 162 / 10 ^ 18) ⟨h4, b4⟩ a3
    (by simp only [l1, Rat.mkRat_eq_div]; norm_num) (by norm_num) (by norm_num) (by norm_num) (by norm_num) (by norm_num)
    (by norm_num) (by norm_num) (by norm_num) (by norm_num)
  have t1 := hT.base.mul (e := 323 / 10 ^ 19) (t := 347 / 10 ^ 19) h2 a1 b2 d1 (by norm_num) (by norm_num) (by norm_num) (by norm_num)
  have a6 := constB hT (q := l6) (M := 154 / 1000) (t := 185 / 10 ^ 19) (by simp only [l6, Rat.mkRat_eq_div]; norm_num) (by norm_num)
    (by norm_num) (by norm_num)
  have a4 := cst hT (c := l4) (C := 223 / 10 ^ 3) (W := 224 / 10 ^ 3) (δ := 541 / 10 ^ 19) ⟨h4, b4⟩ a6
    (by simp only [l4, Rat.mkRat_eq_div]; norm_num) (by norm_num) (by norm_num) (by norm_num) (by norm_num) (by norm_num)
    (by norm_num) (by norm_num) (by norm_num) (by norm_num)
  obtain ⟨a2, d2⟩ := cst hT (c := l2) (C := 4 / 10) (W := 401 / 10 ^ 3) (δ := 968 / 10 ^ 19) ⟨h4, b4⟩ a4
    (by simp only [l2, Rat.mkRat_eq_div]; norm_num) (by norm_num) (by norm_num) (by norm_num) (by norm_num) (by norm_num)
    (by norm_num) (by norm_num) (by norm_num) (by norm_num)
  have t2 := hT.base.mul (e := 111 / 10 ^ 20) (t := 116 / 10 ^ 20) h4 a2 b4 d2 (by norm_num) (by norm_num) (by norm_num) (by norm_num)
  have e1 := Num.abs_mul_le b2 d1
  have e2 := Num.abs_mul_le b4 d2
  have ev : sv * sv * ((l1 : ℝ) + sv * sv * (sv * sv) * (l3 + sv * sv * (sv * sv) * (l5 + sv * sv * (sv * sv) * l7)))
      + sv * sv * (sv * sv) * (l2 + sv * sv * (sv * sv) * (l4 + sv * sv * (sv * sv) * l6)) = Poly.eval polyL (sv * sv) := by
    simp only [polyL, Poly.eval]; push_cast; ring
  have bR : |Poly.eval polyL (sv * sv)| ≤ 202 / 10 ^ 4 := by
    rw [← ev]
    refine (abs_add_le _ _).trans ((add_le_add e1 e2).trans ?_)
    norm_num
  have hR := hT.base.add (M := 203 / 10 ^ 4) (t := 383 / 10 ^ 19) t1 t2 (by rw [ev]; norm_num at bR ⊢; linarith) (by norm_num) (by norm_num)
    (by norm_num)
  rw [ev] at hR
  exact ⟨hR, bR⟩

/-- the logarithm of `2^k * f1` -/
theorem logcore_tr {f1 : F64} {k : Int} (hf : f1.isFin = true) (hl : 7071 / 10 ^ 4 ≤ (f1.val : ℝ)) (hu : (f1.val : ℝ) ≤ 141422 / 10 ^ 5)
    (hk : |k| ≤ 1100) :
    P (let f := A.sub (word f1) (A.lit 1)
      let k := word (Fl.lit f64 (k : ℚ))
      let s := A.div f (A.add (A.lit 2) f)
      let s2 := A.mul s s
      let s4 := A.mul s2 s2
      let t1 := A.mul s2 (cstep A l1 s4 (cstep A l3 s4 (cstep A l5 s4 (A.lit l7))))
      let t2 := A.mul s4 (cstep A l2 s4 (cstep A l4 s4 (A.lit l6)))
      let R := A.add t1 t2
      let hfsq := A.mul (A.mul (A.lit (1 / 2)) f) f
      A.sub (A.mul k (A.lit ln2Hi))
        (A.sub (A.sub hfsq (A.add (A.mul s (A.add hfsq R)) (A.mul k (A.lit ln2Lo)))) f))
      (k * log 2 + log f1.val) ((1 + |(k : ℝ) * log 2 + log f1.val|) * (4 / 10 ^ 16)) := by
  simp only []
  have fb : |(f1.val : ℝ) - 1| ≤ 41422 / 10 ^ 5 := by
    rw [abs_le]; constructor <;> norm_num at hl hu ⊢ <;> linarith
  have hF := hT.base.sub (M := 4143 / 10 ^ 4) (t := 498 / 10 ^ 19) (hT.ofWord hf) hT.base.lit_one (by norm_num at fb ⊢; linarith)
    (by norm_num) (by norm_num) (by norm_num)
  have ap := log_approx (f := (f1.val : ℝ) - 1) (by norm_num at hl ⊢; linarith) (by norm_num at hu ⊢; linarith)
  have sr := s_range (f := (f1.val : ℝ) - 1) (by norm_num at hl ⊢; linarith) (by norm_num at hu ⊢; linarith)
  have low : 17 / 10 + 1 / 1000 ≤ 2 + ((f1.val : ℝ) - 1) := by norm_num at hl ⊢; linarith
  rw [show 1 + ((f1.val : ℝ) - 1) = f1.val by ring] at ap
  generalize (f1.val : ℝ) - 1 = f at *
  generalize A.sub (word f1) (A.lit 1) = f' at *
  have k2 := const hT (q := 2) (M := 2) (by norm_num) (by norm_num) (by norm_num)
  have e2 : ((2 : ℚ) : ℝ) = 2 := by norm_num
  rw [e2] at k2
  have b2f : |2 + f| ≤ 241422 / 10 ^ 5 := by
    refine (abs_add_le _ _).trans ?_
    norm_num at fb ⊢; linarith
  have d := hT.base.add (M := 24143 / 10 ^ 4) (t := 580 / 10 ^ 18) k2 hF (by norm_num at b2f ⊢; linarith) (by norm_num) (by norm_num)
    (by norm_num)
  have hpos : 0 < 2 + f := by norm_num at low; linarith
  have hs := hT.base.div (m := 17 / 10) (q := 1716 / 10 ^ 4) (e := 879 / 10 ^ 19) (t := 109 / 10 ^ 18) hF d (by norm_num)
    (by rw [abs_of_pos hpos]; norm_num at low ⊢; linarith)
    (by rwa [abs_div, div_le_iff₀ (abs_pos.mpr hpos.ne')] at sr) (by norm_num) (by norm_num) (by norm_num) (by norm_num)
  obtain ⟨hR, bR⟩ := R_tr hT hs sr
  generalize f / (2 + f) = s at *
  generalize Poly.eval polyL (s * s) = R at *
  generalize A.div f' (A.add (A.lit 2) f') = s' at *
  generalize A.add (A.mul (A.mul s' s') (cstep A l1 (A.mul (A.mul s' s') (A.mul s' s')) (cstep A l3 (A.mul (A.mul s' s') (A.mul s' s'))
      (cstep A l5 (A.mul (A.mul s' s') (A.mul s' s')) (A.lit l7)))))
      (A.mul (A.mul (A.mul s' s') (A.mul s' s')) (cstep A l2 (A.mul (A.mul s' s') (A.mul s' s')) (cstep A l4
        (A.mul (A.mul s' s') (A.mul s' s')) (A.lit l6)))) = R' at *
  have half := const hT (q := 1 / 2) (M := 1 / 2) (by norm_num) (by norm_num) (by norm_num)
  have e3 : ((1 / 2 : ℚ) : ℝ) = 1 / 2 := by norm_num
  rw [e3] at half
  have h1 := hT.base.mul (B := 1 / 2) (e := 498 / 10 ^ 19) (t := 747 / 10 ^ 19) half hF (by norm_num) fb (by norm_num) (by norm_num)
    (by norm_num) (by norm_num)
  have bh1 : |1 / 2 * f| ≤ 1 / 2 * (41422 / 10 ^ 5) := Num.abs_mul_le (by norm_num) fb
  have h2 := hT.base.mul (e := 413 / 10 ^ 19) (t := 516 / 10 ^ 19) h1 hF bh1 fb (by norm_num) (by norm_num) (by norm_num) (by norm_num)
  have bh2 : |1 / 2 * f * f| ≤ 858 / 10 ^ 4 := (Num.abs_mul_le bh1 fb).trans (by norm_num)
  have eh : 1 / 2 * f * f = f * f / 2 := by ring
  rw [eh] at h2 bh2
  have ba : |f * f / 2 + R| ≤ 1060 / 10 ^ 4 := by
    refine (abs_add_le _ _).trans ?_
    norm_num at bh2 bR ⊢; linarith
  have ha := hT.base.add (M := 1061 / 10 ^ 4) (t := 103 / 10 ^ 18) h2 hR (by norm_num at ba ⊢; linarith) (by norm_num) (by norm_num)
    (by norm_num)
  have hm := hT.base.mul (e := 293 / 10 ^ 19) (t := 315 / 10 ^ 19) hs ha sr ba (by norm_num) (by norm_num) (by norm_num) (by norm_num)
  have bm : |s * (f * f / 2 + R)| ≤ 182 / 10 ^ 4 := (Num.abs_mul_le sr ba).trans (by norm_num)
  obtain ⟨⟨i1, i2⟩, i3⟩ := int_exact hk
  obtain ⟨n1, n2⟩ := hi_near
  have hk' : |(k : ℝ)| ≤ 1100 := by exact_mod_cast hk
  have bl : |log 2 - (hiV : ℝ)| ≤ 191 / 10 ^ 12 := by rw [abs_sub_comm]; exact n1
  have b := Num.abs_mul_le hk' bl
  have hp := hT.prod (c := ln2Hi) i1 i2 hi_value.1 hi_value.2 i3
  push_cast at hp
  have hw := hT.ofWord i1
  rw [i2] at hw
  push_cast at hw
  have hlo : P (A.lit ln2Lo) (log 2 - hiV) (6 / 10 ^ 26) :=
    hT.base.lit (ε := 3 / 10 ^ 26) (M := 192 / 10 ^ 12) n2 (by norm_num at bl ⊢; linarith) (by norm_num) (by norm_num) (by norm_num)
  have hkl := hT.base.mul (e := 661 / 10 ^ 25) (t := 1 / 10 ^ 22) hw hlo hk' bl (by norm_num) (by norm_num) (by norm_num) (by norm_num)
  have hb := hT.base.add (M := 183 / 10 ^ 4) (t := 337 / 10 ^ 19) hm hkl (by
    have := abs_add_le (s * (f * f / 2 + R)) (k * (log 2 - hiV))
    norm_num at this bm b ⊢; linarith) (by norm_num) (by norm_num) (by norm_num)
  have bb : |s * (f * f / 2 + R) + k * (log 2 - hiV)| ≤ 183 / 10 ^ 4 := by
    refine (abs_add_le _ _).trans ?_
    norm_num at bm b ⊢; linarith
  have bc : |f * f / 2 - (s * (f * f / 2 + R) + k * (log 2 - hiV))| ≤ 1041 / 10 ^ 4 := by
    refine (abs_sub _ _).trans ?_
    norm_num at bh2 bb ⊢; linarith
  have hc := hT.base.sub (M := 1042 / 10 ^ 4) (t := 979 / 10 ^ 19) h2 hb (by norm_num at bc ⊢; linarith) (by norm_num) (by norm_num)
    (by norm_num)
  have bd : |f * f / 2 - (s * (f * f / 2 + R) + k * (log 2 - hiV)) - f| ≤ 519 / 1000 := by
    refine (abs_sub _ _).trans ?_
    norm_num at bc fb ⊢; linarith
  have hd := hT.base.sub (M := 52 / 100) (t := 211 / 10 ^ 18) hc hF (by norm_num at bd ⊢; linarith) (by norm_num) (by norm_num)
    (by norm_num)
  have ev : (k : ℝ) * hiV - (f * f / 2 - (s * (f * f / 2 + R) + k * (log 2 - hiV)) - f) - (k * log 2 + log f1.val)
      = f - (f * f / 2 - s * (f * f / 2 + R)) - log f1.val := by ring
  rw [← ev] at ap
  have bz : |(k : ℝ) * hiV - (f * f / 2 - (s * (f * f / 2 + R) + k * (log 2 - hiV)) - f)| ≤ |(k : ℝ) * log 2 + log f1.val| + 3 / 10 ^ 18 := by
    have := abs_sub_abs_le_abs_sub ((k : ℝ) * hiV - (f * f / 2 - (s * (f * f / 2 + R) + k * (log 2 - hiV)) - f)) (k * log 2 + log f1.val)
    linarith
  have bz2 : |(k : ℝ) * hiV - (f * f / 2 - (s * (f * f / 2 + R) + k * (log 2 - hiV)) - f)| ≤ 1200 := by
    refine (abs_sub _ _).trans ?_
    have : |(k : ℝ) * hiV| ≤ 1100 * 1 := Num.abs_mul_le hk' (by simp only [hiV]; norm_num)
    norm_num at this bd ⊢; linarith
  have hz := hT.base.sub (M := |(k : ℝ) * hiV - (f * f / 2 - (s * (f * f / 2 + R) + k * (log 2 - hiV)) - f)| + 1 / 1000)
    (t := 211 / 10 ^ 18 + (|(k : ℝ) * hiV - (f * f / 2 - (s * (f * f / 2 + R) + k * (log 2 - hiV)) - f)| + 1 / 1000) * (12 / 10 ^ 17)) hp hd
    (by norm_num) (_root_.le_trans (by norm_num : (1 : ℝ) / 10 ^ 60 ≤ 1 / 1000) (le_add_of_nonneg_left (abs_nonneg _)))
    (_root_.le_trans (add_le_add_left bz2 _) (by norm_num)) (by rw [zero_add])
  refine near hT hz ap ?_
  have := abs_nonneg ((k : ℝ) * log 2 + log f1.val)
  generalize |(k : ℝ) * log 2 + log f1.val| = L at *
  generalize |(k : ℝ) * hiV - (f * f / 2 - (s * (f * f / 2 + R) + k * (log 2 - hiV)) - f)| = Z at *
  linarith

theorem logOf_tr {x : F64} (hx : x.isFin = true) (hx0 : (0 : ℝ) < x.val) :
    P (logOf A word x) (log x.val) ((1 + |log (x.val : ℝ)|) * (4 / 10 ^ 16)) := by
  have q1 : (0 : ℚ) < x.val := by exact_mod_cast hx0
  have hn : x ≠ .nan ∧ x ≠ .inf false ∧ x ≠ .inf true := by refine ⟨?_, ?_, ?_⟩ <;> (rintro rfl; simp [isFin] at hx)
  have t1 : lt x zero = false := by
    rw [lt_fin hx (by rfl), decide_eq_false_iff_not]
    change ¬ x.val < 0
    linarith
  have t2 : beq x zero = false := by
    cases x with
    | fin q hq =>
      change 0 < q at q1
      simp [beq, zero, val, q1.ne']
    | _ => simp [val] at q1
  obtain ⟨f1, f2, f3, f4, f5, f6⟩ := frexp_exact q1
  unfold logOf
  rw [if_neg (by simp [hn.1, hn.2.1]), t1, t2]
  simp only [Bool.false_eq_true, if_false]
  have hlt : lt (frexp x).1 (lit f64 (sqrt2 / 2)) = decide ((frexp x).1.val < 6369051672525773 / 9007199254740992) := by
    rw [lt_fin f1 sqrt2_value.1, sqrt2_value.2]
  rw [hlt]
  have hpos : (0 : ℝ) < (frexp x).1.val := by
    have : ((1 / 2 : ℚ) : ℝ) ≤ (frexp x).1.val := by exact_mod_cast f3
    norm_num at this ⊢; linarith
  have hlog : ((frexp x).2 : ℝ) * log 2 + log (frexp x).1.val = log x.val := by
    rw [← f2]; push_cast
    rw [log_mul hpos.ne' (by rw [pow2_real]; positivity), log_pow2]; ring
  by_cases hc : (frexp x).1.val < 6369051672525773 / 9007199254740992
  · simp only [hc, decide_true, if_true]
    obtain ⟨m1, m2⟩ := double_exact f1 f3 f4
    have hlog2 : (((frexp x).2 - 1 : Int) : ℝ) * log 2 + log (mul (frexp x).1 (lit f64 2)).val = log x.val := by
      rw [m2, ← hlog]; push_cast
      rw [log_mul hpos.ne' (by norm_num)]; ring
    have := logcore_tr hT (f1 := mul (frexp x).1 (lit f64 2)) (k := (frexp x).2 - 1) m1 (by
        rw [m2]
        have : ((1 / 2 : ℚ) : ℝ) ≤ (frexp x).1.val := by exact_mod_cast f3
        push_cast
        norm_num at this ⊢; linarith) (by
        rw [m2]
        have : ((frexp x).1.val : ℝ) < ((6369051672525773 / 9007199254740992 : ℚ) : ℝ) := by exact_mod_cast hc
        push_cast
        norm_num at this ⊢; linarith) (by rw [abs_le]; omega)
    rwa [hlog2] at this
  · simp only [hc, decide_false, Bool.false_eq_true, if_false]
    have := logcore_tr hT (f1 := (frexp x).1) (k := (frexp x).2) f1 (by
        have : ((6369051672525773 / 9007199254740992 : ℚ) : ℝ) ≤ (frexp x).1.val := by exact_mod_cast _root_.not_lt.mp hc
        norm_num at this ⊢; linarith) (by
        have : ((frexp x).1.val : ℝ) < ((1 : ℚ) : ℝ) := by exact_mod_cast f4
        norm_num at this ⊢; linarith) (by rw [abs_le]; omega)
    rwa [hlog] at this

end
end Radolan.Elem
