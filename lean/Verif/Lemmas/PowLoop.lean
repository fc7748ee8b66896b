/- The code of Model/Pow.lean: errors, measured by the logarithm. -/
import Verif.Lemmas.FloatLog
import Verif.Lemmas.LnConst
import Verif.Lemmas.FloatOrder
import Mathlib.Tactic.IntervalCases

namespace Radolan.Pow
open Go Go.Fl Real

/-- logarithm to relative error -/
theorem rel_of_log' {v t δ : ℝ} (hv : 0 < v) (ht : 0 < t) (h : |log v - log t| ≤ δ) (hd : δ ≤ 1 / 1000) :
    |v - t| ≤ t * (δ * (1001 / 1000)) := by
  have h0 : |log v - log t| ≤ 1 := h.trans (hd.trans (by norm_num))
  have h1 := Real.abs_exp_sub_one_sub_id_le h0
  have e : v - t = t * (exp (log v - log t) - 1) := by
    rw [exp_sub, exp_log hv, exp_log ht]; field_simp
  rw [e, abs_mul, abs_of_pos ht]
  refine mul_le_mul_of_nonneg_left ?_ ht.le
  have h2 : |exp (log v - log t) - 1| ≤ |exp (log v - log t) - 1 - (log v - log t)| + |log v - log t| := by
    have := abs_add_le (exp (log v - log t) - 1 - (log v - log t)) (log v - log t)
    simpa using this
  have h3 : (log v - log t) ^ 2 ≤ δ * (1 / 1000) := by
    rw [← sq_abs, sq]
    exact mul_le_mul h (h.trans hd) (abs_nonneg _) ((abs_nonneg _).trans h)
  linarith

theorem log_two : 693 / 1000 ≤ log 2 ∧ log 2 ≤ 694 / 1000 := by
  have := Real.log_two_gt_d9
  have := Real.log_two_lt_d9
  constructor <;> norm_num at * <;> linarith

/-- a positive float -/
theorem fin_of_pos {x : F64} (h : (0 : ℝ) < x.val) : ∃ q hq, x = .fin q hq ∧ 0 < q := by
  have h' : (0 : ℚ) < x.val := by exact_mod_cast h
  cases x with
  | fin q hq => exact ⟨q, hq, rfl, h'⟩
  | _ => simp [val] at h'

theorem log_pow2 (e : Int) : log ((pow2 e : ℚ) : ℝ) = e * log 2 := by
  rw [pow2_real, log_zpow]

/-- rounding keeps numbers between powers of two -/
theorem mk_between {b : Bool} {q : ℚ} {e f : Int} (he : f64.emin ≤ e) (hf : f64.emin ≤ f) (hf2 : f < f64.emax) (h1 : pow2 e ≤ q) (h2 : q ≤ pow2 f) :
    (mk f64 b q).isFin = true ∧ pow2 e ≤ (mk f64 b q).val ∧ (mk f64 b q).val ≤ pow2 f := by
  have h0 : 0 < q := lt_of_lt_of_le (pow2_pos _) h1
  have r1 := pow2_le_rnd f64 he h1
  have r2 := rnd_le_pow2 f64 h0 hf h2
  have hfin : |rnd f64 q| < pow2 f64.emax := by
    rw [abs_of_nonneg ((pow2_pos _).le.trans r1)]
    exact lt_of_le_of_lt r2 (pow2_lt.mpr hf2)
  obtain ⟨a, b'⟩ := mk_fin (b := b) hfin
  exact ⟨a, by rw [b']; exact r1, by rw [b']; exact r2⟩

/-- `math.Frexp` of a positive number of moderate size -/
theorem frexp_log {x : F64} (hx : (0 : ℝ) < x.val) (hr : |log (x.val : ℝ)| ≤ 100) :
    (frexp x).1.isFin = true ∧ 1 / 2 ≤ (frexp x).1.val ∧ (frexp x).1.val ≤ 1 ∧ (frexp x).2 = ilog2 x.val + 1 ∧
    |log ((frexp x).1.val : ℝ) + (frexp x).2 * log 2 - log x.val| ≤ 13 / 10 ^ 17 := by
  obtain ⟨q, hq, rfl, h0⟩ := fin_of_pos hx
  change |log (q : ℝ)| ≤ 100 at hr
  change (0 : ℝ) < q at hx
  have hfe : frexp (.fin q hq) = (mk f64 (sign (.fin q hq)) (q * pow2 (-(ilog2 q + 1))), ilog2 q + 1) := by
    unfold frexp
    simp only []
    rw [if_neg h0.ne', abs_of_pos h0]
  obtain ⟨s1, s2⟩ := ilog2_spec h0
  have e1 : pow2 (-1) ≤ q * pow2 (-(ilog2 q + 1)) := by
    have := mul_le_mul_of_nonneg_right s1 (pow2_pos (-(ilog2 q + 1))).le
    rwa [← pow2_add, show ilog2 q + -(ilog2 q + 1) = -1 by omega] at this
  have e2 : q * pow2 (-(ilog2 q + 1)) ≤ pow2 0 := by
    have := mul_le_mul_of_nonneg_right s2.le (pow2_pos (-(ilog2 q + 1))).le
    rwa [← pow2_add, show ilog2 q + 1 + -(ilog2 q + 1) = 0 by omega] at this
  obtain ⟨m1, m2, m3⟩ := mk_between (b := sign (.fin q hq)) (by decide) (by decide) (by decide) e1 e2
  have hp1 : pow2 (-1) = 1 / 2 := by decide +kernel
  have hp0 : pow2 0 = 1 := by decide
  rw [hfe]
  simp only []
  refine ⟨m1, by rw [← hp1]; exact m2, by rw [← hp0]; exact m3, rfl, ?_⟩
  have hpos : (0 : ℝ) < ((q * pow2 (-(ilog2 q + 1)) : ℚ) : ℝ) := by exact_mod_cast lt_of_lt_of_le (pow2_pos _) e1
  have hlog : log (((q * pow2 (-(ilog2 q + 1)) : ℚ)) : ℝ) = log q - (ilog2 q + 1 : Int) * log 2 := by
    have hp : (0 : ℝ) < ((pow2 (-(ilog2 q + 1)) : ℚ) : ℝ) := by exact_mod_cast pow2_pos _
    push_cast
    rw [log_mul hx.ne' hp.ne', log_pow2]
    push_cast; ring
  have hb : |log (((q * pow2 (-(ilog2 q + 1)) : ℚ)) : ℝ)| ≤ 120 := by
    have hle : log (((q * pow2 (-(ilog2 q + 1)) : ℚ)) : ℝ) ≤ 0 := by
      apply log_nonpos hpos.le
      have := e2; rw [hp0] at this
      exact_mod_cast this
    have hge : - log 2 ≤ log (((q * pow2 (-(ilog2 q + 1)) : ℚ)) : ℝ) := by
      rw [← log_inv]
      apply log_le_log (by norm_num)
      have := e1; rw [hp1] at this
      have h3 : ((1 / 2 : ℚ) : ℝ) ≤ ((q * pow2 (-(ilog2 q + 1)) : ℚ) : ℝ) := by exact_mod_cast this
      norm_num at h3 ⊢; exact h3
    rw [abs_le]; constructor <;> linarith [log_two.2]
  have key := (mk_log (b := sign (.fin q hq)) hpos hb).2.2
  rw [hlog] at key
  have e : ∀ a b c : ℝ, a + b - c = a - (c - b) := by intros; ring
  rw [e]
  exact key

theorem log_half {v : ℚ} (h1 : 1 / 2 ≤ v) (h2 : v ≤ 1) : |log (v : ℝ)| ≤ 694 / 1000 := by
  have v1 : (1 / 2 : ℝ) ≤ v := by have : ((1 / 2 : ℚ) : ℝ) ≤ v := by exact_mod_cast h1
                                  norm_num at this ⊢; exact this
  have v2 : (v : ℝ) ≤ 1 := by exact_mod_cast h2
  have hle : log (v : ℝ) ≤ 0 := log_nonpos (by linarith) v2
  have hge : - log 2 ≤ log (v : ℝ) := by
    rw [← log_inv]
    apply log_le_log (by norm_num)
    norm_num at v1 ⊢; exact v1
  rw [abs_le]; constructor <;> linarith [log_two.2]

theorem half_const : (lit f64 (1 / 2)).isFin = true ∧ (lit f64 (1 / 2)).val = 1 / 2 := by decide +kernel

/-- the loop -/
theorem powLoop_log : ∀ (n i : Nat) {x1 a1 : F64} {xe ae : Int} {lx la δ ε C : ℝ}, i < 2 ^ n → x1.isFin = true →
    1 / 2 ≤ x1.val → x1.val ≤ 1 → |log (x1.val : ℝ) + xe * log 2 - lx| ≤ δ → a1.isFin = true → (0 : ℝ) < a1.val →
    |log (a1.val : ℝ) + ae * log 2 - la| ≤ ε → |log (a1.val : ℝ)| ≤ C → C + n ≤ 20 → (|xe| + 1) * 2 ^ n ≤ 2 ^ 12 →
    let r := powLoop i x1 xe a1 ae
    r.1.isFin = true ∧ (0 : ℝ) < r.1.val ∧ |log (r.1.val : ℝ)| ≤ C + n ∧
      |log (r.1.val : ℝ) + r.2 * log 2 - (la + i * lx)| ≤ ε + i * (δ + 26 / 10 ^ 17) := by
  intro n
  induction n with
  | zero =>
    intro i x1 a1 xe ae lx la δ ε C hi _ _ _ _ ha ha0 hla hC _ _
    obtain rfl : i = 0 := by omega
    rw [powLoop, if_pos rfl]
    refine ⟨ha, ha0, by simpa using hC, ?_⟩
    simpa using hla
  | succ n ih =>
    intro i x1 a1 xe ae lx la δ ε C hi hx h1 h2 hlx ha ha0 hla hC hC2 hxe
    have hδ : 0 ≤ δ := (abs_nonneg _).trans hlx
    have hε : 0 ≤ ε := (abs_nonneg _).trans hla
    have hC0 : 0 ≤ C := (abs_nonneg _).trans hC
    push_cast at hC2
    rw [powLoop]
    by_cases hi0 : i = 0
    · rw [if_pos hi0]
      subst hi0
      refine ⟨ha, ha0, ?_, by simpa using hla⟩
      have : (0 : ℝ) ≤ ((n + 1 : ℕ) : ℝ) := by positivity
      linarith
    rw [if_neg hi0]
    have hxe' : ¬ (xe < -(2 ^ 12) ∨ 2 ^ 12 < xe) := by
      have h3 : |xe| + 1 ≤ (|xe| + 1) * 2 ^ (n + 1) :=
        le_mul_of_one_le_right (by positivity) (one_le_pow₀ (by norm_num))
      have h4 := h3.trans hxe
      have h5 := abs_le.mp (show |xe| ≤ 2 ^ 12 by omega)
      omega
    rw [if_neg hxe']
    -- the product
    have hx0 : (0 : ℝ) < x1.val := by
      have : (0 : ℚ) < x1.val := by linarith
      exact_mod_cast this
    have lx1 := log_half h1 h2
    obtain ⟨p1, p2, p3⟩ := mul_log (t := 13 / 10 ^ 17) (⟨ha, ha0, by simp⟩ : LogAp a1 (log a1.val) 0)
      (⟨hx, hx0, by simp⟩ : LogAp x1 (log x1.val) 0)
      (by have := abs_add_le (log (a1.val : ℝ)) (log x1.val)
          have hn : (0 : ℝ) ≤ n := by positivity
          linarith) (by norm_num)
    have na : ∃ a' ae' ε', (if i % 2 = 1 then Fl.mul a1 x1 else a1) = a' ∧ (if i % 2 = 1 then ae + xe else ae) = ae' ∧
        a'.isFin = true ∧ (0 : ℝ) < a'.val ∧ |log (a'.val : ℝ) + ae' * log 2 - (la + (i % 2 : Nat) * lx)| ≤ ε' ∧
        |log (a'.val : ℝ)| ≤ C + 1 ∧ ε' ≤ ε + (i % 2 : Nat) * (δ + 13 / 10 ^ 17) := by
      by_cases ho : i % 2 = 1
      · refine ⟨_, _, _, if_pos ho, if_pos ho, p1, p2, (le_refl _), ?_, ?_⟩
        · have e : log ((Fl.mul a1 x1).val : ℝ) = (log ((Fl.mul a1 x1).val : ℝ) - (log a1.val + log x1.val)) + (log a1.val + log x1.val) := by
            ring
          rw [e]
          refine (abs_add_le _ _).trans ?_
          have := abs_add_le (log (a1.val : ℝ)) (log x1.val)
          norm_num at p3 ⊢; linarith
        · rw [ho]
          have e : log ((Fl.mul a1 x1).val : ℝ) + (ae + xe : Int) * log 2 - (la + (1 : Nat) * lx) =
              (log ((Fl.mul a1 x1).val : ℝ) - (log a1.val + log x1.val)) + ((log a1.val + ae * log 2 - la) +
              (log x1.val + xe * log 2 - lx)) := by push_cast; ring
          rw [e]
          refine (abs_add_le _ _).trans ?_
          have := abs_add_le (log (a1.val : ℝ) + ae * log 2 - la) (log x1.val + xe * log 2 - lx)
          push_cast; linarith
      · have ho : i % 2 = 0 := by omega
        refine ⟨a1, ae, ε, if_neg (by omega), if_neg (by omega), ha, ha0, ?_, by linarith, ?_⟩
        · rw [ho]; simpa using hla
        · rw [ho]; simp
    obtain ⟨a', ae', ε', ea, eae, q1, q2, q3, q4, q5⟩ := na
    simp only [ea, eae]
    -- the square
    obtain ⟨s1, s2, s3⟩ := mul_log (t := 13 / 10 ^ 17) (⟨hx, hx0, by simp⟩ : LogAp x1 (log x1.val) 0)
      (⟨hx, hx0, by simp⟩ : LogAp x1 (log x1.val) 0)
      (by have := abs_add_le (log (x1.val : ℝ)) (log x1.val); linarith) (by norm_num)
    have hsq := mk_between (b := x1.sign ^^ x1.sign) (q := x1.val * x1.val) (e := -2) (f := 0) (by decide) (by decide) (by decide)
      (by rw [show pow2 (-2) = 1 / 4 by decide +kernel]; nlinarith) (by rw [show pow2 0 = 1 by decide]; nlinarith)
    rw [← mul_fin hx hx] at hsq
    set sq := Fl.mul x1 x1 with hsqdef
    have hsqe : |log (sq.val : ℝ) + (2 * xe : Int) * log 2 - 2 * lx| ≤ 2 * δ + 13 / 10 ^ 17 := by
      have e : log (sq.val : ℝ) + (2 * xe : Int) * log 2 - 2 * lx =
          (log (sq.val : ℝ) - (log x1.val + log x1.val)) + 2 * (log x1.val + xe * log 2 - lx) := by push_cast; ring
      rw [e]
      refine (abs_add_le _ _).trans ?_
      rw [abs_mul, abs_of_pos (by norm_num : (0 : ℝ) < 2)]
      linarith
    have hi2 : i / 2 < 2 ^ n := by rw [pow_succ] at hi; omega
    have hcount : ((i : ℕ) : ℝ) = (i % 2 : Nat) + 2 * (i / 2 : Nat) := by
      exact_mod_cast (Nat.mod_add_div i 2).symm
    have fin : ∀ {y1 : F64} {ye : Int}, y1.isFin = true → 1 / 2 ≤ y1.val → y1.val ≤ 1 →
        |log (y1.val : ℝ) + ye * log 2 - 2 * lx| ≤ 2 * δ + 26 / 10 ^ 17 → |ye| ≤ 2 * |xe| + 1 →
        let r := powLoop (i / 2) y1 ye a' ae'
        r.1.isFin = true ∧ (0 : ℝ) < r.1.val ∧ |log (r.1.val : ℝ)| ≤ C + (n + 1 : ℕ) ∧
          |log (r.1.val : ℝ) + r.2 * log 2 - (la + i * lx)| ≤ ε + i * (δ + 26 / 10 ^ 17) := by
      intro y1 ye y1f y1a y1b y1c y1d r
      have := ih (i / 2) hi2 y1f y1a y1b y1c q1 q2 q3 q4 (by linarith) (by
        refine _root_.le_trans ?_ hxe
        rw [pow_succ]
        have h0 : (0 : Int) < 2 ^ n := by positivity
        nlinarith)
      obtain ⟨r1, r2, r3, r4⟩ := this
      refine ⟨r1, r2, by push_cast at r3 ⊢; linarith, ?_⟩
      have e : la + (i : ℝ) * lx = la + (i % 2 : Nat) * lx + (i / 2 : Nat) * (2 * lx) := by rw [hcount]; ring
      rw [e]
      refine r4.trans ?_
      rw [hcount]
      have hm : (0 : ℝ) ≤ ((i % 2 : Nat) : ℝ) := by positivity
      have hd : (0 : ℝ) ≤ ((i / 2 : Nat) : ℝ) := by positivity
      nlinarith
    by_cases hlt : Fl.lt sq (lit f64 (1 / 2)) = true
    · rw [if_pos hlt]
      rw [lt_fin hsq.1 half_const.1, half_const.2, decide_eq_true_iff] at hlt
      have hd := mk_between (b := sq.sign && sq.sign) (q := sq.val + sq.val) (e := -1) (f := 0) (by decide) (by decide) (by decide)
        (by have := hsq.2.1; rw [show pow2 (-2) = 1 / 4 by decide +kernel] at this; rw [show pow2 (-1) = 1 / 2 by decide +kernel]; linarith)
        (by rw [show pow2 0 = 1 by decide]; linarith)
      rw [show pow2 (-1) = 1 / 2 by decide +kernel, show pow2 0 = 1 by decide] at hd
      have hpos : (0 : ℝ) < ((sq.val + sq.val : ℚ) : ℝ) := by push_cast; linarith
      have hl2 : log ((sq.val + sq.val : ℚ) : ℝ) = log 2 + log sq.val := by
        push_cast; rw [← two_mul, log_mul (by norm_num) s2.ne']
      have hlb : |log ((sq.val + sq.val : ℚ) : ℝ)| ≤ 120 := by
        rw [hl2]
        have h3 := abs_le.mp s3
        have h4 := abs_le.mp lx1
        rw [abs_le]; norm_num at h3 h4 ⊢; constructor <;> linarith [log_two.1, log_two.2, h3.1, h3.2, h4.1, h4.2]
      have hml := (mk_log (b := sq.sign && sq.sign) hpos hlb).2.2
      rw [← add_fin hsq.1 hsq.1] at hd hml
      refine fin hd.1 hd.2.1 hd.2.2 ?_ ?_
      · have e : log ((Fl.add sq sq).val : ℝ) + (2 * xe - 1 : Int) * log 2 - 2 * lx =
            (log ((Fl.add sq sq).val : ℝ) - log ((sq.val + sq.val : ℚ) : ℝ)) + (log (sq.val : ℝ) + (2 * xe : Int) * log 2 - 2 * lx) := by
          rw [hl2]; push_cast; ring
        rw [e]
        refine (abs_add_le _ _).trans ?_
        linarith
      · have := abs_sub (2 * xe) 1
        rw [abs_mul] at this
        simpa using this
    · rw [if_neg hlt]
      have hlt : ¬ sq.val < 1 / 2 := by
        rw [lt_fin hsq.1 half_const.1, half_const.2, decide_eq_true_iff] at hlt; exact hlt
      refine fin hsq.1 (_root_.not_lt.mp hlt) (by have := hsq.2.2; rw [show pow2 0 = 1 by decide] at this; exact this) ?_ ?_
      · linarith
      · rw [abs_mul]; simp

end Radolan.Pow
