/-
Where the border of Germany lies in the plane: bounds from monotonicity and a few enclosures.
-/
import Verif.Lemmas.BorderPoints
import Verif.Lemmas.RefPoints
import Verif.Model.Border

namespace Radolan.Num
open Real

/-! ### monotonicity of the projection -/

theorem sin_rads_mono {a b : ℝ} (h1 : -90 ≤ a) (h : a ≤ b) (h2 : b ≤ 90) : sin (rads a) ≤ sin (rads b) := by
  apply sin_le_sin_of_le_of_le_pi_div_two
  · unfold rads; nlinarith [pi_pos]
  · unfold rads; nlinarith [pi_pos]
  · exact rads_strictMono.monotone h

theorem cos_rads_anti {a b : ℝ} (h : |a| ≤ b) (h2 : b ≤ 90) : cos (rads b) ≤ cos (rads a) := by
  have h0 : 0 ≤ b := (abs_nonneg a).trans h
  have e : |rads a| = rads |a| := by
    unfold rads; rw [abs_mul, abs_of_pos (by positivity : (0 : ℝ) < π / 180)]
  rw [← cos_abs (rads a), e]
  apply cos_le_cos_of_nonneg_of_le_pi
  · unfold rads; positivity
  · unfold rads; nlinarith [pi_pos]
  · exact rads_strictMono.monotone h

theorem cos_rads_nonneg {a : ℝ} (h : |a| ≤ 90) : 0 ≤ cos (rads a) := by
  have h' := abs_le.mp h
  apply cos_nonneg_of_neg_pi_div_two_le_of_le
  · unfold rads; nlinarith [pi_pos]
  · unfold rads; nlinarith [pi_pos]

theorem radius_le (format : Int) {a b : ℝ} (h1 : -90 < a) (h : a ≤ b) (h2 : b < 90) :
    radius format b ≤ radius format a := by
  rcases eq_or_lt_of_le h with rfl | h
  · exact le_refl _
  · exact (radius_anti format h1 h h2).le

/-- points north of `N` and west of `E` are left of (N, E) -/
theorem x_le (format : Int) {n e N E : ℝ} (h1 : -90 < N) (h2 : N ≤ n) (h3 : n < 90) (h4 : -80 ≤ e) (h5 : e ≤ E)
    (h6 : 10 ≤ E) (h7 : E ≤ 100) :
    (planeXY realArith format n e).1 ≤ (planeXY realArith format N E).1 := by
  rw [planeXY_real format (by linarith) h3, planeXY_real format h1 (by linarith)]
  have r1 := radius_le format h1 h2 h3
  have r0 := radius_pos format (north := n) (by linarith) h3
  have s1 := sin_rads_mono (a := e - 10) (b := E - 10) (by linarith) (by linarith) (by linarith)
  have s0 : 0 ≤ sin (rads (E - 10)) := by
    have := sin_rads_mono (a := 0) (b := E - 10) (by norm_num) (by linarith) (by linarith)
    simpa [rads] using this
  have := mul_le_mul_of_nonneg_left s1 r0.le
  have := mul_le_mul_of_nonneg_right r1 s0
  simp only
  linarith

/-- points north of `N` and east of `E` are right of (N, E) -/
theorem le_x (format : Int) {n e N E : ℝ} (h1 : -90 < N) (h2 : N ≤ n) (h3 : n < 90) (h4 : e ≤ 100) (h5 : E ≤ e)
    (h6 : E ≤ 10) (h7 : -80 ≤ E) :
    (planeXY realArith format N E).1 ≤ (planeXY realArith format n e).1 := by
  rw [planeXY_real format (by linarith) h3, planeXY_real format h1 (by linarith)]
  have r1 := radius_le format h1 h2 h3
  have r0 := radius_pos format (north := n) (by linarith) h3
  have s1 := sin_rads_mono (a := E - 10) (b := e - 10) (by linarith) (by linarith) (by linarith)
  have s0 : sin (rads (E - 10)) ≤ 0 := by
    have := sin_rads_mono (a := E - 10) (b := 0) (by linarith) (by linarith) (by norm_num)
    simpa [rads] using this
  have := mul_le_mul_of_nonneg_left s1 r0.le
  have := mul_le_mul_of_nonpos_right r1 s0
  simp only
  linarith

/-- points north of `N` are above (N, 10) -/
theorem y_le (format : Int) {n e N : ℝ} (h1 : -90 < N) (h2 : N ≤ n) (h3 : n < 90) :
    (planeXY realArith format n e).2 ≤ (planeXY realArith format N 10).2 := by
  rw [planeXY_real format (by linarith) h3, planeXY_real format h1 (by linarith)]
  have r1 := radius_le format h1 h2 h3
  have r0 := radius_pos format (north := n) (by linarith) h3
  have s1 := cos_le_one (rads (e - 10))
  have s0 : cos (rads (10 - 10)) = 1 := by simp [rads]
  have := mul_le_mul_of_nonneg_left s1 r0.le
  simp only [s0]
  linarith

/-- points south of `N` and no farther from 10 degrees east than `E` are below (N, E) -/
theorem le_y (format : Int) {n e N E : ℝ} (h1 : -90 < n) (h2 : n ≤ N) (h3 : N < 90) (h4 : |e - 10| ≤ E - 10) (h5 : E ≤ 100) :
    (planeXY realArith format N E).2 ≤ (planeXY realArith format n e).2 := by
  rw [planeXY_real format h1 (by linarith), planeXY_real format (by linarith) h3]
  have r1 := radius_le format h1 h2 h3
  have r0 := radius_pos format (north := n) h1 (by linarith)
  have s1 := cos_rads_anti h4 (by linarith)
  have s0 := cos_rads_nonneg (a := E - 10) (by rw [abs_of_nonneg ((abs_nonneg _).trans h4)]; linarith)
  have := mul_le_mul_of_nonneg_left s1 r0.le
  have := mul_le_mul_of_nonneg_right r1 s0
  simp only
  linarith

/-! ### the table -/

/-- a test of a pair of the table, in millionths of a degree -/
def tableTest (p : Nat × Nat) : Bool :=
  decide (47270000 ≤ p.1) && decide (p.1 ≤ 54970000) && decide (4960000 ≤ p.2) && decide (p.2 ≤ 15040000) &&
  (decide (50600000 ≤ p.1) || decide (p.2 ≤ 14000000)) &&
  (decide (p.1 ≤ 54850000) || (decide (7900000 ≤ p.2) && decide (p.2 ≤ 12100000))) &&
  (decide (p.1 ≤ 54770000) || (decide (8260000 ≤ p.2) && decide (p.2 ≤ 11740000)))

theorem table_all : Cli.borderTable.all tableTest = true := by decide +kernel

theorem table_length : Cli.borderTable.length = 12492 := by decide +kernel

/-- what is used about the coordinates (degrees) of a border point -/
structure Near (n e : ℝ) : Prop where
  hs : 47.27 ≤ n
  hn : n ≤ 54.97
  hw : 4.96 ≤ e
  he : e ≤ 15.04
  he1 : 50.6 ≤ n ∨ e ≤ 14
  hn1 : n ≤ 54.85 ∨ |e - 10| ≤ 12.1 - 10
  hn3 : n ≤ 54.77 ∨ |e - 10| ≤ 11.74 - 10

theorem near_of_mem {p : Nat × Nat} (h : p ∈ Cli.borderTable) : Near (p.1 / 10 ^ 6) (p.2 / 10 ^ 6) := by
  have ht := List.all_eq_true.mp table_all p h
  simp only [tableTest, Bool.and_eq_true, Bool.or_eq_true, decide_eq_true_eq] at ht
  obtain ⟨⟨⟨⟨⟨⟨a1, a2⟩, a3⟩, a4⟩, a5⟩, a6⟩, a7⟩ := ht
  have lo : ∀ {k x : Nat}, k ≤ x → (k : ℝ) / 10 ^ 6 ≤ (x : ℝ) / 10 ^ 6 := by
    intro k x hk
    apply div_le_div_of_nonneg_right _ (by norm_num)
    exact_mod_cast hk
  constructor
  · have := lo a1; norm_num at this ⊢; linarith
  · have := lo a2; norm_num at this ⊢; linarith
  · have := lo a3; norm_num at this ⊢; linarith
  · have := lo a4; norm_num at this ⊢; linarith
  · rcases a5 with a | a
    · left; have := lo a; norm_num at this ⊢; linarith
    · right; have := lo a; norm_num at this ⊢; linarith
  · rcases a6 with a | ⟨a, b⟩
    · left; have := lo a; norm_num at this ⊢; linarith
    · right; have h1 := lo a; have h2 := lo b; rw [abs_le]; norm_num at h1 h2 ⊢; constructor <;> linarith
  · rcases a7 with a | ⟨a, b⟩
    · left; have := lo a; norm_num at this ⊢; linarith
    · right; have h1 := lo a; have h2 := lo b; rw [abs_le]; norm_num at h1 h2 ⊢; constructor <;> linarith

/-! ### bounds in the plane (km) -/

/-- the spherical projection -/
theorem box_sphere {format : Int} (hf : ¬ 5 ≤ format) {n e : ℝ} (h : Near n e) :
    -409 ≤ (planeXY realArith format n e).1 ∧ (planeXY realArith format n e).1 ≤ 409 ∧
    3736 ≤ (planeXY realArith format n e).2 ∧ (planeXY realArith format n e).2 ≤ 4651 := by
  have h1 := le_x format (N := 47.27) (E := 4.96) (by norm_num) h.hs (by linarith [h.hn]) (by linarith [h.he]) h.hw (by norm_num) (by norm_num)
  have h2 := x_le format (N := 47.27) (E := 15.04) (by norm_num) h.hs (by linarith [h.hn]) (by linarith [h.hw]) h.he (by norm_num) (by norm_num)
  have h3 := le_y format (n := n) (e := e) (N := 54.97) (E := 15.04) (by linarith [h.hs]) h.hn (by norm_num)
    (by rw [abs_le]; constructor <;> linarith [h.hw, h.he]) (by norm_num)
  have h4 := y_le format (e := e) (N := 47.27) (by norm_num) h.hs (by linarith [h.hn])
  have k1 := abs_le.mp (bs_w hf).1
  have k2 := abs_le.mp (bs_e hf).1
  have k3 := abs_le.mp (bs_n hf).2
  have k4 := abs_le.mp (bs_s hf).2
  refine ⟨?_, ?_, ?_, ?_⟩
  · refine le_trans ?_ h1; norm_num at k1 ⊢; linarith [k1.1]
  · refine h2.trans ?_; norm_num at k2 ⊢; linarith [k2.2]
  · refine le_trans ?_ h3; norm_num at k3 ⊢; linarith [k3.1]
  · refine h4.trans ?_; norm_num at k4 ⊢; linarith [k4.2]

/-- the eastern edge, more precisely -/
theorem box_east {format : Int} (hf : ¬ 5 ≤ format) {n e : ℝ} (h : Near n e) : (planeXY realArith format n e).1 ≤ 374 := by
  rcases h.he1 with h1 | h1
  · have h2 := x_le format (N := 50.6) (E := 15.04) (by norm_num) h1 (by linarith [h.hn]) (by linarith [h.hw]) h.he (by norm_num) (by norm_num)
    have k2 := abs_le.mp (bs_e1 hf).1
    refine h2.trans ?_; norm_num at k2 ⊢; linarith [k2.2]
  · have h2 := x_le format (N := 47.27) (E := 14) (by norm_num) h.hs (by linarith [h.hn]) (by linarith [h.hw]) h1 (by norm_num) (by norm_num)
    have k2 := abs_le.mp (bs_e2 hf).1
    refine h2.trans ?_; norm_num at k2 ⊢; linarith [k2.2]

/-- the northern edge, more precisely -/
theorem box_north {format : Int} (hf : ¬ 5 ≤ format) {n e : ℝ} (h : Near n e) : 3748.74 ≤ (planeXY realArith format n e).2 := by
  rcases h.hn1 with h1 | h1
  · have h3 := le_y format (n := n) (e := e) (N := 54.85) (E := 15.04) (by linarith [h.hs]) h1 (by norm_num)
      (by rw [abs_le]; constructor <;> linarith [h.hw, h.he]) (by norm_num)
    have k3 := abs_le.mp (bs_n2 hf).2
    refine le_trans ?_ h3; norm_num at k3 ⊢; linarith [k3.1]
  · have h3 := le_y format (n := n) (e := e) (N := 54.97) (E := 12.1) (by linarith [h.hs]) h.hn (by norm_num) h1 (by norm_num)
    have k3 := abs_le.mp (bs_n1 hf).2
    refine le_trans ?_ h3; norm_num at k3 ⊢; linarith [k3.1]

/-- the northern edge without the northern tip -/
theorem box_tip {format : Int} (hf : ¬ 5 ≤ format) {n e : ℝ} (h : Near n e) (ht : n ≤ 54.89) :
    3758.66 ≤ (planeXY realArith format n e).2 := by
  rcases h.hn3 with h1 | h1
  · have h3 := le_y format (n := n) (e := e) (N := 54.77) (E := 15.04) (by linarith [h.hs]) h1 (by norm_num)
      (by rw [abs_le]; constructor <;> linarith [h.hw, h.he]) (by norm_num)
    have k3 := abs_le.mp (bs_n4 hf).2
    refine le_trans ?_ h3; norm_num at k3 ⊢; linarith [k3.1]
  · have h3 := le_y format (n := n) (e := e) (N := 54.89) (E := 11.74) (by linarith [h.hs]) ht (by norm_num) h1 (by norm_num)
    have k3 := abs_le.mp (bs_n3 hf).2
    refine le_trans ?_ h3; norm_num at k3 ⊢; linarith [k3.1]

/-- the WGS84 projection -/
theorem box_wgs {format : Int} (hf : 5 ≤ format) {n e : ℝ} (h : Near n e) :
    133 ≤ (planeXY realArith format n e).1 ∧ (planeXY realArith format n e).1 ≤ 953 ∧
    127 ≤ (planeXY realArith format n e).2 ∧ (planeXY realArith format n e).2 ≤ 1041 := by
  have h1 := le_x format (N := 47.27) (E := 4.96) (by norm_num) h.hs (by linarith [h.hn]) (by linarith [h.he]) h.hw (by norm_num) (by norm_num)
  have h2 := x_le format (N := 47.27) (E := 15.04) (by norm_num) h.hs (by linarith [h.hn]) (by linarith [h.hw]) h.he (by norm_num) (by norm_num)
  have h3 := le_y format (n := n) (e := e) (N := 54.97) (E := 15.04) (by linarith [h.hs]) h.hn (by norm_num)
    (by rw [abs_le]; constructor <;> linarith [h.hw, h.he]) (by norm_num)
  have h4 := y_le format (e := e) (N := 47.27) (by norm_num) h.hs (by linarith [h.hn])
  have k1 := abs_le.mp (bw_w hf).1
  have k2 := abs_le.mp (bw_e hf).1
  have k3 := abs_le.mp (bw_n hf).2
  have k4 := abs_le.mp (bw_s hf).2
  refine ⟨?_, ?_, ?_, ?_⟩
  · refine le_trans ?_ h1; norm_num at k1 ⊢; linarith [k1.1]
  · refine h2.trans ?_; norm_num at k2 ⊢; linarith [k2.2]
  · refine le_trans ?_ h3; norm_num at k3 ⊢; linarith [k3.1]
  · refine h4.trans ?_; norm_num at k4 ⊢; linarith [k4.2]

end Radolan.Num
