/-
C84: colours for every unit, encoding and precision.
-/
import Verif.Spec.AnyPrecision
import Verif.Props.Drawing

namespace Props
open Go Radolan Spec Radolan.Vis

/-- a raw number is a 13 bit number with sign, and decoded by its exact value -/
theorem pixel_raw {p : Content} {dBZ : Bool} {x y : Nat} {v : F32} (h : p.pixel dBZ x y = some v) :
    (p.raw x y = some none ∧ v = .nan) ∨ ∃ r, p.raw x y = some (some r) ∧ |r| ≤ 4095 ∧ v = decoded dBZ p.precision r := by
  unfold Content.pixel at h
  unfold Content.raw
  dsimp only at h ⊢
  split at h
  · rename_i hw
    rw [if_pos hw]
    split at h
    · rename_i lo hi h1 h2
      rw [h1, h2]
      simp only [Option.some.injEq] at h ⊢
      unfold pairValue at h
      split at h
      · rename_i hn
        left; exact ⟨by rw [if_pos hn], h.symm⟩
      · rename_i hn
        right
        refine ⟨_, by rw [if_neg hn], ?_, h.symm⟩
        have := lo.toNat_lt
        rw [abs_le]
        split <;> constructor <;> omega
    · simp at h
  · rename_i hw
    rw [if_neg hw]
    simp only [Option.map_eq_some_iff] at h
    obtain ⟨b, hb, hv⟩ := h
    rw [hb]
    simp only [Option.map_some, Option.some.injEq]
    unfold byteValue at hv
    split at hv
    · rename_i hn
      left; exact ⟨by rw [if_pos hn], hv.symm⟩
    · rename_i hn
      right
      have := b.toNat_lt
      refine ⟨_, by rw [if_neg hn], ?_, hv.symm⟩
      rw [abs_le]; constructor <;> omega

/-- different multiples of the unit of the last place are told apart -/
theorem gap {p r n : Int} (hr : |r| ≤ 4095) (hn : |n| ≤ 4000) (hne : (r : ℚ) * (10 : ℚ) ^ p ≠ (n : ℚ) / 10) :
    |(r : ℚ) * (10 : ℚ) ^ p| / 2 ^ 22 < |(r : ℚ) * (10 : ℚ) ^ p - n / 10| := by
  have hrq : |(r : ℚ)| ≤ 4095 := by exact_mod_cast hr
  have hnq : |(n : ℚ)| ≤ 4000 := by exact_mod_cast hn
  rcases lt_or_ge p 0 with hp | hp
  · obtain ⟨k, rfl⟩ : ∃ k : Nat, p = -(k : Int) - 1 := ⟨(-p - 1).toNat, by omega⟩
    have e : (10 : ℚ) ^ (-(k : Int) - 1) = 1 / 10 ^ k / 10 := by
      rw [zpow_sub₀ (by norm_num), zpow_neg, zpow_natCast, zpow_one, one_div]
    have hT : (0 : ℚ) < 10 ^ k := by positivity
    rw [e] at hne ⊢
    have e2 : (r : ℚ) * (1 / 10 ^ k / 10) - n / 10 = ((r - n * 10 ^ k : Int) : ℚ) * (1 / 10 ^ k / 10) := by
      push_cast; field_simp
    have hu : (0 : ℚ) < 1 / 10 ^ k / 10 := by positivity
    rw [e2, abs_mul, abs_mul, abs_of_pos hu]
    have h1 : (1 : ℚ) ≤ |((r - n * 10 ^ k : Int) : ℚ)| := by
      have : r - n * 10 ^ k ≠ 0 := by
        intro h0
        rw [h0] at e2
        simp only [Int.cast_zero, zero_mul] at e2
        exact hne (sub_eq_zero.mp e2)
      exact_mod_cast Int.one_le_abs this
    have h2 := mul_le_mul_of_nonneg_right h1 hu.le
    have h3 := mul_le_mul_of_nonneg_right hrq hu.le
    generalize (1 : ℚ) / 10 ^ k / 10 = u at *
    linarith
  · obtain ⟨k, rfl⟩ : ∃ k : Nat, p = (k : Int) := ⟨p.toNat, by omega⟩
    rw [zpow_natCast] at hne ⊢
    have e2 : (r : ℚ) * 10 ^ k - n / 10 = ((10 * (r * 10 ^ k) - n : Int) : ℚ) / 10 := by
      push_cast; ring
    have h1 : (1 : ℚ) ≤ |((10 * (r * 10 ^ k) - n : Int) : ℚ)| := by
      have : 10 * (r * 10 ^ k) - n ≠ 0 := by
        intro h0
        rw [h0] at e2
        simp only [Int.cast_zero, zero_div] at e2
        exact hne (sub_eq_zero.mp e2)
      exact_mod_cast Int.one_le_abs this
    have h4 : 1 / 10 ≤ |(r : ℚ) * 10 ^ k - n / 10| := by
      rw [e2, abs_div, abs_of_pos (by norm_num : (0 : ℚ) < 10)]; linarith
    have h5 : |(r : ℚ) * 10 ^ k| - 400 ≤ |(r : ℚ) * 10 ^ k - n / 10| := by
      have := abs_sub_abs_le_abs_sub ((r : ℚ) * 10 ^ k) (n / 10)
      rw [abs_div, abs_of_pos (by norm_num : (0 : ℚ) < 10)] at this
      linarith
    generalize |(r : ℚ) * 10 ^ k - n / 10| = D at *
    have h6 := abs_nonneg ((r : ℚ) * 10 ^ k)
    generalize |(r : ℚ) * 10 ^ k| = X at *
    rcases lt_or_ge X 400000 with hX | hX <;> linarith

theorem d_lt {p r n : Int} (h1 : -37 ≤ p) (h2 : p ≤ 34) (hr : |r| ≤ 4095) (hn : |n| ≤ 4000)
    (h : (r : ℚ) * (10 : ℚ) ^ p < n / 10) : (decoded false p r).val < n / 10 := by
  obtain ⟨_, d2⟩ := C09_accuracy h1 h2 hr
  have := gap hr hn h.ne
  rw [abs_of_neg (by linarith : (r : ℚ) * (10 : ℚ) ^ p - n / 10 < 0)] at this
  have := (abs_le.mp d2).2
  linarith

theorem d_gt {p r n : Int} (h1 : -37 ≤ p) (h2 : p ≤ 34) (hr : |r| ≤ 4095) (hn : |n| ≤ 4000)
    (h : (n : ℚ) / 10 < r * (10 : ℚ) ^ p) : (n : ℚ) / 10 < (decoded false p r).val := by
  obtain ⟨_, d2⟩ := C09_accuracy h1 h2 hr
  have := gap hr hn h.ne'
  rw [abs_of_pos (by linarith : 0 < (r : ℚ) * (10 : ℚ) ^ p - n / 10)] at this
  have := (abs_le.mp d2).1
  linarith

/-- the precisions at which a number between 1/10 and 400 can be stated -/
theorem precision_range {p r : Int} {q : ℚ} (hr : |r| ≤ 4095) (h1 : 1 / 10 ≤ |q|) (h2 : |q| ≤ 400)
    (h : (r : ℚ) * (10 : ℚ) ^ p = q) : -4 ≤ p ∧ p ≤ 2 := by
  have hrq : |(r : ℚ)| ≤ 4095 := by exact_mod_cast hr
  have hT : (0 : ℚ) < (10 : ℚ) ^ p := by positivity
  have ha : |(r : ℚ)| * (10 : ℚ) ^ p = |q| := by rw [← h, abs_mul, abs_of_pos hT]
  constructor
  · by_contra hc
    have : (10 : ℚ) ^ p ≤ (10 : ℚ) ^ (-5 : Int) := zpow_le_zpow_right₀ (by norm_num) (by omega)
    have e : (10 : ℚ) ^ (-5 : Int) = 1 / 100000 := by norm_num
    rw [e] at this
    have := mul_le_mul hrq this hT.le (by norm_num)
    linarith
  · by_contra hc
    have : (10 : ℚ) ^ (3 : Int) ≤ (10 : ℚ) ^ p := zpow_le_zpow_right₀ (by norm_num) (by omega)
    have e : (10 : ℚ) ^ (3 : Int) = 1000 := by norm_num
    rw [e] at this
    have h0 : r ≠ 0 := by
      rintro rfl
      simp only [Int.cast_zero, abs_zero, zero_mul] at ha
      linarith
    have h1 : (1 : ℚ) ≤ |(r : ℚ)| := by exact_mod_cast Int.one_le_abs h0
    have := mul_le_mul h1 this (by norm_num) (by linarith)
    linarith

theorem raw_eq {p r m : Int} {q : ℚ} (h : (r : ℚ) * (10 : ℚ) ^ p = q) (hm : (m : ℚ) * (10 : ℚ) ^ p = q) : r = m := by
  have hT : (10 : ℚ) ^ p ≠ 0 := by positivity
  have := mul_right_cancel₀ hT (h.trans hm.symm)
  exact_mod_cast this

/-- the thresholds are decoded exactly -/
theorem d_eq {p r n : Int} (hr : |r| ≤ 4095) (hn : n ∈ [(-315 : Int), -10, 10, 150, 315, 1000, 2000, 4000])
    (h : (r : ℚ) * (10 : ℚ) ^ p = n / 10) : (decoded false p r).val = n / 10 := by
  have hb : 1 / 10 ≤ |(n : ℚ) / 10| ∧ |(n : ℚ) / 10| ≤ 400 := by
    clear h; revert n; decide +kernel
  obtain ⟨p1, p2⟩ := precision_range hr hb.1 hb.2 h
  have key : ∀ p ∈ [(-4 : Int), -3, -2, -1, 0, 1, 2], ∀ n ∈ [(-315 : Int), -10, 10, 150, 315, 1000, 2000, 4000],
      ((n : ℚ) / 10 * (10 : ℚ) ^ (-p)).den = 1 → |((n : ℚ) / 10 * (10 : ℚ) ^ (-p)).num| ≤ 4095 →
      (decoded false p ((n : ℚ) / 10 * (10 : ℚ) ^ (-p)).num).val = n / 10 := by decide +kernel
  have e : (r : ℚ) = (n : ℚ) / 10 * (10 : ℚ) ^ (-p) := by
    rw [← h, mul_assoc, ← zpow_add₀ (by norm_num), add_neg_cancel, zpow_zero, mul_one]
  have := key p (by simp only [List.mem_cons, List.not_mem_nil, or_false]; omega) n hn (by rw [← e]; rfl)
    (by rw [← e]; exact hr)
  rw [← e] at this
  exact this

/-- 0.1 is decoded to a number below 0.1 exactly for the precisions -2 and -4 -/
theorem d_tenth {p r : Int} (hr : |r| ≤ 4095) (h : (r : ℚ) * (10 : ℚ) ^ p = 1 / 10) :
    1 / 10 ≤ (decoded false p r).val ↔ p ≠ -2 ∧ p ≠ -4 := by
  obtain ⟨p1, p2⟩ := precision_range hr (by norm_num) (by norm_num) h
  have key : ∀ p ∈ [(-4 : Int), -3, -2, -1, 0, 1, 2], 
      ((1 : ℚ) / 10 * (10 : ℚ) ^ (-p)).den = 1 →
      (1 / 10 ≤ (decoded false p ((1 : ℚ) / 10 * (10 : ℚ) ^ (-p)).num).val ↔ p ≠ -2 ∧ p ≠ -4) := by decide +kernel
  have e : (r : ℚ) = (1 : ℚ) / 10 * (10 : ℚ) ^ (-p) := by
    rw [← h, mul_assoc, ← zpow_add₀ (by norm_num), add_neg_cancel, zpow_zero, mul_one]
  have := key p (by simp only [List.mem_cons, List.not_mem_nil, or_false]; omega) (by rw [← e]; rfl)
  rw [← e] at this
  exact this

theorem d_zero {p r : Int} (h1 : -37 ≤ p) (h2 : p ≤ 34) (hr : |r| ≤ 4095) (h : (r : ℚ) * (10 : ℚ) ^ p = 0) :
    (decoded false p r).val = 0 := by
  obtain ⟨_, d2⟩ := C09_accuracy h1 h2 hr
  rw [h] at d2
  simpa using d2

theorem near_list {n : Int} (hn : n ∈ [(-315 : Int), -10, 0, 10, 150, 315, 1000, 2000, 4000]) : |n| ≤ 4000 := by
  revert n; decide

theorem d_le {p r n : Int} (h1 : -37 ≤ p) (h2 : p ≤ 34) (hr : |r| ≤ 4095)
    (hn : n ∈ [(-315 : Int), -10, 0, 10, 150, 315, 1000, 2000, 4000])
    (h : (r : ℚ) * (10 : ℚ) ^ p ≤ n / 10) : (decoded false p r).val ≤ n / 10 := by
  rcases h.lt_or_eq with h | h
  · exact (d_lt h1 h2 hr (near_list hn) h).le
  · by_cases h0 : n = 0
    · subst h0
      rw [d_zero h1 h2 hr (by rw [h]; norm_num)]; norm_num
    · exact (d_eq hr (by simp only [List.mem_cons, List.not_mem_nil, or_false] at hn ⊢; omega) h).le

theorem d_ge {p r n : Int} (h1 : -37 ≤ p) (h2 : p ≤ 34) (hr : |r| ≤ 4095)
    (hn : n ∈ [(-315 : Int), -10, 0, 10, 150, 315, 1000, 2000, 4000])
    (h : (n : ℚ) / 10 ≤ r * (10 : ℚ) ^ p) : (n : ℚ) / 10 ≤ (decoded false p r).val := by
  rcases h.lt_or_eq with h | h
  · exact (d_gt h1 h2 hr (near_list hn) h).le
  · by_cases h0 : n = 0
    · subst h0
      rw [d_zero h1 h2 hr (by rw [← h]; norm_num)]; norm_num
    · exact (d_eq hr (by simp only [List.mem_cons, List.not_mem_nil, or_false] at hn ⊢; omega) h.symm).ge

theorem d_close {p r : Int} (h1 : -37 ≤ p) (h2 : p ≤ 34) (hr : |r| ≤ 4095) :
    Close ((decoded false p r).val : ℝ) (r * (10 : ℚ) ^ p) := by
  have := (Rat.cast_le (K := ℝ)).mpr (C09_accuracy h1 h2 hr).2
  unfold Close
  rw [Rat.cast_div, Rat.cast_abs, Rat.cast_abs, Rat.cast_sub] at this
  push_cast at this ⊢
  exact this

/-! ### reflectivities -/

theorem x_lt {p r n : Int} {x : ℚ} (d2 : |x - (r * (10 : ℚ) ^ p / 2 - 65 / 2)| ≤ (|r * (10 : ℚ) ^ p| + 65) / 2 ^ 22) (hr : |r| ≤ 4095) (hn : n = 67 ∨ n = 215)
    (h : (r : ℚ) * (10 : ℚ) ^ p < n) : x < n / 2 - 65 / 2 := by
  have d3 := (abs_le.mp d2).2
  have hn2 : (67 : ℚ) ≤ n := by rcases hn with rfl | rfl <;> norm_num
  have hn3 : (n : ℚ) ≤ 215 := by rcases hn with rfl | rfl <;> norm_num
  have hrq : |(r : ℚ)| ≤ 4095 := by exact_mod_cast hr
  have hT : (0 : ℚ) < (10 : ℚ) ^ p := by positivity
  by_cases hp : p ≤ -2
  · have : (10 : ℚ) ^ p ≤ (10 : ℚ) ^ (-2 : Int) := zpow_le_zpow_right₀ (by norm_num) hp
    have e : (10 : ℚ) ^ (-2 : Int) = 1 / 100 := by norm_num
    rw [e] at this
    have h3 := mul_le_mul hrq this hT.le (by norm_num)
    rw [← abs_of_pos hT, ← abs_mul] at h3
    have := le_abs_self ((r : ℚ) * (10 : ℚ) ^ p)
    linarith
  have g : (1 : ℚ) / 10 ≤ n - r * (10 : ℚ) ^ p := by
    obtain ⟨k, hk⟩ : ∃ k : Nat, p = (k : Int) - 1 := ⟨(p + 1).toNat, by omega⟩
    have e : (10 : ℚ) ^ p = 10 ^ k / 10 := by
      rw [hk, zpow_sub₀ (by norm_num), zpow_natCast, zpow_one]
    rw [e] at h ⊢
    have : ((r * 10 ^ k : Int) : ℚ) < (10 * n : Int) := by push_cast; linarith
    have : r * 10 ^ k + 1 ≤ 10 * n := by exact_mod_cast this
    have : ((r * 10 ^ k + 1 : Int) : ℚ) ≤ (10 * n : Int) := by exact_mod_cast this
    push_cast at this
    linarith
  generalize (r : ℚ) * (10 : ℚ) ^ p = X at *
  rcases le_or_gt X 0 with hX | hX
  · rw [abs_of_nonpos hX] at d3; linarith
  · rw [abs_of_pos hX] at d3; linarith

theorem z_lt {p r n : Int} (h1 : -37 ≤ p) (h2 : p ≤ 34) (hr : |r| ≤ 4095) (hn : n = 67 ∨ n = 215)
    (h : (r : ℚ) * (10 : ℚ) ^ p < n) : (decoded true p r).val < n / 2 - 65 / 2 :=
  x_lt (C09_dbz_accuracy h1 h2 hr).2 hr hn h

theorem x_gt {p r n : Int} {x : ℚ} (d2 : |x - (r * (10 : ℚ) ^ p / 2 - 65 / 2)| ≤ (|r * (10 : ℚ) ^ p| + 65) / 2 ^ 22) (hr : |r| ≤ 4095) (hn : n = 67 ∨ n = 215)
    (h : (n : ℚ) < r * (10 : ℚ) ^ p) : (n : ℚ) / 2 - 65 / 2 < x := by
  have d3 := (abs_le.mp d2).1
  have hn2 : (67 : ℚ) ≤ n := by rcases hn with rfl | rfl <;> norm_num
  have hn3 : (n : ℚ) ≤ 215 := by rcases hn with rfl | rfl <;> norm_num
  have hrq : |(r : ℚ)| ≤ 4095 := by exact_mod_cast hr
  have hT : (0 : ℚ) < (10 : ℚ) ^ p := by positivity
  by_cases hp : p ≤ -2
  · exfalso
    have : (10 : ℚ) ^ p ≤ (10 : ℚ) ^ (-2 : Int) := zpow_le_zpow_right₀ (by norm_num) hp
    have e : (10 : ℚ) ^ (-2 : Int) = 1 / 100 := by norm_num
    rw [e] at this
    have h3 := mul_le_mul hrq this hT.le (by norm_num)
    rw [← abs_of_pos hT, ← abs_mul] at h3
    have := le_abs_self ((r : ℚ) * (10 : ℚ) ^ p)
    linarith
  have g : (1 : ℚ) / 10 ≤ r * (10 : ℚ) ^ p - n := by
    obtain ⟨k, hk⟩ : ∃ k : Nat, p = (k : Int) - 1 := ⟨(p + 1).toNat, by omega⟩
    have e : (10 : ℚ) ^ p = 10 ^ k / 10 := by
      rw [hk, zpow_sub₀ (by norm_num), zpow_natCast, zpow_one]
    rw [e] at h ⊢
    have : ((10 * n : Int) : ℚ) < (r * 10 ^ k : Int) := by push_cast; linarith
    have : 10 * n + 1 ≤ r * 10 ^ k := by exact_mod_cast this
    have : ((10 * n + 1 : Int) : ℚ) ≤ (r * 10 ^ k : Int) := by exact_mod_cast this
    push_cast at this
    linarith
  generalize (r : ℚ) * (10 : ℚ) ^ p = X at *
  rw [abs_of_pos (by linarith : 0 < X)] at d3
  rcases le_or_gt X 100000 with hX | hX <;> linarith

theorem z_gt {p r n : Int} (h1 : -37 ≤ p) (h2 : p ≤ 34) (hr : |r| ≤ 4095) (hn : n = 67 ∨ n = 215)
    (h : (n : ℚ) < r * (10 : ℚ) ^ p) : (n : ℚ) / 2 - 65 / 2 < (decoded true p r).val :=
  x_gt (C09_dbz_accuracy h1 h2 hr).2 hr hn h

theorem z_eq {p r n : Int} (hr : |r| ≤ 4095) (hn : n = 67 ∨ n = 215)
    (h : (r : ℚ) * (10 : ℚ) ^ p = n) : (decoded true p r).val = n / 2 - 65 / 2 := by
  have hb : 1 / 10 ≤ |(n : ℚ)| ∧ |(n : ℚ)| ≤ 400 := by
    rcases hn with rfl | rfl <;> decide +kernel
  obtain ⟨p1, p2⟩ := precision_range hr hb.1 hb.2 h
  have key : ∀ p ∈ [(-4 : Int), -3, -2, -1, 0, 1, 2], ∀ n ∈ [(67 : Int), 215],
      ((n : ℚ) * (10 : ℚ) ^ (-p)).den = 1 → |((n : ℚ) * (10 : ℚ) ^ (-p)).num| ≤ 4095 →
      (decoded true p ((n : ℚ) * (10 : ℚ) ^ (-p)).num).val = n / 2 - 65 / 2 := by decide +kernel
  have e : (r : ℚ) = (n : ℚ) * (10 : ℚ) ^ (-p) := by
    rw [← h, mul_assoc, ← zpow_add₀ (by norm_num), add_neg_cancel, zpow_zero, mul_one]
  have := key p (by simp only [List.mem_cons, List.not_mem_nil, or_false]; omega) n (by simpa using hn) (by rw [← e]; rfl)
    (by rw [← e]; exact hr)
  rw [← e] at this
  exact this

/-! ### drawing -/

/-- the colour of every pixel is the colour of the value the file states for it, except where the mesh or the borders
are drawn -/
def Colored (E : Env) (I : Impl) (border : List (F64 × F64)) (p : Content) (Color : Option ℚ → RGBA → Prop) : Prop :=
  ∃ img c, Cli.convert E I border p.serialise = .image img ∧ NewComposite E p.serialise = .ret c none ∧
    img.w = p.cols ∧ img.h = p.rows ∧
    ∀ x y : Nat, x < p.cols → y < p.rows → ∃ raw color, p.raw x y = some raw ∧ img.at x y = some color ∧
      (Overlaid E I c border x y → color = ⟨0x33, 0xFF, 0x22, 0xFF⟩ ∨ color = ⟨0xFF, 0xFF, 0x00, 0xFF⟩) ∧
      (¬ Overlaid E I c border x y → Color (raw.map p.stated) color)

theorem colored (E : Env) (I : Impl) (border : List (F64 × F64)) (p : Content) (h : p.WF) {u : Spec.Unit}
    (hu : p.label ∈ productsIn u) (hsize : 4 * (p.cols * p.rows) ≤ 2 ^ 48) (Color : Option ℚ → RGBA → Prop)
    (H : ∀ c fn, NewComposite E p.serialise = .ret c none → c.product ∈ productsIn u →
      c.interval = p.interval * 60000000000 * (if p.label ∈ [str "W1", str "W2", str "W3", str "W4"] then 10 else 1) →
      Cli.colorFunc I E.math c = some fn → Color none (pixelColor fn .nan) ∧
        ∀ r : Int, |r| ≤ 4095 →
          Color (some (r * (10 : ℚ) ^ p.precision))
            (pixelColor fn (decoded (decide (p.label ∈ productsIn .dBZ)) p.precision r))) :
    Colored E I border p Color := by
  obtain ⟨img, fn, c, g1, g2, g3, g4, g4', g5, g6, g7⟩ := drawn E I border p h ⟨_, hu⟩ hsize
  obtain ⟨q1, q2⟩ := H c fn g2 (by rw [g4]; exact hu) g4' g3
  refine ⟨img, c, g1, g2, g5, g6, ?_⟩
  intro x y hx hy
  obtain ⟨v, a1, a2, a3⟩ := g7 x y hx hy
  obtain ⟨raw, hraw, hv⟩ : ∃ raw, p.raw x y = some raw ∧ Color (raw.map p.stated) (pixelColor fn v) := by
    rcases pixel_raw a1 with ⟨e1, rfl⟩ | ⟨r, e1, e2, rfl⟩
    · exact ⟨none, e1, q1⟩
    · exact ⟨some r, e1, q2 r e2⟩
  by_cases ho : Overlaid E I c border x y
  · rcases a2 ho with hc | hc
    · exact ⟨raw, _, hraw, hc, fun _ => Or.inl rfl, fun hn => absurd ho hn⟩
    · exact ⟨raw, _, hraw, hc, fun _ => Or.inr rfl, fun hn => absurd ho hn⟩
  · exact ⟨raw, _, hraw, a3 ho, fun hn => absurd hn ho, fun _ => hv⟩

theorem other_not_dBZ : (∀ l ∈ productsIn .km, l ∉ productsIn .dBZ) ∧ (∀ l ∈ productsIn .mps, l ∉ productsIn .dBZ) := by
  decide

/-- C84 (a). Reflectivity. -/
theorem C84_reflectivity (E : Env) (I : Impl) (border : List (F64 × F64)) (p : Content) (h : p.WF)
    (hu : p.label ∈ productsIn .dBZ) (h1 : -37 ≤ p.precision) (h2 : p.precision ≤ 34)
    (hsize : 4 * (p.cols * p.rows) ≤ 2 ^ 48) :
    Colored E I border p (DbzOf ⟨I.u8 .nan, I.u8 .nan, I.u8 .nan, 255⟩) := by
  refine colored E I border p h hu hsize _ (fun c fn hok hc _ hfn => ?_)
  obtain ⟨f1, e1, c1⟩ := C64_reflectivity hok hc E.math
  obtain ⟨f2, e2, c2⟩ := C65_reflectivity hok hc E.math I
  have q1 := e1 I
  rw [hfn] at q1 e2
  simp only [Option.some.injEq] at q1 e2
  subst q1
  subst e2
  refine ⟨(c1 I .nan).2.2.2 rfl, fun r hr => ?_⟩
  rw [decide_eq_true hu]
  obtain ⟨d1, d2⟩ := C09_dbz_accuracy h1 h2 hr
  obtain ⟨k1, k2, k3, k4⟩ := c1 I (decoded true p.precision r)
  have lo : 1 ≤ (r : ℚ) * (10 : ℚ) ^ p.precision / 2 - 65 / 2 → 1 ≤ (decoded true p.precision r).val := by
    intro hq
    have h67 : (67 : ℚ) ≤ r * (10 : ℚ) ^ p.precision := by linarith
    rcases h67.lt_or_eq with hq | hq
    · have := z_gt (n := 67) h1 h2 hr (Or.inl rfl) (by push_cast; exact hq)
      norm_num at this; exact this.le
    · have := z_eq (n := 67) hr (Or.inl rfl) (by push_cast; exact hq.symm)
      norm_num at this; exact this.ge
  have hi : (r : ℚ) * (10 : ℚ) ^ p.precision / 2 - 65 / 2 ≤ 75 → (decoded true p.precision r).val ≤ 75 := by
    intro hq
    have h67 : (r : ℚ) * (10 : ℚ) ^ p.precision ≤ 215 := by linarith
    rcases h67.lt_or_eq with hq | hq
    · have := z_lt (n := 215) h1 h2 hr (Or.inr rfl) (by push_cast; exact hq)
      norm_num at this; exact this.le
    · have := z_eq (n := 215) hr (Or.inr rfl) (by push_cast; exact hq)
      norm_num at this; exact this.le
  refine ⟨fun hq => k1 (Or.inr ⟨d1, ?_⟩), fun ha hb => ⟨_, ?_, c2 _ d1 (lo ha) (hi hb)⟩, fun hq => k3 (Or.inr ⟨d1, ?_⟩)⟩
  · have := z_lt (n := 67) h1 h2 hr (Or.inl rfl) (by push_cast; linarith)
    norm_num at this; exact this
  · have hX : |(r : ℚ) * (10 : ℚ) ^ p.precision| ≤ 215 := by rw [abs_le]; constructor <;> linarith
    have d3 : |(decoded true p.precision r).val - (r * (10 : ℚ) ^ p.precision / 2 - 65 / 2)| ≤ 300 / 2 ^ 22 := by linarith
    have := (Rat.cast_le (K := ℝ)).mpr d3
    rw [Rat.cast_abs, Rat.cast_sub] at this
    push_cast at this ⊢
    exact this
  · have h67 : (215 : ℚ) ≤ r * (10 : ℚ) ^ p.precision := by linarith
    rcases h67.lt_or_eq with hq | hq
    · have := z_gt (n := 215) h1 h2 hr (Or.inr rfl) (by push_cast; exact hq)
      norm_num at this; exact this.le
    · have := z_eq (n := 215) hr (Or.inr rfl) (by push_cast; exact hq.symm)
      norm_num at this; exact this.ge

/-- C84 (b). Echo tops. -/
theorem C84_echo_tops (E : Env) (I : Impl) (border : List (F64 × F64)) (p : Content) (h : p.WF)
    (hu : p.label ∈ productsIn .km) (h1 : -37 ≤ p.precision) (h2 : p.precision ≤ 34)
    (hsize : 4 * (p.cols * p.rows) ≤ 2 ^ 48) :
    Colored E I border p (KmOf ⟨I.u8 .nan, I.u8 .nan, I.u8 .nan, 255⟩) := by
  refine colored E I border p h hu hsize _ (fun c fn hok hc _ hfn => ?_)
  obtain ⟨f1, e1, c1⟩ := C64_echo_tops hok hc E.math
  have q1 := e1 I
  rw [hfn] at q1
  simp only [Option.some.injEq] at q1
  subst q1
  refine ⟨(c1 I .nan).2.2.2.2.2.2 rfl, fun r hr => ?_⟩
  rw [decide_eq_false (other_not_dBZ.1 _ hu)]
  obtain ⟨d1, _⟩ := C09_accuracy h1 h2 hr
  obtain ⟨⟨l, k0⟩, k1, k2, k3, -, -, -⟩ := c1 I (decoded false p.precision r)
  refine ⟨fun hq => k1 ?_, fun ha hb => ⟨_, l, d_close h1 h2 hr, k0, ?_⟩, fun hq => k2 (Or.inr ⟨d1, ?_⟩)⟩
  · have := d_le (n := 0) h1 h2 hr (by simp) (by push_cast; linarith)
    norm_num at this
    rcases this.lt_or_eq with hlt | heq
    · exact Or.inl (Or.inr ⟨d1, hlt⟩)
    · exact Or.inr ⟨d1, heq⟩
  · have a1 := d_ge (n := 0) h1 h2 hr (by simp) (by push_cast; linarith)
    have a2 := d_le (n := 150) h1 h2 hr (by simp) (by push_cast; linarith)
    norm_num at a1 a2
    have := k3 d1 a1 a2
    rw [k0] at this
    exact this
  · have := d_ge (n := 150) h1 h2 hr (by simp) (by push_cast; linarith)
    norm_num at this; exact this

/-- C84 (c). Velocities. -/
theorem C84_velocity {E : Env} (hL : AccurateLog E.math) (I : Impl) (border : List (F64 × F64)) (p : Content) (h : p.WF)
    (hu : p.label ∈ productsIn .mps) (h1 : -37 ≤ p.precision) (h2 : p.precision ≤ 34)
    (hsize : 4 * (p.cols * p.rows) ≤ 2 ^ 48) : Colored E I border p VelocityOf := by
  refine colored E I border p h hu hsize _ (fun c fn hok hc _ hfn => ?_)
  obtain ⟨f1, e1, c1⟩ := C64_velocity hL hok hc
  have q1 := e1 I
  rw [hfn] at q1
  simp only [Option.some.injEq] at q1
  subst q1
  refine ⟨(c1 I .nan).2.1 rfl, fun r hr => ?_⟩
  rw [decide_eq_false (other_not_dBZ.2 _ hu)]
  obtain ⟨d1, _⟩ := C09_accuracy h1 h2 hr
  obtain ⟨-, -, k1, k2, k3, k4, k5, k6, -, -⟩ := c1 I (decoded false p.precision r)
  refine ⟨fun ha hb => k1 d1 ?_ ?_, fun ha hb => k2 d1 ?_ ?_, fun ha hb => ?_, fun ha hb => ?_,
    fun ha => k5 (Or.inr ⟨d1, ?_⟩), fun ha => k6 (Or.inr ⟨d1, ?_⟩)⟩
  · have := d_ge (n := 0) h1 h2 hr (by simp) (by push_cast; linarith); norm_num at this; exact this
  · have := d_le (n := 10) h1 h2 hr (by simp) (by push_cast; linarith); norm_num at this; exact this
  · have := d_lt (n := 0) h1 h2 hr (by decide) (by push_cast; linarith); norm_num at this; exact this
  · have := d_ge (n := -10) h1 h2 hr (by simp) (by push_cast; linarith); norm_num at this; exact this
  · have a1 := d_gt (n := 10) h1 h2 hr (by decide) (by push_cast; linarith)
    have a2 := d_le (n := 315) h1 h2 hr (by simp) (by push_cast; linarith)
    norm_num at a1 a2
    obtain ⟨l, b1, b2⟩ := k3 d1 a1
    exact ⟨_, l, d_close h1 h2 hr, b1, b2 (by linarith)⟩
  · have a1 := d_lt (n := -10) h1 h2 hr (by decide) (by push_cast; linarith)
    have a2 := d_ge (n := -315) h1 h2 hr (by simp) (by push_cast; linarith)
    norm_num at a1 a2
    obtain ⟨l, b1, b2⟩ := k4 d1 (by linarith)
    exact ⟨_, l, d_close h1 h2 hr, b1, b2 (by linarith)⟩
  · have := d_ge (n := 315) h1 h2 hr (by simp) (by push_cast; linarith); norm_num at this; linarith
  · have := d_le (n := -315) h1 h2 hr (by simp) (by push_cast; linarith); norm_num at this; linarith


/-- C84 (d). Precipitation. The first visible amount is 0.1 mm, except for the precisions -2 and -4, where 0.1 mm is decoded
to the float32 below 0.1 and drawn black. -/
theorem C84_rain {E : Env} (hL : AccurateLog E.math) (I : Impl) (border : List (F64 × F64)) (p : Content) (h : p.WF)
    (hu : p.label ∈ productsIn .mm) (h1 : -37 ≤ p.precision) (h2 : p.precision ≤ 34)
    (hsize : 4 * (p.cols * p.rows) ≤ 2 ^ 48) :
    Colored E I border p (MmOf ⟨I.u8 .nan, I.u8 .nan, I.u8 .nan, 255⟩
      (rainMax (p.interval * 60000000000 * (if p.label ∈ [str "W1", str "W2", str "W3", str "W4"] then 10 else 1)))
      (decide (p.precision ≠ -2 ∧ p.precision ≠ -4))) := by
  refine colored E I border p h hu hsize _ (fun c fn hok hc hint hfn => ?_)
  obtain ⟨f1, e1, c1⟩ := C64_rain hL hok hc
  obtain ⟨f2, e2, c2⟩ := C65_rain hL hok hc I
  have q1 := e1 I
  rw [hfn] at q1 e2
  simp only [Option.some.injEq] at q1 e2
  subst q1
  subst e2
  rw [← hint]
  refine ⟨(c1 I .nan).2.2.2 (Or.inl rfl), fun r hr => ?_⟩
  rw [decide_eq_false (mm_not_dBZ _ hu)]
  obtain ⟨d1, _⟩ := C09_accuracy h1 h2 hr
  obtain ⟨k1, k2, k3, k4⟩ := c1 I (decoded false p.precision r)
  obtain ⟨n, hn, hm⟩ : ∃ n : Int, n ∈ [(-315 : Int), -10, 0, 10, 150, 315, 1000, 2000, 4000] ∧
      rainMax c.interval = n / 10 := by
    unfold rainMax
    split
    · exact ⟨1000, by simp, by norm_num⟩
    · split
      · exact ⟨4000, by simp, by norm_num⟩
      · exact ⟨2000, by simp, by norm_num⟩
  have first : 1 / 10 < (r : ℚ) * (10 : ℚ) ^ p.precision ∨ (r : ℚ) * (10 : ℚ) ^ p.precision = 1 / 10 ∧
      decide (p.precision ≠ -2 ∧ p.precision ≠ -4) = true → 1 / 10 ≤ (decoded false p.precision r).val := by
    rintro (hq | ⟨hq, hs⟩)
    · have := d_gt (n := 1) h1 h2 hr (by decide) (by push_cast; linarith)
      norm_num at this; norm_num; exact this.le
    · exact (d_tenth hr hq).mpr (of_decide_eq_true hs)
  have vis : ∀ c : RGBA, Visible c → c ≠ ⟨0, 0, 0, 255⟩ := by
    rintro c hv rfl
    revert hv
    unfold Visible
    decide
  refine ⟨fun hq => k4 (Or.inr (Or.inr ⟨d1, ?_⟩)), fun ha hb => k1 (Or.inr ⟨d1, ?_⟩) (Or.inr ⟨d1, ?_⟩), fun hq => ?_,
    fun hq => ⟨(k2 (Or.inr ⟨d1, first hq⟩)).1, fun hb => ⟨_, d_close h1 h2 hr, ?_⟩⟩, fun hq => k3 (Or.inr ⟨d1, ?_⟩)⟩
  · have := d_lt (n := 0) h1 h2 hr (by decide) (by push_cast; linarith); norm_num at this; exact this
  · have := d_ge (n := 0) h1 h2 hr (by simp) (by push_cast; linarith); norm_num at this; exact this
  · have := d_lt (n := 1) h1 h2 hr (by decide) (by push_cast; linarith); norm_num at this; norm_num; exact this
  · constructor
    · intro hc
      by_contra hs
      exact vis _ (k2 (Or.inr ⟨d1, first (Or.inr ⟨hq, by simpa using hs⟩)⟩)).1 hc
    · intro hs
      refine k1 (Or.inr ⟨d1, ?_⟩) (Or.inr ⟨d1, ?_⟩)
      · have := d_ge (n := 0) h1 h2 hr (by simp) (by push_cast; linarith); norm_num at this; exact this
      · by_contra hc
        exact of_decide_eq_false hs ((d_tenth hr hq).mp (not_lt.mp hc))
  · have a2 := d_le h1 h2 hr hn (by rw [← hm]; exact hb)
    rw [← hm] at a2
    have := c2 _ d1 (first hq) a2
    have e : ∀ t : ℝ, t / (1 / 10) = 10 * t := by intro t; ring
    rw [e, e] at this
    exact this
  · rw [hm]
    exact d_ge h1 h2 hr hn (by rw [← hm]; exact hq)

/-! ### examples -/

/-- five minute precipitation in hundredths of a millimetre: 0.10 mm in the upper left corner, 0.11 mm beside it -/
def hundredths : Content := { sampleContent with
  label := str "RY"
  precision := -2
  interval := 5
  data := [1, 0, 2, 0x40, 0, 0x20, 10, 0, 11, 0, 9, 1] }

theorem hundredths_wf : hundredths.WF where
  label := ⟨82, 89, by decide, by decide, by decide⟩
  letters := by decide
  wmo := sampleContent_wf.wmo
  time := sampleContent_wf.time
  format := sampleContent_wf.format
  interval := by decide
  forecast := sampleContent_wf.forecast
  precision := by decide
  rows := sampleContent_wf.rows
  cols := sampleContent_wf.cols
  data := by decide

/-- 0.10 mm is drawn black, 0.11 mm is visible -/
example (I : Impl) : ∃ img c, Cli.convert { env0 with math := logMath } I [] hundredths.serialise = .image img ∧
    NewComposite { env0 with math := logMath } hundredths.serialise = .ret c none ∧
    (∀ color, img.at 0 0 = some color → ¬ Overlaid { env0 with math := logMath } I c [] 0 0 → color = ⟨0, 0, 0, 255⟩) ∧
    ∀ color, img.at 1 0 = some color → ¬ Overlaid { env0 with math := logMath } I c [] 1 0 → Visible color := by
  obtain ⟨img, c, h1, h2, _, _, h⟩ := C84_rain (E := { env0 with math := logMath }) logMath_accurate I [] hundredths
    hundredths_wf (by decide) (by decide) (by decide) (by decide)
  refine ⟨img, c, h1, h2, fun color hc ho => ?_, fun color hc ho => ?_⟩
  · obtain ⟨raw, color', e1, e2, _, e3⟩ := h 0 0 (by decide) (by decide)
    rw [hc] at e2
    simp only [Option.some.injEq] at e2
    subst e2
    have hr : hundredths.raw 0 0 = some (some 10) := by decide
    rw [hr] at e1
    simp only [Option.some.injEq] at e1
    subst e1
    have hq : hundredths.stated 10 = 1 / 10 := by
      unfold Content.stated; norm_num [hundredths]
    have := e3 ho
    rw [Option.map_some, hq] at this
    exact (this.2.2.1 rfl).mpr (by decide)
  · obtain ⟨raw, color', e1, e2, _, e3⟩ := h 1 0 (by decide) (by decide)
    rw [hc] at e2
    simp only [Option.some.injEq] at e2
    subst e2
    have hr : hundredths.raw 1 0 = some (some 11) := by decide
    rw [hr] at e1
    simp only [Option.some.injEq] at e1
    subst e1
    have hq : hundredths.stated 11 = 11 / 100 := by
      unfold Content.stated; norm_num [hundredths]
    have := e3 ho
    rw [Option.map_some, hq] at this
    exact (this.2.2.2.1 (Or.inl (by norm_num))).1

/-- the other units, with the numbers of the sample file -/
example (E : Env) (I : Impl) :
    Colored E I [] { sampleContent with label := str "FX" } (DbzOf ⟨I.u8 .nan, I.u8 .nan, I.u8 .nan, 255⟩) ∧
    Colored E I [] { sampleContent with label := str "PE" } (KmOf ⟨I.u8 .nan, I.u8 .nan, I.u8 .nan, 255⟩) ∧
    (AccurateLog E.math → Colored E I [] { sampleContent with label := str "PV" } VelocityOf) := by
  have wf : ∀ l ∈ [str "FX", str "PE", str "PV"], ({ sampleContent with label := l } : Content).WF := by
    intro l hl
    simp only [List.mem_cons, List.not_mem_nil, or_false] at hl
    exact {
      label := by
        rcases hl with rfl | rfl | rfl
        · exact ⟨70, 88, by decide, by decide, by decide⟩
        · exact ⟨80, 69, by decide, by decide, by decide⟩
        · exact ⟨80, 86, by decide, by decide, by decide⟩
      letters := by rcases hl with rfl | rfl | rfl <;> decide
      wmo := sampleContent_wf.wmo
      time := sampleContent_wf.time
      format := sampleContent_wf.format
      interval := sampleContent_wf.interval
      forecast := sampleContent_wf.forecast
      precision := sampleContent_wf.precision
      rows := sampleContent_wf.rows
      cols := sampleContent_wf.cols
      data := sampleContent_wf.data }
  exact ⟨C84_reflectivity E I [] _ (wf _ (by simp)) (by decide) (by decide) (by decide) (by decide),
    C84_echo_tops E I [] _ (wf _ (by simp)) (by decide) (by decide) (by decide) (by decide),
    fun hL => C84_velocity hL I [] _ (wf _ (by simp)) (by decide) (by decide) (by decide) (by decide)⟩

end Props
