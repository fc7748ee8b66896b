/-
C71: RVP-6 values and dBZ values determine each other.
-/
import Verif.Props.Accuracy
import Verif.Model.Conversion
import Verif.Lemmas.FloatOrder

namespace Props
open Go Radolan Spec

theorem toDBZ_val {x : F32} (hx : x.isFin = true) (hb : |x.val| ≤ pow2 126) :
    (toDBZ x).isFin = true ∧ (toDBZ x).val = rnd f32 (rnd f32 (x.val / 2) - 65 / 2) := dbz_val hx hb

theorem toRVP6_val {d : F32} (hd : d.isFin = true) (hb : |d.val| ≤ pow2 124) :
    (toRVP6 d).isFin = true ∧ (toRVP6 d).val = rnd f32 (rnd f32 (d.val + 65 / 2) * 2) := by
  have s1 := pow2_succ 124
  have s2 := pow2_succ 125
  rw [show (124 : Int) + 1 = 125 from rfl] at s1
  rw [show (125 : Int) + 1 = 126 from rfl] at s2
  have b1 : |d.val + 65 / 2| ≤ pow2 125 := by
    have h1 : (65 : ℚ) / 2 ≤ pow2 124 := by decide +kernel
    rw [abs_le] at hb ⊢
    constructor <;> linarith [pow2_pos 124]
  have b2 := rnd_bound (f := f32) (e := 125) (by decide) b1
  unfold toRVP6
  rw [Fl.add_fin hd lit_325.1, lit_325.2]
  obtain ⟨g1, g2⟩ := Fl.mk_fin (f := f32) (b := (d.sign && (Fl.lit f32 (65 / 2)).sign))
    (lt_of_le_of_lt b2 (pow2_lt.mpr (by decide)))
  rw [Fl.mul_fin g1 lit_two.1, lit_two.2, g2]
  apply Fl.mk_fin
  have : |rnd f32 (d.val + 65 / 2) * 2| ≤ pow2 126 := by
    rw [abs_mul, abs_of_pos (by norm_num : (0 : ℚ) < 2)]; linarith
  exact lt_of_le_of_lt (rnd_bound (f := f32) (e := 126) (by decide) this) (pow2_lt.mpr (by decide))

/-- a number with few binary digits is a float32 -/
theorem rnd_dyadic {n : Int} {k : Nat} (hk : k ≤ 100) (hn : |n| ≤ 2 ^ 24) : rnd f32 ((n : ℚ) / 2 ^ k) = n / 2 ^ k := by
  have := rnd_exact f32 (n := n) (e := -(k : Int)) (by show (-149 : Int) ≤ _; omega) hn
  rw [pow2_eq, zpow_neg, zpow_natCast, ← div_eq_mul_inv] at this
  exact this

/-- C71 (a). An RVP-6 value with k binary places and not too many digits is converted to dBZ exactly, and back. Integers
up to 16 million are the case k = 0, tenths are not. -/
theorem C71_exact {v : F32} (hv : v.isFin = true) {n : Int} {k : Nat} (hk : k ≤ 18) (hn : v.val = n / 2 ^ k)
    (hb : |n| + 65 * 2 ^ k ≤ 2 ^ 24) :
    (toDBZ v).isFin = true ∧ (toDBZ v).val = v.val / 2 - 65 / 2 ∧
      (toRVP6 (toDBZ v)).isFin = true ∧ (toRVP6 (toDBZ v)).val = v.val := by
  have hk0 : (0 : ℚ) < 2 ^ k := by positivity
  have hki : (0 : Int) < 2 ^ k := by positivity
  have hn1 : |n| ≤ 2 ^ 24 := by linarith
  have hn2 : |n - 65 * 2 ^ k| ≤ 2 ^ 24 := by
    have := abs_sub n (65 * 2 ^ k)
    rw [abs_of_pos (by positivity : (0 : Int) < 65 * 2 ^ k)] at this
    exact this.trans hb
  have small : |v.val| ≤ 2 ^ 24 := by
    rw [hn, abs_div, abs_of_pos hk0, div_le_iff₀ hk0]
    have h1 : (1 : ℚ) ≤ 2 ^ k := one_le_pow₀ (by norm_num)
    have h2 : |(n : ℚ)| ≤ 2 ^ 24 := by exact_mod_cast hn1
    nlinarith
  have p1 : (2 : ℚ) ^ 24 ≤ pow2 126 := by rw [pow2_eq]; norm_num
  have p2 : (2 : ℚ) ^ 25 ≤ pow2 124 := by rw [pow2_eq]; norm_num
  obtain ⟨a1, a2⟩ := toDBZ_val hv (small.trans p1)
  have e1 : rnd f32 (v.val / 2) = v.val / 2 := by
    have := rnd_dyadic (n := n) (k := k + 1) (by omega) hn1
    rw [pow_succ, ← div_div] at this
    rw [hn]; exact this
  have e2 : rnd f32 (v.val / 2 - 65 / 2) = v.val / 2 - 65 / 2 := by
    have := rnd_dyadic (n := n - 65 * 2 ^ k) (k := k + 1) (by omega) hn2
    push_cast at this
    have h : v.val / 2 - 65 / 2 = ((n : ℚ) - 65 * 2 ^ k) / 2 ^ (k + 1) := by rw [hn, pow_succ]; field_simp
    rw [h]; exact this
  rw [e1, e2] at a2
  have hb2 : |(toDBZ v).val| ≤ pow2 124 := by
    rw [a2]
    refine le_trans ?_ p2
    rw [abs_le] at small ⊢
    constructor <;> linarith
  obtain ⟨b1, b2⟩ := toRVP6_val a1 hb2
  refine ⟨a1, a2, b1, ?_⟩
  rw [b2, a2, show v.val / 2 - 65 / 2 + 65 / 2 = v.val / 2 by ring, e1, show v.val / 2 * 2 = v.val by ring, v.rnd_val]

/-- C71 (b). The other way round: reflectivities with k binary places. -/
theorem C71_exact_back {d : F32} (hd : d.isFin = true) {n : Int} {k : Nat} (hk : k ≤ 18) (hn : d.val = n / 2 ^ (k + 1))
    (hb : |n| + 65 * 2 ^ k ≤ 2 ^ 24) :
    (toRVP6 d).isFin = true ∧ (toRVP6 d).val = d.val * 2 + 65 ∧
      (toDBZ (toRVP6 d)).isFin = true ∧ (toDBZ (toRVP6 d)).val = d.val := by
  have hk0 : (0 : ℚ) < 2 ^ k := by positivity
  have hn1 : |n| ≤ 2 ^ 24 := by
    have : (0 : Int) < 2 ^ k := by positivity
    linarith
  have hn2 : |n + 65 * 2 ^ k| ≤ 2 ^ 24 := by
    have := abs_add_le n (65 * 2 ^ k)
    rw [abs_of_pos (by positivity : (0 : Int) < 65 * 2 ^ k)] at this
    exact this.trans hb
  have small : |d.val| ≤ 2 ^ 24 := by
    have hk1 : (0 : ℚ) < 2 ^ (k + 1) := by positivity
    rw [hn, abs_div, abs_of_pos hk1, div_le_iff₀ hk1]
    have h1 : (1 : ℚ) ≤ 2 ^ (k + 1) := one_le_pow₀ (by norm_num)
    have h2 : |(n : ℚ)| ≤ 2 ^ 24 := by exact_mod_cast hn1
    nlinarith
  have p1 : (2 : ℚ) ^ 24 ≤ pow2 124 := by rw [pow2_eq]; norm_num
  have p2 : (2 : ℚ) ^ 26 ≤ pow2 126 := by rw [pow2_eq]; norm_num
  obtain ⟨a1, a2⟩ := toRVP6_val hd (small.trans p1)
  have h : d.val + 65 / 2 = ((n : ℚ) + 65 * 2 ^ k) / 2 ^ (k + 1) := by rw [hn, pow_succ]; field_simp
  have e1 : rnd f32 (d.val + 65 / 2) = d.val + 65 / 2 := by
    have := rnd_dyadic (n := n + 65 * 2 ^ k) (k := k + 1) (by omega) hn2
    push_cast at this
    rw [h]; exact this
  have e2 : rnd f32 ((d.val + 65 / 2) * 2) = d.val * 2 + 65 := by
    have := rnd_dyadic (n := n + 65 * 2 ^ k) (k := k) (by omega) hn2
    push_cast at this
    have h' : (d.val + 65 / 2) * 2 = ((n : ℚ) + 65 * 2 ^ k) / 2 ^ k := by rw [h, pow_succ]; field_simp
    rw [h', this, ← h']; ring
  rw [e1, e2] at a2
  have hb2 : |(toRVP6 d).val| ≤ pow2 126 := by
    rw [a2]
    refine le_trans ?_ p2
    rw [abs_le] at small ⊢
    constructor <;> linarith
  obtain ⟨b1, b2⟩ := toDBZ_val a1 hb2
  refine ⟨a1, a2, b1, ?_⟩
  rw [b2, a2, show (d.val * 2 + 65) / 2 = d.val + 65 / 2 by ring, e1, show d.val + 65 / 2 - 65 / 2 = d.val by ring, d.rnd_val]

/-- C71 (c). Every finite RVP-6 value comes back to within 24 bits of its size (plus the offset 65). -/
theorem C71_close {v : F32} (hv : v.isFin = true) (hb : |v.val| ≤ 2 ^ 100) :
    (toRVP6 (toDBZ v)).isFin = true ∧ |(toRVP6 (toDBZ v)).val - v.val| ≤ (|v.val| + 65) / 2 ^ 21 := by
  have p1 : (2 : ℚ) ^ 100 ≤ pow2 126 := by rw [pow2_eq]; norm_num
  have p2 : (2 : ℚ) ^ 101 ≤ pow2 124 := by rw [pow2_eq]; norm_num
  obtain ⟨a1, a2⟩ := toDBZ_val hv (hb.trans p1)
  have r1 := rnd_err32 (v.val / 2)
  have r2 := rnd_err32 (rnd f32 (v.val / 2) - 65 / 2)
  rw [← a2] at r2
  generalize rnd f32 (v.val / 2) = y at *
  have b2 : |v.val / 2| = |v.val| / 2 := by rw [abs_div]; norm_num
  rw [b2] at r1
  have b3 : |y| ≤ |v.val| / 2 + |y - v.val / 2| := by
    have := abs_add_le (v.val / 2) (y - v.val / 2); rwa [add_sub_cancel, b2] at this
  have b4 : |y - 65 / 2| ≤ |y| + 65 / 2 := by
    have := abs_sub y (65 / 2); rwa [abs_of_pos (by norm_num : (0 : ℚ) < 65 / 2)] at this
  have b5 : |(toDBZ v).val| ≤ |y - 65 / 2| + |(toDBZ v).val - (y - 65 / 2)| := by
    have := abs_add_le (y - 65 / 2) ((toDBZ v).val - (y - 65 / 2)); rwa [add_sub_cancel] at this
  have hv0 := abs_nonneg v.val
  have hb2 : |(toDBZ v).val| ≤ pow2 124 := by
    refine le_trans ?_ p2
    have e : (2 : ℚ) ^ 101 = 2 * 2 ^ 100 := by norm_num
    have e' : (1000 : ℚ) ≤ 2 ^ 100 := by norm_num
    rw [e]
    generalize (2 : ℚ) ^ 100 = T at *
    linarith
  obtain ⟨c1, c2⟩ := toRVP6_val a1 hb2
  refine ⟨c1, ?_⟩
  have r3 := rnd_err32 ((toDBZ v).val + 65 / 2)
  have r4 := rnd_err32 (rnd f32 ((toDBZ v).val + 65 / 2) * 2)
  rw [← c2] at r4
  generalize rnd f32 ((toDBZ v).val + 65 / 2) = w at *
  have f1 : |w * 2| = 2 * |w| := by rw [abs_mul]; norm_num; ring
  rw [f1] at r4
  -- the sum is near v / 2
  have s1 : |(toDBZ v).val + 65 / 2 - v.val / 2| ≤ |(toDBZ v).val - (y - 65 / 2)| + |y - v.val / 2| := by
    have e : (toDBZ v).val + 65 / 2 - v.val / 2 = ((toDBZ v).val - (y - 65 / 2)) + (y - v.val / 2) := by ring
    rw [e]; exact abs_add_le _ _
  have s2 : |(toDBZ v).val + 65 / 2| ≤ |v.val| / 2 + |(toDBZ v).val + 65 / 2 - v.val / 2| := by
    have := abs_add_le (v.val / 2) ((toDBZ v).val + 65 / 2 - v.val / 2); rwa [add_sub_cancel, b2] at this
  have s3 : |w| ≤ |(toDBZ v).val + 65 / 2| + |w - ((toDBZ v).val + 65 / 2)| := by
    have := abs_add_le ((toDBZ v).val + 65 / 2) (w - ((toDBZ v).val + 65 / 2)); rwa [add_sub_cancel] at this
  have s4 : |(toRVP6 (toDBZ v)).val - v.val| ≤
      |(toRVP6 (toDBZ v)).val - w * 2| + 2 * |w - ((toDBZ v).val + 65 / 2)| + 2 * |(toDBZ v).val + 65 / 2 - v.val / 2| := by
    have e : (toRVP6 (toDBZ v)).val - v.val = ((toRVP6 (toDBZ v)).val - w * 2) + 2 * (w - ((toDBZ v).val + 65 / 2)) +
        2 * ((toDBZ v).val + 65 / 2 - v.val / 2) := by ring
    rw [e]
    have := abs_add_three ((toRVP6 (toDBZ v)).val - w * 2) (2 * (w - ((toDBZ v).val + 65 / 2)))
      (2 * ((toDBZ v).val + 65 / 2 - v.val / 2))
    rw [abs_mul, abs_mul] at this
    norm_num at this
    exact this
  norm_num
  linarith

/-- C71 (d). The raw value of a reflectivity can be read off the decoded pixel: converted back to RVP-6 units, it is
nearer to the raw value times the power of ten than half a step. -/
theorem C71_recover {p v : Int} (h1 : -2 ≤ p) (h2 : p ≤ 26) (hv : |v| ≤ 4095) :
    (toRVP6 (decoded true p v)).isFin = true ∧
    |(toRVP6 (decoded true p v)).val - v * (10 : ℚ) ^ p| < (10 : ℚ) ^ p / 100 := by
  obtain ⟨g1, _, g3⟩ := scaled_val (p := p) (by omega) (by omega) hv
  have hc : |(scaled p v).val - v * (10 : ℚ) ^ p| ≤ |v * (10 : ℚ) ^ p| / 2 ^ 22 := (C09_accuracy (by omega) (by omega) hv).2
  have hT : (1 : ℚ) / 100 ≤ 10 ^ p := by
    have := zpow_le_zpow_right₀ (by norm_num : (1 : ℚ) ≤ 10) h1
    norm_num at this ⊢; linarith
  have hT2 : (10 : ℚ) ^ p ≤ 10 ^ 26 := by
    have := zpow_le_zpow_right₀ (by norm_num : (1 : ℚ) ≤ 10) h2
    exact_mod_cast this
  have hvq : |(v : ℚ)| ≤ 4095 := by exact_mod_cast hv
  have hm : |(v : ℚ) * (10 : ℚ) ^ p| ≤ 4095 * 10 ^ p := by
    rw [abs_mul, abs_of_pos (by linarith : (0 : ℚ) < 10 ^ p)]
    exact mul_le_mul_of_nonneg_right hvq (by linarith)
  have hs : |(scaled p v).val| ≤ |(v : ℚ) * (10 : ℚ) ^ p| + |(scaled p v).val - v * (10 : ℚ) ^ p| := by
    have := abs_add_le ((v : ℚ) * (10 : ℚ) ^ p) ((scaled p v).val - v * (10 : ℚ) ^ p); rwa [add_sub_cancel] at this
  rw [show (2 : ℚ) ^ 22 = 4194304 by norm_num] at hc
  have hbig : |(scaled p v).val| ≤ 2 ^ 100 := by
    norm_num at hT2 ⊢
    linarith
  obtain ⟨k1, k2⟩ := C71_close g1 hbig
  have e : decoded true p v = toDBZ (scaled p v) := rfl
  rw [e]
  refine ⟨k1, ?_⟩
  have tri : |(toRVP6 (toDBZ (scaled p v))).val - v * (10 : ℚ) ^ p| ≤
      |(toRVP6 (toDBZ (scaled p v))).val - (scaled p v).val| + |(scaled p v).val - v * (10 : ℚ) ^ p| := by
    have := abs_add_le ((toRVP6 (toDBZ (scaled p v))).val - (scaled p v).val) ((scaled p v).val - v * (10 : ℚ) ^ p)
    rwa [sub_add_sub_cancel] at this
  norm_num at k2
  linarith

/-- bytes of precision 0 come back exactly; 0.1 RVP-6 units nearly -/
example : toRVP6 (toDBZ (Fl.lit f32 62)) = Fl.lit f32 62 ∧ (toDBZ (Fl.lit f32 62)).val = -3 / 2 ∧
    toRVP6 (toDBZ (Fl.lit f32 0.1)) ≠ Fl.lit f32 0.1 ∧
    |(toRVP6 (toDBZ (Fl.lit f32 0.1))).val - (Fl.lit f32 0.1).val| ≤ 66 / 2 ^ 21 := by decide +kernel

example : ∃ n : Int, (Fl.lit f32 62).val = n / 2 ^ 0 ∧ |n| + 65 * 2 ^ 0 ≤ 2 ^ 24 :=
  ⟨62, by decide +kernel, by norm_num⟩

end Props
