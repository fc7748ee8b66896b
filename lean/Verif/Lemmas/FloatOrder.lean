/- Order facts of the soft-float model: every rounded operation is monotone. -/
import Verif.Lemmas.FloatDiv

namespace Go.Fl
variable {f : Fmt}

/-- `x <= y` spelled out -/
theorem le_iff {x y : Fl f} : le x y = true ↔ x ≠ .nan ∧ y ≠ .nan ∧
    (x = .inf true ∨ y = .inf false ∨ (x.isFin = true ∧ y.isFin = true ∧ x.val ≤ y.val)) := by
  unfold le
  cases x with
  | nan => simp [lt, beq]
  | inf a => cases y with
    | nan => simp [lt, beq]
    | inf b => cases a <;> cases b <;> simp [lt, beq, isFin]
    | nzero => cases a <;> simp [lt, beq, isFin]
    | fin q h => cases a <;> simp [lt, beq, isFin]
  | nzero => cases y with
    | nan => simp [lt, beq]
    | inf b => cases b <;> simp [lt, beq, isFin]
    | nzero => simp [lt, beq, isFin, val]
    | fin q h => simp [lt, beq, isFin, val, le_iff_lt_or_eq]; exact or_congr decide_eq_true_iff decide_eq_true_iff
  | fin p hp => cases y with
    | nan => simp [lt, beq]
    | inf b => cases b <;> simp [lt, beq, isFin]
    | nzero => simp [lt, beq, isFin, val, le_iff_lt_or_eq]; exact or_congr decide_eq_true_iff decide_eq_true_iff
    | fin q h => simp [lt, beq, isFin, val, le_iff_lt_or_eq]; exact or_congr decide_eq_true_iff decide_eq_true_iff

theorem le_fin {x y : Fl f} (hx : x.isFin = true) (hy : y.isFin = true) : le x y = true ↔ x.val ≤ y.val := by
  rw [le_iff]
  constructor
  · rintro ⟨_, _, h | h | h⟩
    · subst h; simp [isFin] at hx
    · subst h; simp [isFin] at hy
    · exact h.2.2
  · intro h
    exact ⟨isFin_ne_nan hx, isFin_ne_nan hy, Or.inr (Or.inr ⟨hx, hy, h⟩)⟩

/-- not less means at least, for numbers -/
theorem not_lt {x y : Fl f} (hx : x ≠ .nan) (hy : y ≠ .nan) : lt x y = false ↔ le y x = true := by
  rw [le_iff]
  cases x with
  | nan => simp at hx
  | inf a => cases y with
    | nan => simp at hy
    | inf b => cases a <;> cases b <;> simp [lt, isFin]
    | nzero => cases a <;> simp [lt, isFin]
    | fin q h => cases a <;> simp [lt, isFin]
  | nzero => cases y with
    | nan => simp at hy
    | inf b => cases b <;> simp [lt, isFin]
    | nzero => simp [lt, isFin, val]
    | fin q h => simp [lt, isFin, val]; exact decide_eq_false_iff_not.trans _root_.not_lt
  | fin p hp => cases y with
    | nan => simp at hy
    | inf b => cases b <;> simp [lt, isFin]
    | nzero => simp [lt, isFin, val]; exact decide_eq_false_iff_not.trans _root_.not_lt
    | fin q h => simp [lt, isFin, val]; exact decide_eq_false_iff_not.trans _root_.not_lt

theorem le_refl {x : Fl f} (h : x ≠ .nan) : le x x = true := by
  rw [le_iff]
  refine ⟨h, h, ?_⟩
  cases x with
  | nan => simp at h
  | inf a => cases a <;> simp
  | _ => simp [isFin]

theorem le_trans {x y z : Fl f} (h1 : le x y = true) (h2 : le y z = true) : le x z = true := by
  rw [le_iff] at *
  obtain ⟨a1, a2, a3⟩ := h1
  obtain ⟨b1, b2, b3⟩ := h2
  refine ⟨a1, b2, ?_⟩
  rcases a3 with h | h | ⟨h, h', h''⟩
  · exact Or.inl h
  · subst h
    rcases b3 with h | h | ⟨h, _⟩
    · simp at h
    · exact Or.inr (Or.inl h)
    · simp [isFin] at h
  · rcases b3 with k | k | ⟨k, k', k''⟩
    · subst k; simp [isFin] at h'
    · exact Or.inr (Or.inl k)
    · exact Or.inr (Or.inr ⟨h, k', h''.trans k''⟩)

/-- mk by cases: a finite value or the infinity of its sign -/
theorem mk_cases (b : Bool) (q : ℚ) : ((mk f b q).isFin = true ∧ (mk f b q).val = rnd f q) ∨
    (mk f b q = .inf false ∧ pow2 f.emax ≤ rnd f q) ∨ (mk f b q = .inf true ∧ rnd f q ≤ - pow2 f.emax) := by
  by_cases h : |rnd f q| < pow2 f.emax
  · exact Or.inl (mk_fin h)
  · have h' := le_of_not_gt h
    have hp := pow2_pos f.emax
    have h0 : rnd f q ≠ 0 := by intro h0; rw [h0, abs_zero] at h'; linarith
    unfold mk
    rw [if_neg h0, dif_neg h]
    by_cases hs : rnd f q < 0
    · right; right
      rw [abs_of_neg hs] at h'
      simp [hs]; linarith
    · right; left
      rw [abs_of_nonneg (_root_.not_lt.mp hs)] at h'
      simp [hs]; exact h'

theorem mk_mono {b b' : Bool} {q q' : ℚ} (h : q ≤ q') : le (mk f b q) (mk f b' q') = true := by
  have hr := rnd_mono f h
  have hp := pow2_pos f.emax
  rw [le_iff]
  refine ⟨mk_ne_nan, mk_ne_nan, ?_⟩
  rcases mk_cases (f := f) b q with ⟨h1, h2⟩ | ⟨h1, h2⟩ | ⟨h1, h2⟩
  · rcases mk_cases (f := f) b' q' with ⟨k1, k2⟩ | ⟨k1, k2⟩ | ⟨k1, k2⟩
    · right; right; exact ⟨h1, k1, by rw [h2, k2]; exact hr⟩
    · right; left; exact k1
    · exfalso
      have := mk_isFin_iff.mp h1
      have := (abs_lt.mp this).1
      linarith
  · rcases mk_cases (f := f) b' q' with ⟨k1, k2⟩ | ⟨k1, k2⟩ | ⟨k1, k2⟩
    · exfalso
      have := (abs_lt.mp (mk_isFin_iff.mp k1)).2
      linarith
    · right; left; exact k1
    · exfalso; linarith
  · left; exact h1

theorem neg_inf (b : Bool) : neg (.inf b : Fl f) = .inf (!b) := rfl

theorem sub_inf_left (a : Bool) {m : Fl f} (hm : m.isFin = true) : sub (.inf a) m = .inf a := by
  unfold sub
  cases m with
  | fin q h => simp only [neg]; split <;> rfl
  | nzero => rfl
  | _ => simp [isFin] at hm

theorem sub_ne_nan {x m : Fl f} (hx : x ≠ .nan) (hm : m.isFin = true) : sub x m ≠ .nan := by
  cases x with
  | nan => simp at hx
  | inf a => rw [sub_inf_left a hm]; simp
  | nzero => rw [sub_fin rfl hm]; exact mk_ne_nan
  | fin q h => rw [sub_fin rfl hm]; exact mk_ne_nan

/-- subtraction of a finite number is monotone -/
theorem sub_mono {x y m : Fl f} (hm : m.isFin = true) (h : le x y = true) : le (sub x m) (sub y m) = true := by
  obtain ⟨hx, hy, h3⟩ := le_iff.mp h
  rcases h3 with rfl | rfl | ⟨h3, h4, h5⟩
  · rw [sub_inf_left true hm, le_iff]
    exact ⟨by simp, sub_ne_nan hy hm, Or.inl rfl⟩
  · rw [sub_inf_left false hm, le_iff]
    exact ⟨sub_ne_nan hx hm, by simp, Or.inr (Or.inl rfl)⟩
  · rw [sub_fin h3 hm, sub_fin h4 hm]
    exact mk_mono (by linarith)

theorem sign_of_pos {x : Fl f} (h : x.isFin = true) (h0 : 0 < x.val) : x.sign = false := by
  cases x with
  | fin q hq => simp [sign]; simp [val] at h0; exact h0.le
  | nzero => simp [val] at h0
  | _ => simp [isFin] at h

theorem div_inf_left (a : Bool) {d : Fl f} (hd : d.isFin = true) (h0 : 0 < d.val) : div (.inf a) d = .inf a := by
  have hs := sign_of_pos hd h0
  cases d with
  | fin q h => simp only [div, hs, Bool.xor_false]
  | nzero => simp [val] at h0
  | _ => simp [isFin] at hd

theorem div_ne_nan {x d : Fl f} (hx : x ≠ .nan) (hd : d.isFin = true) (h0 : 0 < d.val) : div x d ≠ .nan := by
  cases x with
  | nan => simp at hx
  | inf a => rw [div_inf_left a hd h0]; simp
  | nzero => rw [div_fin rfl hd h0.ne']; exact mk_ne_nan
  | fin q h => rw [div_fin rfl hd h0.ne']; exact mk_ne_nan

/-- division by a positive number is monotone -/
theorem div_mono {x y d : Fl f} (hd : d.isFin = true) (h0 : 0 < d.val) (h : le x y = true) :
    le (div x d) (div y d) = true := by
  obtain ⟨hx, hy, h3⟩ := le_iff.mp h
  rcases h3 with rfl | rfl | ⟨h3, h4, h5⟩
  · rw [div_inf_left true hd h0, le_iff]
    exact ⟨by simp, div_ne_nan hy hd h0, Or.inl rfl⟩
  · rw [div_inf_left false hd h0, le_iff]
    exact ⟨div_ne_nan hx hd h0, by simp, Or.inr (Or.inl rfl)⟩
  · rw [div_fin h3 hd h0.ne', div_fin h4 hd h0.ne']
    exact mk_mono (div_le_div_of_nonneg_right h5 h0.le)

theorem mul_inf_right (a : Bool) {d : Fl f} (hd : d.isFin = true) (h0 : 0 < d.val) : mul d (.inf a) = .inf a := by
  have hs := sign_of_pos hd h0
  cases d with
  | fin q h =>
    simp only [val] at h0
    simp only [mul, val, h0.ne', if_false, hs, Bool.false_xor]
  | nzero => simp [val] at h0
  | _ => simp [isFin] at hd

theorem mul_ne_nan {x d : Fl f} (hx : x ≠ .nan) (hd : d.isFin = true) (h0 : 0 < d.val) : mul d x ≠ .nan := by
  cases x with
  | nan => simp at hx
  | inf a => rw [mul_inf_right a hd h0]; simp
  | nzero => rw [mul_fin hd rfl]; exact mk_ne_nan
  | fin q h => rw [mul_fin hd rfl]; exact mk_ne_nan

/-- multiplication by a positive number is monotone -/
theorem mul_mono {x y d : Fl f} (hd : d.isFin = true) (h0 : 0 < d.val) (h : le x y = true) :
    le (mul d x) (mul d y) = true := by
  obtain ⟨hx, hy, h3⟩ := le_iff.mp h
  rcases h3 with rfl | rfl | ⟨h3, h4, h5⟩
  · rw [mul_inf_right true hd h0, le_iff]
    exact ⟨by simp, mul_ne_nan hy hd h0, Or.inl rfl⟩
  · rw [mul_inf_right false hd h0, le_iff]
    exact ⟨mul_ne_nan hx hd h0, by simp, Or.inr (Or.inl rfl)⟩
  · rw [mul_fin hd h3, mul_fin hd h4]
    exact mk_mono (mul_le_mul_of_nonneg_left h5 h0.le)

/-- a float value is a multiple of the smallest positive one -/
theorem val_multiple (x : Fl f) : ∃ n : Int, x.val = n * pow2 f.emin := by
  obtain ⟨n, e, he, _, hr⟩ := rnd_form f x.val
  rw [rnd_val] at hr
  refine ⟨n * 2 ^ (e - f.emin).toNat, ?_⟩
  rw [hr]
  have : pow2 e = pow2 (e - f.emin) * pow2 f.emin := by rw [← pow2_add]; congr 1; ring
  rw [this, pow2_toNat (by omega)]
  push_cast; ring

/-- the difference of distinct numbers does not vanish (gradual underflow) -/
theorem sub_pos {x y : Fl f} (hx : x.isFin = true) (hy : y.isFin = true) (h : x.val < y.val)
    (hfin : (sub y x).isFin = true) : 0 < (sub y x).val := by
  rw [sub_fin hy hx] at hfin ⊢
  rw [mk_val_of_isFin hfin]
  obtain ⟨n, hn⟩ := val_multiple x
  obtain ⟨k, hk⟩ := val_multiple y
  have hp := pow2_pos f.emin
  have hnk : n < k := by
    rw [hn, hk] at h
    exact_mod_cast lt_of_mul_lt_mul_right h hp.le
  have : pow2 f.emin ≤ y.val - x.val := by
    rw [hn, hk, ← sub_mul]
    have : (1 : ℚ) ≤ (k : ℚ) - n := by exact_mod_cast (by omega : (1 : Int) ≤ k - n)
    nlinarith
  exact lt_of_lt_of_le hp (pow2_le_rnd f (_root_.le_refl _) this)

theorem ratTrunc_mono {a b : ℚ} (h0 : 0 ≤ a) (h : a ≤ b) : ratTrunc a ≤ ratTrunc b := by
  unfold ratTrunc
  rw [if_pos h0, if_pos (h0.trans h)]
  exact Int.floor_mono h

/-- truncation of a number in (-1, 256) fits into a byte -/
theorem ratTrunc_byte {a : ℚ} (h0 : -1 < a) (h : a < 256) : 0 ≤ ratTrunc a ∧ ratTrunc a ≤ 255 := by
  unfold ratTrunc
  split
  · rename_i hp
    constructor
    · exact Int.floor_nonneg.mpr hp
    · have : ⌊a⌋ < 256 := Int.floor_lt.mpr (by exact_mod_cast h)
      have h' : a.floor = ⌊a⌋ := rfl
      omega
  · rename_i hp
    have h1 : (-a).floor = 0 := by
      have : ⌊-a⌋ = 0 := Int.floor_eq_zero_iff.mpr ⟨by linarith, by linarith⟩
      exact this
    rw [h1]; simp

/-- conversion to uint8 of a number in (-1, 256) is exact truncation, whatever the implementation does elsewhere -/
theorem toU8_eq (impl : Fl f → UInt8) {x : Fl f} (hx : x.isFin = true) (h0 : -1 < x.val) (h : x.val < 256) :
    (toU8 impl x).toNat = (ratTrunc x.val).toNat := by
  obtain ⟨k1, k2⟩ := ratTrunc_byte h0 h
  unfold toU8
  rw [if_pos hx, if_pos ⟨k1, k2⟩]
  rw [UInt8.toNat_ofNat']
  omega

end Go.Fl
