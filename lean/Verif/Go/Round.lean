/-
Round-to-nearest-even on the rationals: the arithmetic core of the soft-float model of Go's
float32 / float64 (IEEE 754 binary32 / binary64).  Nothing here is code of /repo; it is the
meaning of Go's floating point operators, which conversion.go, projection*.go and vis.go use.
-/
import Mathlib.Data.Rat.Floor
import Mathlib.Algebra.Order.Field.Rat
import Mathlib.Algebra.Order.Field.Power
import Mathlib.Algebra.Order.Field.Basic
import Mathlib.Algebra.Order.Round
import Mathlib.Tactic.Linarith
import Mathlib.Tactic.Ring
import Mathlib.Tactic.FieldSimp
import Mathlib.Tactic.Positivity
import Mathlib.Tactic.NormNum

namespace Go

/-- `2 ^ e` for an integer exponent (computable form that the kernel evaluates quickly). -/
def pow2 : Int → ℚ
  | .ofNat n => ((2 ^ n : Nat) : ℚ)
  | .negSucc n => mkRat 1 (2 ^ (n + 1))

theorem pow2_eq (e : Int) : pow2 e = (2 : ℚ) ^ e := by
  cases e with
  | ofNat n => simp [pow2]
  | negSucc n =>
    simp only [pow2, Rat.mkRat_eq_div, zpow_negSucc]
    push_cast
    simp

theorem pow2_pos (e : Int) : 0 < pow2 e := by rw [pow2_eq]; positivity

theorem pow2_add (a b : Int) : pow2 (a + b) = pow2 a * pow2 b := by
  simp only [pow2_eq]; exact zpow_add₀ (by norm_num) a b

theorem pow2_sub (a b : Int) : pow2 (a - b) = pow2 a / pow2 b := by
  simp only [pow2_eq]; exact zpow_sub₀ (by norm_num) a b

theorem pow2_le {a b : Int} : pow2 a ≤ pow2 b ↔ a ≤ b := by
  simp only [pow2_eq]; exact zpow_le_zpow_iff_right₀ (by norm_num)

theorem pow2_lt {a b : Int} : pow2 a < pow2 b ↔ a < b := by
  simp only [pow2_eq]; exact zpow_lt_zpow_iff_right₀ (by norm_num)

theorem pow2_nat (n : Nat) : pow2 (n : Int) = (2 : ℚ) ^ n := by simp [pow2_eq]

theorem pow2_toNat {k : Int} (h : 0 ≤ k) : pow2 k = (2 : ℚ) ^ k.toNat := by
  rw [← pow2_nat, Int.toNat_of_nonneg h]

@[simp] theorem pow2_zero : pow2 0 = 1 := by simp [pow2_eq]

theorem pow2_succ (e : Int) : pow2 (e + 1) = 2 * pow2 e := by
  rw [pow2_add]; have : pow2 1 = 2 := by simp [pow2_eq]
  rw [this, mul_comm]

/-- `⌊log2 q⌋` for positive `q`. -/
def ilog2 (q : ℚ) : Int :=
  let e : Int := (Nat.log2 q.num.natAbs : Int) - (Nat.log2 q.den : Int)
  if pow2 e ≤ q then e else e - 1

theorem ilog2_spec {q : ℚ} (hq : 0 < q) : pow2 (ilog2 q) ≤ q ∧ q < pow2 (ilog2 q + 1) := by
  have hn : 0 < q.num := Rat.num_pos.mpr hq
  have hd : 0 < q.den := q.den_pos
  set a := q.num.natAbs with ha
  set b := q.den with hb
  have ha0 : a ≠ 0 := by omega
  have hb0 : b ≠ 0 := by omega
  have hqv : q = (a : ℚ) / (b : ℚ) := by
    conv_lhs => rw [← Rat.num_div_den q]
    have : (q.num : ℚ) = ((a : ℤ) : ℚ) := by
      congr 1; omega
    rw [this]; simp [hb]
  have ha1 : (2 : ℚ) ^ (Nat.log2 a) ≤ a := by exact_mod_cast Nat.log2_self_le ha0
  have ha2 : (a : ℚ) < 2 ^ (Nat.log2 a + 1) := by exact_mod_cast Nat.lt_log2_self
  have hb1 : (2 : ℚ) ^ (Nat.log2 b) ≤ b := by exact_mod_cast Nat.log2_self_le hb0
  have hb2 : (b : ℚ) < 2 ^ (Nat.log2 b + 1) := by exact_mod_cast Nat.lt_log2_self
  have hbp : (0 : ℚ) < b := by exact_mod_cast hd
  have hap : (0 : ℚ) < a := by exact_mod_cast Nat.pos_of_ne_zero ha0
  set e : Int := (Nat.log2 a : Int) - (Nat.log2 b : Int) with he
  have hup : q < pow2 (e + 1) := by
    have : e + 1 = ((Nat.log2 a + 1 : Nat) : Int) - (Nat.log2 b : Int) := by push_cast; omega
    rw [this, pow2_sub, pow2_nat, pow2_nat, hqv, div_lt_div_iff₀ hbp (by positivity)]
    calc (a : ℚ) * 2 ^ Nat.log2 b < 2 ^ (Nat.log2 a + 1) * 2 ^ Nat.log2 b := by
          exact mul_lt_mul_of_pos_right ha2 (by positivity)
      _ ≤ 2 ^ (Nat.log2 a + 1) * b := mul_le_mul_of_nonneg_left hb1 (by positivity)
  have hlo : pow2 (e - 1) ≤ q := by
    have : e - 1 = (Nat.log2 a : Int) - ((Nat.log2 b + 1 : Nat) : Int) := by push_cast; omega
    rw [this, pow2_sub, pow2_nat, pow2_nat, hqv, div_le_div_iff₀ (by positivity) hbp]
    calc (2 : ℚ) ^ Nat.log2 a * b ≤ a * b := mul_le_mul_of_nonneg_right ha1 hbp.le
      _ ≤ a * 2 ^ (Nat.log2 b + 1) := mul_le_mul_of_nonneg_left hb2.le hap.le
  show pow2 (if pow2 e ≤ q then e else e - 1) ≤ q ∧ q < pow2 ((if pow2 e ≤ q then e else e - 1) + 1)
  split
  · exact ⟨‹_›, hup⟩
  · refine ⟨hlo, ?_⟩
    rw [sub_add_cancel]; exact lt_of_not_ge ‹_›

theorem ilog2_unique {q : ℚ} {e : Int} (h1 : pow2 e ≤ q) (h2 : q < pow2 (e + 1)) : ilog2 q = e := by
  have hq : 0 < q := lt_of_lt_of_le (pow2_pos e) h1
  obtain ⟨h3, h4⟩ := ilog2_spec hq
  have a1 : e < ilog2 q + 1 := pow2_lt.mp (lt_of_le_of_lt h1 h4)
  have a2 : ilog2 q < e + 1 := pow2_lt.mp (lt_of_le_of_lt h3 h2)
  omega

theorem ilog2_mono {a b : ℚ} (ha : 0 < a) (h : a ≤ b) : ilog2 a ≤ ilog2 b := by
  have h1 := (ilog2_spec ha).1
  have h2 := (ilog2_spec (lt_of_lt_of_le ha h)).2
  have : ilog2 a < ilog2 b + 1 := pow2_lt.mp (lt_of_le_of_lt (le_trans h1 h) h2)
  omega

/-- Nearest integer, ties to even. -/
def roundEven (q : ℚ) : Int :=
  let f := q.floor
  let r := q - f
  if r < 1 / 2 then f else if 1 / 2 < r then f + 1 else if f % 2 = 0 then f else f + 1

theorem floor_bounds (q : ℚ) : (q.floor : ℚ) ≤ q ∧ q < q.floor + 1 :=
  ⟨Int.floor_le q, Int.lt_floor_add_one q⟩

theorem roundEven_err (q : ℚ) : |(roundEven q : ℚ) - q| ≤ 1 / 2 := by
  obtain ⟨h1, h2⟩ := floor_bounds q
  unfold roundEven
  simp only
  split
  · rw [abs_le]; constructor <;> linarith
  split
  · push_cast; rw [abs_le]; constructor <;> linarith
  split
  · rw [abs_le]; constructor <;> linarith
  · push_cast; rw [abs_le]; constructor <;> linarith

@[simp] theorem roundEven_intCast (n : Int) : roundEven (n : ℚ) = n := by
  have h' : ⌊(n : ℚ)⌋ = n := Int.floor_intCast n
  have : (n : ℚ).floor = n := h'
  simp [roundEven, this]

theorem roundEven_mono {a b : ℚ} (h : a ≤ b) : roundEven a ≤ roundEven b := by
  obtain ⟨a1, a2⟩ := floor_bounds a
  obtain ⟨b1, b2⟩ := floor_bounds b
  have hf : a.floor ≤ b.floor := Int.floor_mono h
  rcases eq_or_lt_of_le hf with he | hl
  · have : (a.floor : ℚ) = b.floor := by exact_mod_cast he
    unfold roundEven
    simp only
    rw [he]
    rw [he] at a1 a2
    split <;> split <;> (try split) <;> (try split) <;> (try split) <;>
      first
        | omega
        | (exfalso; linarith)
  · have hA : roundEven a ≤ a.floor + 1 := by
      unfold roundEven; simp only; split <;> (try split) <;> (try split) <;> omega
    have hB : b.floor ≤ roundEven b := by
      unfold roundEven; simp only; split <;> (try split) <;> (try split) <;> omega
    omega

theorem roundEven_neg (q : ℚ) : roundEven (-q) = - roundEven q := by
  obtain ⟨h1, h2⟩ := floor_bounds q
  by_cases hz : (q.floor : ℚ) = q
  · have hq : q = ((q.floor : Int) : ℚ) := hz.symm
    generalize q.floor = n at hq
    subst hq
    have : (-(n : ℚ)) = ((-n : Int) : ℚ) := by push_cast; rfl
    rw [this, roundEven_intCast, roundEven_intCast]
  · have hfl : (-q).floor = - q.floor - 1 := by
      have h' : ⌊-q⌋ = -q.floor - 1 ↔ _ := Int.floor_eq_iff
      apply h'.mpr; push_cast
      have : (q.floor : ℚ) < q := lt_of_le_of_ne h1 hz
      constructor <;> linarith
    unfold roundEven
    simp only [hfl]
    push_cast
    split <;> split <;> (try split) <;> (try split) <;> (try split) <;>
      first
        | omega
        | (exfalso; linarith)

theorem roundEven_le_of_le_int {q : ℚ} {n : Int} (h : q ≤ n) : roundEven q ≤ n := by
  simpa using roundEven_mono h

theorem le_roundEven_of_int_le {q : ℚ} {n : Int} (h : (n : ℚ) ≤ q) : n ≤ roundEven q := by
  simpa using roundEven_mono h

/-- A binary floating point format: `prec` significand bits, smallest positive value `2^emin`,
finite values below `2^emax`. -/
structure Fmt where
  prec : Nat
  emin : Int
  emax : Int
  hprec : 2 ≤ prec
  hrange : emin + prec < emax
  hzero : emin + prec < 0 ∧ 1 < emax

/-- IEEE binary32, Go's `float32`. -/
def f32 : Fmt := ⟨24, -149, 128, by decide, by decide, by decide⟩
/-- IEEE binary64, Go's `float64`. -/
def f64 : Fmt := ⟨53, -1074, 1024, by decide, by decide, by decide⟩

/-- exponent of the unit in the last place used when rounding a value of magnitude `a > 0`. -/
def ulpExp (f : Fmt) (a : ℚ) : Int := max (ilog2 a - ((f.prec : Int) - 1)) f.emin

/-- Round a rational to the nearest multiple of its ulp, ties to even (exponent unbounded above). -/
def rnd (f : Fmt) (q : ℚ) : ℚ :=
  if q = 0 then 0 else (roundEven (q / pow2 (ulpExp f |q|)) : ℚ) * pow2 (ulpExp f |q|)

@[simp] theorem rnd_zero (f : Fmt) : rnd f 0 = 0 := by simp [rnd]

theorem rnd_neg (f : Fmt) (q : ℚ) : rnd f (-q) = - rnd f q := by
  unfold rnd
  by_cases h : q = 0
  · simp [h]
  · simp only [neg_eq_zero, h, if_false, abs_neg, neg_div, roundEven_neg]
    push_cast; ring

theorem rnd_nonneg (f : Fmt) {q : ℚ} (h : 0 ≤ q) : 0 ≤ rnd f q := by
  unfold rnd
  split
  · rfl
  · apply mul_nonneg _ (pow2_pos _).le
    have : (0 : Int) ≤ roundEven (q / pow2 (ulpExp f |q|)) := by
      apply le_roundEven_of_int_le; push_cast; exact div_nonneg h (pow2_pos _).le
    exact_mod_cast this

/-- upper bound: a value below `2^(e+1)` rounds to at most `2^(e+1)` -/
theorem rnd_le_pow2 (f : Fmt) {q : ℚ} (h0 : 0 < q) {e : Int} (he : f.emin ≤ e) (h : q ≤ pow2 e) :
    rnd f q ≤ pow2 e := by
  unfold rnd
  rw [if_neg h0.ne', abs_of_pos h0]
  set x := ulpExp f q with hx
  have hs := ilog2_spec h0
  have hle : x ≤ e := by
    have h1 : ilog2 q ≤ e := by
      by_contra hc
      have : pow2 (e + 1) ≤ pow2 (ilog2 q) := pow2_le.mpr (by omega)
      have h2 : pow2 e < pow2 (e + 1) := pow2_lt.mpr (by omega)
      linarith [hs.1]
    have := f.hprec
    rw [hx]; unfold ulpExp; omega
  have hk : pow2 e / pow2 x = (((2 : Int) ^ (e - x).toNat : Int) : ℚ) := by
    rw [← pow2_sub, pow2_toNat (by omega)]; push_cast; rfl
  have hr : roundEven (q / pow2 x) ≤ (2 : Int) ^ (e - x).toNat := by
    apply roundEven_le_of_le_int
    rw [← hk]; exact div_le_div_of_nonneg_right h (pow2_pos x).le
  have hr' : (roundEven (q / pow2 x) : ℚ) ≤ pow2 e / pow2 x := by rw [hk]; exact_mod_cast hr
  rwa [le_div_iff₀ (pow2_pos x)] at hr'

/-- lower bound: a value at least `2^e` rounds to at least `2^e` -/
theorem pow2_le_rnd (f : Fmt) {q : ℚ} {e : Int} (he : f.emin ≤ e) (h : pow2 e ≤ q) :
    pow2 e ≤ rnd f q := by
  have h0 : 0 < q := lt_of_lt_of_le (pow2_pos e) h
  unfold rnd
  rw [if_neg h0.ne', abs_of_pos h0]
  set x := ulpExp f q with hx
  have hs := ilog2_spec h0
  have hle : e ≤ ilog2 q := by
    have : e < ilog2 q + 1 := pow2_lt.mp (lt_of_le_of_lt h hs.2)
    omega
  by_cases hxe : x ≤ e
  · have hk : pow2 e / pow2 x = (((2 : Int) ^ (e - x).toNat : Int) : ℚ) := by
      rw [← pow2_sub, pow2_toNat (by omega)]; push_cast; rfl
    have hr : (2 : Int) ^ (e - x).toNat ≤ roundEven (q / pow2 x) := by
      apply le_roundEven_of_int_le
      rw [← hk]; exact div_le_div_of_nonneg_right h (pow2_pos x).le
    have hr' : pow2 e / pow2 x ≤ (roundEven (q / pow2 x) : ℚ) := by rw [hk]; exact_mod_cast hr
    rwa [div_le_iff₀ (pow2_pos x)] at hr'
  · have hx2 : x ≤ ilog2 q := by
      have := f.hprec
      rw [hx] at hxe ⊢; unfold ulpExp at hxe ⊢; omega
    have h1 : (1 : Int) ≤ roundEven (q / pow2 x) := by
      apply le_roundEven_of_int_le
      push_cast; rw [le_div_iff₀ (pow2_pos x), one_mul]
      exact le_trans (pow2_le.mpr hx2) hs.1
    have h1' : (1 : ℚ) ≤ (roundEven (q / pow2 x) : ℚ) := by exact_mod_cast h1
    calc pow2 e ≤ pow2 x := pow2_le.mpr (by omega)
      _ = 1 * pow2 x := (one_mul _).symm
      _ ≤ _ := mul_le_mul_of_nonneg_right h1' (pow2_pos x).le

theorem rnd_mono_pos (f : Fmt) {a b : ℚ} (ha : 0 < a) (h : a ≤ b) : rnd f a ≤ rnd f b := by
  have hb : 0 < b := lt_of_lt_of_le ha h
  have hm := ilog2_mono ha h
  by_cases hx : ulpExp f a = ulpExp f b
  · unfold rnd
    rw [if_neg ha.ne', if_neg hb.ne', abs_of_pos ha, abs_of_pos hb, hx]
    apply mul_le_mul_of_nonneg_right _ (pow2_pos _).le
    exact_mod_cast roundEven_mono (div_le_div_of_nonneg_right h (pow2_pos _).le)
  · have hp := f.hprec
    have hlt : ilog2 a + 1 ≤ ilog2 b := by
      unfold ulpExp at hx; omega
    have hbe : f.emin ≤ ilog2 b := by
      unfold ulpExp at hx; omega
    have h2 : pow2 (ilog2 b) ≤ rnd f b := pow2_le_rnd f hbe (ilog2_spec hb).1
    have h1 : rnd f a ≤ pow2 (ilog2 b) := by
      apply rnd_le_pow2 f ha hbe
      exact le_trans (ilog2_spec ha).2.le (pow2_le.mpr hlt)
    exact le_trans h1 h2

/-- Rounding is monotone. -/
theorem rnd_mono (f : Fmt) {a b : ℚ} (h : a ≤ b) : rnd f a ≤ rnd f b := by
  rcases lt_trichotomy a 0 with ha | ha | ha
  · rcases lt_trichotomy b 0 with hb | hb | hb
    · have := rnd_mono_pos f (a := -b) (b := -a) (by linarith) (by linarith)
      rw [rnd_neg, rnd_neg] at this; linarith
    · have := rnd_nonneg f (q := -a) (by linarith)
      rw [rnd_neg] at this; rw [hb, rnd_zero]; linarith
    · have h1 := rnd_nonneg f (q := -a) (by linarith)
      rw [rnd_neg] at h1
      have h2 := rnd_nonneg f hb.le
      linarith
  · rw [ha, rnd_zero]; exact rnd_nonneg f (by linarith)
  · exact rnd_mono_pos f ha h

/-- Every multiple of `2^e` (with `emin ≤ e`) of at most `prec` significant bits is representable. -/
theorem rnd_exact (f : Fmt) {n e : Int} (he : f.emin ≤ e) (hn : |n| ≤ 2 ^ f.prec) :
    rnd f ((n : ℚ) * pow2 e) = n * pow2 e := by
  by_cases h0 : n = 0
  · simp [h0]
  have hq0 : (n : ℚ) * pow2 e ≠ 0 := mul_ne_zero (by exact_mod_cast h0) (pow2_pos e).ne'
  unfold rnd
  rw [if_neg hq0]
  set q := |(n : ℚ) * pow2 e| with hq
  have hqv : q = (|n| : Int) * pow2 e := by
    rw [hq, abs_mul, abs_of_pos (pow2_pos e)]; push_cast; rfl
  have hqpos : 0 < q := abs_pos.mpr hq0
  by_cases hx : ulpExp f q ≤ e
  · -- q / 2^x is an integer
    set x := ulpExp f q with hxd
    have hk : (n : ℚ) * pow2 e / pow2 x = ((n * 2 ^ (e - x).toNat : Int) : ℚ) := by
      rw [mul_div_assoc, ← pow2_sub, pow2_toNat (by omega)]; push_cast; rfl
    rw [hk, roundEven_intCast, ← hk, div_mul_cancel₀ _ (pow2_pos x).ne']
  · -- only possible if |n| = 2^prec
    have hs := ilog2_spec hqpos
    have hp := f.hprec
    have hge : e + f.prec ≤ ilog2 q := by
      unfold ulpExp at hx; omega
    have hup : q ≤ pow2 (e + f.prec) := by
      rw [hqv, add_comm, pow2_add, pow2_nat]
      apply mul_le_mul_of_nonneg_right _ (pow2_pos e).le
      exact_mod_cast hn
    have heq : q = pow2 (e + f.prec) :=
      le_antisymm hup (le_trans (pow2_le.mpr hge) hs.1)
    have hnabs : |n| = 2 ^ f.prec := by
      rw [hqv, add_comm, pow2_add, pow2_nat] at heq
      have := mul_right_cancel₀ (pow2_pos e).ne' heq
      exact_mod_cast this
    have hil : ilog2 q = e + f.prec := by
      apply ilog2_unique
      · rw [heq]
      · rw [heq]; exact pow2_lt.mpr (by omega)
    set x := ulpExp f q with hxd
    have hxv : x = e + 1 := by
      rw [hxd]; unfold ulpExp; rw [hil]; omega
    obtain ⟨k, hk⟩ : ∃ k, n = 2 * k := by
      have h2 : (2 : Int) ∣ |n| := by
        rw [hnabs]; exact dvd_pow_self 2 (by omega)
      rw [dvd_abs] at h2
      exact h2
    have hk' : (n : ℚ) * pow2 e / pow2 x = ((k : Int) : ℚ) := by
      rw [hxv, pow2_succ, hk]; push_cast
      have := (pow2_pos e).ne'
      field_simp
    rw [hk', roundEven_intCast, ← hk', div_mul_cancel₀ _ (pow2_pos x).ne']

/-- A rounded value has the form `n * 2^e` with few enough bits. -/
theorem rnd_form (f : Fmt) (q : ℚ) :
    ∃ n e : Int, f.emin ≤ e ∧ |n| ≤ 2 ^ f.prec ∧ rnd f q = n * pow2 e := by
  by_cases h0 : q = 0
  · exact ⟨0, f.emin, le_refl _, by simp, by simp [h0]⟩
  · refine ⟨roundEven (q / pow2 (ulpExp f |q|)), ulpExp f |q|, le_max_right _ _, ?_, by
      unfold rnd; rw [if_neg h0]⟩
    have hp := f.hprec
    have hqpos : 0 < |q| := abs_pos.mpr h0
    have hs := ilog2_spec hqpos
    set x := ulpExp f |q| with hx
    have hxe : ilog2 |q| + 1 ≤ x + f.prec := by rw [hx]; unfold ulpExp; omega
    have hb : |q| / pow2 x ≤ (((2 : Int) ^ f.prec : Int) : ℚ) := by
      rw [div_le_iff₀ (pow2_pos x)]
      have h1 : |q| ≤ pow2 (x + f.prec) := le_trans hs.2.le (pow2_le.mpr hxe)
      rw [add_comm, pow2_add, pow2_nat] at h1
      push_cast; exact h1
    rw [abs_le]
    constructor
    · apply le_roundEven_of_int_le
      push_cast at hb ⊢
      have : -(|q| / pow2 x) ≤ q / pow2 x := by
        rw [← neg_div]; exact div_le_div_of_nonneg_right (neg_abs_le q) (pow2_pos x).le
      linarith
    · apply roundEven_le_of_le_int
      exact le_trans (div_le_div_of_nonneg_right (le_abs_self q) (pow2_pos x).le) hb

/-- Rounding is idempotent. -/
theorem rnd_idem (f : Fmt) (q : ℚ) : rnd f (rnd f q) = rnd f q := by
  obtain ⟨n, e, he, hn, hr⟩ := rnd_form f q
  rw [hr]; exact rnd_exact f he hn

/-- Relative error in the normal range. -/
theorem rnd_rel_err (f : Fmt) {q : ℚ} (h : pow2 (f.emin + f.prec - 1) ≤ |q|) :
    |rnd f q - q| ≤ |q| * pow2 (-(f.prec : Int)) := by
  have hqpos : 0 < |q| := lt_of_lt_of_le (pow2_pos _) h
  have h0 : q ≠ 0 := abs_pos.mp hqpos
  have hs := ilog2_spec hqpos
  have hil : f.emin + f.prec - 1 ≤ ilog2 |q| := by
    have := pow2_lt.mp (lt_of_le_of_lt h hs.2); omega
  have hx : ulpExp f |q| = ilog2 |q| - ((f.prec : Int) - 1) := by unfold ulpExp; omega
  unfold rnd; rw [if_neg h0]
  set x := ulpExp f |q| with hxd
  have he := roundEven_err (q / pow2 x)
  have : (roundEven (q / pow2 x) : ℚ) * pow2 x - q
      = ((roundEven (q / pow2 x) : ℚ) - q / pow2 x) * pow2 x := by
    rw [sub_mul, div_mul_cancel₀ _ (pow2_pos x).ne']
  rw [this, abs_mul, abs_of_pos (pow2_pos x)]
  calc _ ≤ 1 / 2 * pow2 x := mul_le_mul_of_nonneg_right he (pow2_pos x).le
    _ = pow2 (ilog2 |q|) * pow2 (-(f.prec : Int)) := by
        rw [← pow2_add]
        have : ilog2 |q| + -(f.prec : Int) = x - 1 := by omega
        rw [this, pow2_sub]
        have : pow2 1 = 2 := by simp [pow2_eq]
        rw [this]; ring
    _ ≤ _ := mul_le_mul_of_nonneg_right hs.1 (pow2_pos _).le

/-- Absolute error in the subnormal range. -/
theorem rnd_abs_err (f : Fmt) {q : ℚ} (h : |q| < pow2 (f.emin + f.prec)) :
    |rnd f q - q| ≤ pow2 (f.emin - 1) := by
  by_cases h0 : q = 0
  · simp [h0, (pow2_pos _).le]
  have hqpos : 0 < |q| := abs_pos.mpr h0
  have hs := ilog2_spec hqpos
  have hil : ilog2 |q| < f.emin + f.prec := pow2_lt.mp (lt_of_le_of_lt hs.1 h)
  have hx : ulpExp f |q| = f.emin := by unfold ulpExp; omega
  unfold rnd; rw [if_neg h0, hx]
  have he := roundEven_err (q / pow2 f.emin)
  have : (roundEven (q / pow2 f.emin) : ℚ) * pow2 f.emin - q
      = ((roundEven (q / pow2 f.emin) : ℚ) - q / pow2 f.emin) * pow2 f.emin := by
    rw [sub_mul, div_mul_cancel₀ _ (pow2_pos _).ne']
  rw [this, abs_mul, abs_of_pos (pow2_pos _)]
  calc _ ≤ 1 / 2 * pow2 f.emin := mul_le_mul_of_nonneg_right he (pow2_pos _).le
    _ = pow2 (f.emin - 1) := by
        rw [pow2_sub]
        have : pow2 1 = 2 := by simp [pow2_eq]
        rw [this]; ring

end Go
