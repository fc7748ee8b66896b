/-
C39, C40, C41: Z-R relations and NaN.
-/
import Verif.Model.RealArith
import Verif.Props.Shape

namespace Props
open Go Radolan Spec Real

/-- Z-R relation `Z = a * R^b` in exact arithmetic -/
noncomputable abbrev realZR (a b : ℝ) : ZR ℝ := NewZR realArith a b
noncomputable abbrev realRate (a b d : ℝ) : ℝ := precipitationRate realArith (realZR a b) d
noncomputable abbrev realRefl (a b r : ℝ) : ℝ := reflectivity realArith (realZR a b) r

theorem log10_ne : Real.log 10 ≠ 0 := (Real.log_pos (by norm_num)).ne'

/-- the rate as an exponential -/
theorem realRate_eq {a b : ℝ} (ha : 0 < a) (d : ℝ) :
    realRate a b d = exp ((d / 10 * log 10 - log a) / b) := by
  unfold realRate precipitationRate realZR NewZR
  simp only [realArith]
  push_cast
  rw [rpow_def_of_pos ha, rpow_def_of_pos (by norm_num : (0 : ℝ) < 10), rpow_def_of_pos (exp_pos _), log_exp, ← exp_add]
  congr 1
  by_cases hb : b = 0
  · simp [hb]
  · field_simp
    ring

theorem realRefl_eq {a b : ℝ} (r : ℝ) :
    realRefl a b r = 10 * (log a + b * log r) / log 10 := by
  unfold realRefl reflectivity realZR NewZR
  simp only [realArith, logb]
  push_cast
  have := log10_ne
  field_simp

/-- C39. In exact arithmetic the rate of a reflectivity `d` (dBZ) satisfies `Z = a * R^b` where `d = 10 log10 Z`. -/
theorem C39_zr_law {a b : ℝ} (ha : 0 < a) (hb : b ≠ 0) (d : ℝ) :
    a * (realRate a b d) ^ b = 10 ^ (d / 10) := by
  rw [realRate_eq ha, rpow_def_of_pos (exp_pos _), log_exp, div_mul_cancel₀ _ hb, exp_sub, exp_log ha,
    mul_div_cancel₀ _ ha.ne', rpow_def_of_pos (by norm_num : (0 : ℝ) < 10)]
  congr 1; ring

/-- C39. Rate and reflectivity are inverse to each other, in exact arithmetic. -/
theorem C39_inverse {a b : ℝ} (ha : 0 < a) (hb : b ≠ 0) :
    (∀ d, realRefl a b (realRate a b d) = d) ∧ (∀ r, 0 < r → realRate a b (realRefl a b r) = r) := by
  have hl := log10_ne
  constructor
  · intro d
    rw [realRefl_eq, realRate_eq ha, log_exp]
    field_simp
    ring
  · intro r hr
    rw [realRate_eq ha, realRefl_eq]
    have : (10 * (log a + b * log r) / log 10 / 10 * log 10 - log a) / b = log r := by
      field_simp; ring
    rw [this, exp_log hr]

/-- C40. The rate is positive and strictly increasing in the reflectivity, for `a > 0`, `b > 0`, in exact
arithmetic. -/
theorem C40_rate_monotone {a b : ℝ} (ha : 0 < a) (hb : 0 < b) :
    (∀ d, 0 < realRate a b d) ∧ StrictMono (realRate a b) := by
  constructor
  · intro d; rw [realRate_eq ha]; exact exp_pos _
  · intro d d' h
    rw [realRate_eq ha, realRate_eq ha, exp_lt_exp]
    apply div_lt_div_of_pos_right _ hb
    have := Real.log_pos (by norm_num : (1 : ℝ) < 10)
    nlinarith

/-- the operational relation Z = 256 R^1.42 -/
example : (256 : ℝ) * (realRate 256 1.42 40) ^ (1.42 : ℝ) = 10 ^ ((40 : ℝ) / 10) ∧
    realRate 256 1.42 39.5 < realRate 256 1.42 40 :=
  ⟨C39_zr_law (by norm_num) (by norm_num) _, (C40_rate_monotone (by norm_num) (by norm_num)).2 (by norm_num)⟩

/-- C41. IsNaN recognises exactly NaN. -/
theorem C41_isNaN (x : F32) : IsNaN x = true ↔ x = .nan := by
  unfold IsNaN
  cases h : Fl.beq x x
  · have : ¬ (x ≠ .nan) := by rw [← Fl.beq_self]; simp [h]
    simpa using this
  · have : x ≠ .nan := by rw [← Fl.beq_self]; exact h
    simp [this]

theorem mul_nan {f : Fmt} (x : Fl f) : Fl.mul x .nan = .nan := by cases x <;> rfl

/-- C41. The rate of a missing value is missing: for every Z-R relation made by NewZR whose 10^(1/(10*B)) is not
rounded to 1, and every math.Pow with math.Pow(x, NaN) = NaN for x other than 1 (documented special case). -/
theorem C41_nan_rate (L : MathLib) (hpow : ∀ x : F64, x ≠ Fl.lit f64 1 → L.pow x .nan = .nan) (a b : F64)
    (h1 : L.pow (Fl.lit f64 10) (Fl.div (Fl.lit f64 1) (Fl.mul (Fl.lit f64 10) b)) ≠ Fl.lit f64 1)
    (dBZ : F32) (hd : IsNaN dBZ = true) : PrecipitationRate L (NewZR (f64Arith L) a b) dBZ = .nan := by
  rw [(C41_isNaN dBZ).mp hd]
  unfold PrecipitationRate precipitationRate NewZR
  simp only [f64Arith, Fl.conv]
  rw [hpow _ h1]
  exact mul_nan _

/-- a math library meeting the hypotheses, and the relation of Aniol (256, 1.42) -/
def powLib : MathLib :=
  { env0.math with
    pow := fun x y => if y = .nan then (if x = Fl.lit f64 1 then Fl.lit f64 1 else .nan) else Fl.lit f64 2 }

example : PrecipitationRate powLib (NewZR (f64Arith powLib) (Fl.lit f64 256) (Fl.lit f64 1.42)) .nan = .nan :=
  C41_nan_rate powLib (by intro x hx; simp [powLib, hx]) _ _ (by decide +kernel) _ rfl

end Props
