/-
C58, C59: distances on the grids; every place of a grid has exactly one geographic coordinate.
-/
import Verif.Props.RealProjection
import Verif.Lemmas.TrigNum
import Mathlib.Analysis.SpecialFunctions.Trigonometric.Arctan
import Mathlib.Analysis.SpecialFunctions.Complex.Arg
import Mathlib.Topology.Order.IntermediateValue
import Mathlib.Analysis.SpecialFunctions.Pow.Continuity

namespace Props
open Go Radolan Spec Real

/-- displacement in kilometres between the images of two geographic points on a grid: pixels times pixel size -/
noncomputable def kmBetween (format dx dy : Int) (n e n' e' : ℝ) : ℝ × ℝ :=
  (((realProject format dx dy n' e').1 - (realProject format dx dy n e).1) * (realCalib format dx dy).rx,
   ((realProject format dx dy n' e').2 - (realProject format dx dy n e).2) * (realCalib format dx dy).ry)

theorem kmBetween_eq {format dx dy : Int} {b : Int × Int} (h : HasGrid format dx dy b) (n e n' e' : ℝ) :
    kmBetween format dx dy n e n' e' =
      ((planeXY realArith format n' e').1 - (planeXY realArith format n e).1,
       (planeXY realArith format n' e').2 - (planeXY realArith format n e).2) := by
  obtain ⟨ot, ol, eb, er, hc⟩ := corners_isSome h
  obtain ⟨_, _, e3⟩ := realCalib_eq h hc
  obtain ⟨p1, p2⟩ := C37_resolution_positive h
  unfold kmBetween
  rw [e3, e3]
  ext
  · simp only; field_simp; ring
  · simp only; field_simp; ring

/-- C58. Two composites on the same earth model (both before format version 5, or both from it on), whatever their grids
and resolutions, show the same displacement in kilometres between any two geographic points. -/
theorem C58_common_plane {f f' dx dy dx' dy' : Int} {b b' : Int × Int} (h : HasGrid f dx dy b) (h' : HasGrid f' dx' dy' b')
    (hf : f < 5 ↔ f' < 5) (n e n' e' : ℝ) : kmBetween f dx dy n e n' e' = kmBetween f' dx' dy' n e n' e' := by
  rw [kmBetween_eq h, kmBetween_eq h']
  have : ∀ n e : ℝ, planeXY realArith f n e = planeXY realArith f' n e := by
    intro n e
    unfold planeXY
    by_cases h5 : 5 ≤ f
    · rw [if_pos h5, if_pos (by omega)]
    · rw [if_neg h5, if_neg (by omega)]
  rw [this, this]

/-- position on the sphere of radius 6370.04 km -/
noncomputable def onSphere (n e : ℝ) : ℝ × ℝ × ℝ :=
  (637004 / 100 * (cos (rads n) * cos (rads e)), 637004 / 100 * (cos (rads n) * sin (rads e)), 637004 / 100 * sin (rads n))

/-- squared straight-line distance (through the earth) -/
noncomputable def chordSq (n e n' e' : ℝ) : ℝ :=
  ((onSphere n' e').1 - (onSphere n e).1) ^ 2 + ((onSphere n' e').2.1 - (onSphere n e).2.1) ^ 2 +
    ((onSphere n' e').2.2 - (onSphere n e).2.2) ^ 2

/-- scale of the polar stereographic map at a latitude, true at 60 N -/
noncomputable def scaleAt (n : ℝ) : ℝ := (1 + sin (rads 60)) / (1 + sin (rads n))

theorem chordSq_eq (n e n' e' : ℝ) : chordSq n e n' e' = (637004 / 100) ^ 2 *
    (2 - 2 * (sin (rads n) * sin (rads n')) - 2 * (cos (rads n) * cos (rads n')) *
      (cos (rads e) * cos (rads e') + sin (rads e) * sin (rads e'))) := by
  unfold chordSq onSphere
  simp only
  have s1 := sin_sq_add_cos_sq (rads n)
  have s2 := sin_sq_add_cos_sq (rads n')
  have t1 := sin_sq_add_cos_sq (rads e)
  have t2 := sin_sq_add_cos_sq (rads e')
  have q1 : (cos (rads n)) ^ 2 * ((sin (rads e)) ^ 2 + (cos (rads e)) ^ 2) = (cos (rads n)) ^ 2 := by rw [t1, mul_one]
  have q2 : (cos (rads n')) ^ 2 * ((sin (rads e')) ^ 2 + (cos (rads e')) ^ 2) = (cos (rads n')) ^ 2 := by rw [t2, mul_one]
  linear_combination (637004 / 100) ^ 2 * (q1 + q2 + s1 + s2)

theorem polar_alg {s c s' c' k : ℝ} (h : s ^ 2 + c ^ 2 = 1) (h' : s' ^ 2 + c' ^ 2 = 1) (h1 : 1 + s ≠ 0) (h2 : 1 + s' ≠ 0) :
    (c / (1 + s)) ^ 2 + (c' / (1 + s')) ^ 2 - 2 * (c / (1 + s)) * (c' / (1 + s')) * k =
      (2 - 2 * (s * s') - 2 * (c * c') * k) / ((1 + s) * (1 + s')) := by
  have e1 : (c / (1 + s)) ^ 2 = (1 - s) / (1 + s) := by
    rw [div_pow, div_eq_div_iff (by positivity) h1]
    linear_combination (1 + s) * h
  have e2 : (c' / (1 + s')) ^ 2 = (1 - s') / (1 + s') := by
    rw [div_pow, div_eq_div_iff (by positivity) h2]
    linear_combination (1 + s') * h'
  rw [e1, e2]
  field_simp
  ring

/-- C58. On the spherical grids the squared distance of two points on the picture, in kilometres, is their squared
straight-line distance times the map scales at both points (1 at 60 N). -/
theorem C58_distances {format dx dy : Int} {b : Int × Int} (h : HasGrid format dx dy b) (hf : format < 5)
    {n e n' e' : ℝ} (hn : -90 < n ∧ n < 90) (hn' : -90 < n' ∧ n' < 90) :
    (kmBetween format dx dy n e n' e').1 ^ 2 + (kmBetween format dx dy n e n' e').2 ^ 2 =
      scaleAt n * scaleAt n' * chordSq n e n' e' := by
  have hf' : ¬ 5 ≤ format := by omega
  rw [kmBetween_eq h, planeXY_real format hn.1 hn.2, planeXY_real format hn'.1 hn'.2, chordSq_eq]
  have b1 := sin_bounds (rads_mem hn.1 hn.2)
  have b2 := sin_bounds (rads_mem hn'.1 hn'.2)
  have s1 := sin_sq_add_cos_sq (rads n)
  have s2 := sin_sq_add_cos_sq (rads n')
  have t1 := sin_sq_add_cos_sq (rads (e - 10))
  have t2 := sin_sq_add_cos_sq (rads (e' - 10))
  have hd : cos (rads e) * cos (rads e') + sin (rads e) * sin (rads e') =
      cos (rads (e - 10)) * cos (rads (e' - 10)) + sin (rads (e - 10)) * sin (rads (e' - 10)) := by
    rw [← cos_sub, ← cos_sub]; congr 1; unfold rads; ring
  rw [hd]
  simp only
  unfold radius scaleAt polar
  rw [if_neg hf', if_neg hf']
  have key := polar_alg (k := cos (rads (e - 10)) * cos (rads (e' - 10)) + sin (rads (e - 10)) * sin (rads (e' - 10))) s1 s2
    (by linarith) (by linarith)
  set K := 637004 / 100 * (1 + sin (rads 60)) with hK
  have lhs : ∀ p p' x y x' y' o o' : ℝ, x ^ 2 + y ^ 2 = 1 → x' ^ 2 + y' ^ 2 = 1 →
      (o + K * p' * x' - (o + K * p * x)) ^ 2 + (o' + K * p' * y' - (o' + K * p * y)) ^ 2 =
      K ^ 2 * (p ^ 2 + p' ^ 2 - 2 * p * p' * (y * y' + x * x')) := by
    intro p p' x y x' y' o o' h1 h2
    linear_combination K ^ 2 * p' ^ 2 * h2 + K ^ 2 * p ^ 2 * h1
  rw [lhs _ _ _ _ _ _ _ _ t1 t2, key, hK]
  have n1 : 1 + sin (rads n) ≠ 0 := by linarith
  have n2 : 1 + sin (rads n') ≠ 0 := by linarith
  field_simp

/-! ### every place has a coordinate -/

theorem polar_onto {t : ℝ} (ht : 0 < t) : ∃ φ ∈ Set.Ioo (-(π / 2)) (π / 2), polar φ = t := by
  have h1 := arctan_lt_pi_div_two t
  have h2 : 0 < arctan t := arctan_pos.mpr ht
  have hm : π / 2 - 2 * arctan t ∈ Set.Ioo (-(π / 2)) (π / 2) := by constructor <;> linarith
  refine ⟨_, hm, ?_⟩
  rw [← tan_half hm, show 1 / 2 * (π / 2 - (π / 2 - 2 * arctan t)) = arctan t by ring, tan_arctan]

theorem ellFactor_range {e φ : ℝ} (he : 0 < e) (he1 : e < 1) (h : φ ∈ Set.Ioo (-(π / 2)) (π / 2)) :
    ((1 - e) / (1 + e)) ^ (1 / 2 * e) ≤ ellFactor e φ ∧ ellFactor e φ ≤ ((1 + e) / (1 - e)) ^ (1 / 2 * e) := by
  have hb := sin_bounds h
  obtain ⟨h1, h2⟩ := ell_bounds he he1 hb
  unfold ellFactor
  constructor
  · apply rpow_le_rpow (div_nonneg (by linarith) (by linarith)) _ (by linarith)
    rw [div_le_div_iff₀ (by linarith) h2]; nlinarith
  · apply rpow_le_rpow (div_nonneg h1.le h2.le) _ (by linarith)
    rw [div_le_div_iff₀ h2 (by linarith)]; nlinarith

theorem polar_cont : ContinuousOn polar (Set.Ioo (-(π / 2)) (π / 2)) := by
  unfold polar
  apply ContinuousOn.div continuous_cos.continuousOn (by fun_prop)
  intro φ hφ
  have := sin_bounds hφ
  linarith

theorem ellPolar_cont {e : ℝ} (he : 0 < e) (he1 : e < 1) : ContinuousOn (ellPolar e) (Set.Ioo (-(π / 2)) (π / 2)) := by
  unfold ellPolar
  apply ContinuousOn.div polar_cont
  · unfold ellFactor
    apply ContinuousOn.rpow_const
    · apply ContinuousOn.div (by fun_prop) (by fun_prop)
      intro φ hφ
      exact (ell_bounds he he1 (sin_bounds hφ)).2.ne'
    · intro φ hφ
      left
      obtain ⟨h1, h2⟩ := ell_bounds he he1 (sin_bounds hφ)
      exact (div_pos h1 h2).ne'
  · intro φ hφ
    exact (ellFactor_pos he he1 hφ).ne'

theorem ellPolar_onto {e t : ℝ} (he : 0 < e) (he1 : e < 1) (ht : 0 < t) :
    ∃ φ ∈ Set.Ioo (-(π / 2)) (π / 2), ellPolar e φ = t := by
  set m := ((1 - e) / (1 + e)) ^ (1 / 2 * e) with hm
  set M := ((1 + e) / (1 - e)) ^ (1 / 2 * e) with hM
  have m0 : 0 < m := rpow_pos_of_pos (div_pos (by linarith) (by linarith)) _
  have M0 : 0 < M := rpow_pos_of_pos (div_pos (by linarith) (by linarith)) _
  obtain ⟨a, ha, ea⟩ := polar_onto (mul_pos ht M0)
  obtain ⟨b, hb, eb⟩ := polar_onto (mul_pos ht m0)
  have ka : t ≤ ellPolar e a := by
    unfold ellPolar
    rw [ea, le_div_iff₀ (ellFactor_pos he he1 ha)]
    exact mul_le_mul_of_nonneg_left (ellFactor_range he he1 ha).2 ht.le
  have kb : ellPolar e b ≤ t := by
    unfold ellPolar
    rw [eb, div_le_iff₀ (ellFactor_pos he he1 hb)]
    exact mul_le_mul_of_nonneg_left (ellFactor_range he he1 hb).1 ht.le
  have hsub : Set.uIcc b a ⊆ Set.Ioo (-(π / 2)) (π / 2) := Set.OrdConnected.uIcc_subset (Set.ordConnected_Ioo) hb ha
  obtain ⟨φ, hφ, h⟩ := intermediate_value_uIcc ((ellPolar_cont he he1).mono hsub) (Set.mem_uIcc.mpr (Or.inl ⟨kb, ka⟩))
  exact ⟨φ, hsub hφ, h⟩

theorem radius_onto (format : Int) {r : ℝ} (hr : 0 < r) : ∃ n, -90 < n ∧ n < 90 ∧ radius format n = r := by
  have hpi := pi_pos
  have back : ∀ φ ∈ Set.Ioo (-(π / 2)) (π / 2), -90 < φ * (180 / π) ∧ φ * (180 / π) < 90 ∧ rads (φ * (180 / π)) = φ := by
    intro φ hφ
    refine ⟨?_, ?_, ?_⟩
    · have := hφ.1
      rw [mul_div_assoc', lt_div_iff₀ hpi]; linarith
    · have := hφ.2
      rw [mul_div_assoc', div_lt_iff₀ hpi]; linarith
    · unfold rads; field_simp
  unfold radius
  by_cases hf : 5 ≤ format
  · simp only [if_pos hf]
    obtain ⟨φ, hφ, h⟩ := ellPolar_onto (e := ecc84) (t := r / (11862667042661695 / 10 ^ 9 / 1000))
      (by unfold ecc84; norm_num) (by unfold ecc84; norm_num) (by positivity)
    obtain ⟨h1, h2, h3⟩ := back φ hφ
    exact ⟨_, h1, h2, by rw [h3, h]; field_simp⟩
  · simp only [if_neg hf]
    have hs : 0 < 1 + sin (rads 60) := by
      have := sin_bounds (rads_mem (d := 60) (by norm_num) (by norm_num)); linarith
    obtain ⟨φ, hφ, h⟩ := polar_onto (t := r / (637004 / 100 * (1 + sin (rads 60)))) (by positivity)
    obtain ⟨h1, h2, h3⟩ := back φ hφ
    exact ⟨_, h1, h2, by rw [h3, h]; field_simp⟩

theorem angle_onto {X Y : ℝ} (h : X ≠ 0 ∨ Y ≠ 0) : ∃ r e, 0 < r ∧ -170 < e ∧ e ≤ 190 ∧
    X = r * sin (rads (e - 10)) ∧ Y = r * cos (rads (e - 10)) := by
  have hpi := pi_pos
  set z : ℂ := ⟨Y, X⟩ with hz
  have hz0 : z ≠ 0 := by
    intro h0
    have h1 := congrArg Complex.re h0
    have h2 := congrArg Complex.im h0
    simp [hz] at h1 h2
    rcases h with h | h
    · exact h h2
    · exact h h1
  have hn : ‖z‖ ≠ 0 := norm_ne_zero_iff.mpr hz0
  have ea : rads (10 + z.arg * (180 / π) - 10) = z.arg := by unfold rads; field_simp; ring
  refine ⟨‖z‖, 10 + z.arg * (180 / π), norm_pos_iff.mpr hz0, ?_, ?_, ?_, ?_⟩
  · have := Complex.neg_pi_lt_arg z
    have : -180 < z.arg * (180 / π) := by rw [mul_div_assoc', lt_div_iff₀ hpi]; linarith
    linarith
  · have := Complex.arg_le_pi z
    have : z.arg * (180 / π) ≤ 180 := by rw [mul_div_assoc', div_le_iff₀ hpi]; linarith
    linarith
  · rw [ea, Complex.sin_arg, mul_div_cancel₀ _ hn]
  · rw [ea, Complex.cos_arg hz0, mul_div_cancel₀ _ hn]

/-- the image of the north pole lies above the grid -/
theorem origin_below_pole {format dx dy : Int} {b : Int × Int} (_ : HasGrid format dx dy b) {ot ol eb er : ℚ}
    (hc : corners b format = some (ot, ol, eb, er)) : (pole format).2 < (planeXY realArith format ot ol).2 := by
  obtain ⟨f1, f2, f3, f4, f5, _⟩ := corners_facts hc
  have g1 : (-90 : ℝ) < ot := by exact_mod_cast f1.trans f2
  have g3 : (ot : ℝ) < 90 := by exact_mod_cast f3
  have g4 : (-80 : ℝ) < ol := by exact_mod_cast f4
  have g5 : (ol : ℝ) < 10 := by exact_mod_cast f5
  rw [planeXY_real format g1 g3]
  have c : 0 < cos (rads (ol - 10)) := cos_pos_of_mem_Ioo (rads_mem (by linarith) (by linarith))
  have := mul_pos (radius_pos format g1 g3) c
  simp only; linarith

/-- C59. Every place on or below the top edge of a grid, in particular every place inside the picture, is the image of
exactly one geographic point (latitude between the poles, longitude in a full turn around 10 E). -/
theorem C59_every_place {format dx dy : Int} {b : Int × Int} (h : HasGrid format dx dy b) (x y : ℝ) (hy : 0 ≤ y) :
    ∃ n e, (-90 < n ∧ n < 90 ∧ -170 < e ∧ e ≤ 190 ∧ realProject format dx dy n e = (x, y)) ∧
      ∀ n' e', -90 < n' → n' < 90 → -170 < e' → e' ≤ 190 → realProject format dx dy n' e' = (x, y) → n' = n ∧ e' = e := by
  obtain ⟨ot, ol, eb, er, hc⟩ := corners_isSome h
  obtain ⟨e1, e2, e3⟩ := realCalib_eq h hc
  obtain ⟨p1, p2⟩ := C37_resolution_positive h
  have hp := origin_below_pole h hc
  have hY : 0 < (planeXY realArith format ot ol).2 + y * (realCalib format dx dy).ry - (pole format).2 := by
    have := mul_nonneg hy p2.le
    linarith
  obtain ⟨r, e, hr, he1, he2, hX', hY'⟩ := angle_onto
    (X := (planeXY realArith format ot ol).1 + x * (realCalib format dx dy).rx - (pole format).1)
    (Y := (planeXY realArith format ot ol).2 + y * (realCalib format dx dy).ry - (pole format).2) (Or.inr hY.ne')
  obtain ⟨n, hn1, hn2, hrn⟩ := radius_onto format hr
  have him : realProject format dx dy n e = (x, y) := by
    rw [e3, planeXY_real format hn1 hn2, hrn, ← hX', ← hY']
    ext
    · simp only; field_simp; ring
    · simp only; field_simp; ring
  refine ⟨n, e, ⟨hn1, hn2, he1, he2, him⟩, ?_⟩
  intro n' e' h1 h2 h3 h4 h5
  exact C37_injective h ⟨h1, h2⟩ ⟨hn1, hn2⟩ ⟨h3, h4⟩ ⟨he1, he2⟩ (h5.trans him.symm)

/-- the centre of pixel (300, 400) of the national composite has a coordinate -/
example : ∃ n e, realProject 3 900 900 n e = (300.5, 400.5) := by
  obtain ⟨n, e, ⟨_, _, _, _, h⟩, _⟩ := C59_every_place (b := (225, 225)) (format := 3) (dx := 900) (dy := 900)
    ⟨by decide, ⟨2, rfl, rfl⟩, Or.inl (by decide)⟩ 300.5 400.5 (by norm_num)
  exact ⟨n, e, h⟩

end Props
