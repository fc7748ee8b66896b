/-
C35 (exact form), C36 (exact form), C37: the projection in real arithmetic.
-/
import Verif.Lemmas.RealPlane
import Verif.Spec.Grid

namespace Props
open Go Radolan Spec Real

/-- what the projection fields are calibrated to in exact arithmetic -/
noncomputable def realCalib (format dx dy : Int) : Calib ℝ := calibrate realArith format dx dy

/-- Project in exact arithmetic for a composite of the given format and dimensions -/
noncomputable def realProject (format dx dy : Int) (north east : ℝ) : ℝ × ℝ :=
  project realArith (realCalib format dx dy) north east

/-- the grids with a projection (see C31) -/
def HasGrid (format dx dy : Int) (b : Int × Int) : Prop :=
  b ∈ baseGrids ∧ Scaled b dx dy ∧ (format < 5 ∨ b = (275, 300))

theorem hasGrid_detect {format dx dy : Int} {b : Int × Int} (h : HasGrid format dx dy b) :
    detectGrid dx dy ≠ .unknown ∧ gridBase (detectGrid dx dy) = b ∧ (format < 5 ∨ detectGrid dx dy = .de1200) := by
  obtain ⟨hb, hs, hf⟩ := h
  have key : ∀ g : Grid, g ≠ .unknown → gridBase g = b → detectGrid dx dy = g := by
    intro g hg he; rw [← he] at hs; exact (detectGrid_iff hg).mpr hs
  simp only [baseGrids, List.mem_cons, List.not_mem_nil, or_false] at hb
  rcases hb with rfl | rfl | rfl | rfl | rfl
  · rw [key .national (by decide) rfl]; simp at hf; simp [gridBase, hf]
  · rw [key .nationalPicture (by decide) rfl]; simp at hf; simp [gridBase, hf]
  · rw [key .extendedNational (by decide) rfl]; simp at hf; simp [gridBase, hf]
  · rw [key .de1200 (by decide) rfl]; simp [gridBase]
  · rw [key .middleEuropean (by decide) rfl]; simp at hf; simp [gridBase, hf]

theorem hasGrid_pos {format dx dy : Int} {b : Int × Int} (h : HasGrid format dx dy b) : 0 < dx ∧ 0 < dy := by
  obtain ⟨hb, ⟨k, h1, h2⟩, _⟩ := h
  have : ∀ b ∈ baseGrids, 0 < b.1 ∧ 0 < b.2 := by decide
  obtain ⟨p1, p2⟩ := this b hb
  rw [h1, h2]; constructor <;> positivity

/-- facts about the corner coordinates: latitudes and longitudes are ordered, and the right edge is closer to the
central meridian 10 E than the left one -/
theorem corners_facts {b : Int × Int} {format : Int} {ot ol eb er : ℚ}
    (h : corners b format = some (ot, ol, eb, er)) :
    -90 < eb ∧ eb < ot ∧ ot < 90 ∧ -80 < ol ∧ ol < 10 ∧ 10 < er ∧ er < 100 ∧ er - 10 ≤ 10 - ol := by
  unfold corners at h
  split at h
  · simp only [Option.some.injEq, Prod.mk.injEq] at h; obtain ⟨rfl, rfl, rfl, rfl⟩ := h; norm_num
  split at h
  · simp only [Option.some.injEq, Prod.mk.injEq] at h; obtain ⟨rfl, rfl, rfl, rfl⟩ := h; norm_num
  split at h
  · simp only [Option.some.injEq, Prod.mk.injEq] at h; obtain ⟨rfl, rfl, rfl, rfl⟩ := h; norm_num
  split at h
  · split at h
    · simp only [Option.some.injEq, Prod.mk.injEq] at h; obtain ⟨rfl, rfl, rfl, rfl⟩ := h; norm_num
    · simp only [Option.some.injEq, Prod.mk.injEq] at h; obtain ⟨rfl, rfl, rfl, rfl⟩ := h; norm_num
  split at h
  · simp only [Option.some.injEq, Prod.mk.injEq] at h; obtain ⟨rfl, rfl, rfl, rfl⟩ := h; norm_num
  · simp at h

theorem corners_isSome {format dx dy : Int} {b : Int × Int} (h : HasGrid format dx dy b) :
    ∃ ot ol eb er, corners b format = some (ot, ol, eb, er) := by
  obtain ⟨hb, _, _⟩ := h
  simp only [baseGrids, List.mem_cons, List.not_mem_nil, or_false] at hb
  rcases hb with rfl | rfl | rfl | rfl | rfl <;> simp [corners]
  split <;> simp

/-- the calibration in closed form -/
theorem realCalib_eq {format dx dy : Int} {b : Int × Int} (h : HasGrid format dx dy b) {ot ol eb er : ℚ}
    (hc : corners b format = some (ot, ol, eb, er)) :
    (realCalib format dx dy).rx = ((planeXY realArith format eb er).1 - (planeXY realArith format ot ol).1) / dx ∧
    (realCalib format dx dy).ry = ((planeXY realArith format eb er).2 - (planeXY realArith format ot ol).2) / dy ∧
    ∀ n e : ℝ, realProject format dx dy n e =
      (((planeXY realArith format n e).1 - (planeXY realArith format ot ol).1) / (realCalib format dx dy).rx,
       ((planeXY realArith format n e).2 - (planeXY realArith format ot ol).2) / (realCalib format dx dy).ry) := by
  obtain ⟨hg, hbg, hf⟩ := hasGrid_detect h
  have hcorn := cornerPoints_spec realArith (format := format) hg (by rw [hbg]; exact hc)
  have hp : (calibrate realArith format dx dy).hasProjection = true :=
    (calibrate_hasProjection realArith format dx dy).mpr ⟨hg, hf⟩
  have heq := calibrate_eq realArith (by intro x; simp [realArith]) (by intro x; simp [realArith]) hcorn hp
  refine ⟨by unfold realCalib; rw [heq]; rfl, by unfold realCalib; rw [heq]; rfl, ?_⟩
  intro n e
  unfold realProject realCalib
  rw [heq, project_eq]
  rfl

/-- C37. The calibrated pixel sizes are positive. -/
theorem C37_resolution_positive {format dx dy : Int} {b : Int × Int} (h : HasGrid format dx dy b) :
    0 < (realCalib format dx dy).rx ∧ 0 < (realCalib format dx dy).ry := by
  obtain ⟨ot, ol, eb, er, hc⟩ := corners_isSome h
  obtain ⟨e1, e2, _⟩ := realCalib_eq h hc
  obtain ⟨f1, f2, f3, f4, f5, f6, f7, f8⟩ := corners_facts hc
  have g1 : (-90 : ℝ) < eb := by exact_mod_cast f1
  have g2 : (eb : ℝ) < ot := by exact_mod_cast f2
  have g3 : (ot : ℝ) < 90 := by exact_mod_cast f3
  have g4 : (-80 : ℝ) < ol := by exact_mod_cast f4
  have g5 : (ol : ℝ) < 10 := by exact_mod_cast f5
  have g6 : (10 : ℝ) < er := by exact_mod_cast f6
  have g7 : (er : ℝ) < 100 := by exact_mod_cast f7
  have g8 : (er : ℝ) - 10 ≤ 10 - ol := by exact_mod_cast f8
  obtain ⟨px, py⟩ := hasGrid_pos h
  have px' : (0 : ℝ) < dx := by exact_mod_cast px
  have py' : (0 : ℝ) < dy := by exact_mod_cast py
  rw [e1, e2, planeXY_real format g1 (g2.trans g3) er, planeXY_real format (g1.trans g2) g3 ol]
  have r1 := radius_pos format g1 (g2.trans g3)
  have r2 := radius_pos format (g1.trans g2) g3
  have r3 := radius_anti format g1 g2 g3
  have hpi := pi_pos
  have s1 : 0 < sin (rads (er - 10)) := by
    apply sin_pos_of_pos_of_lt_pi <;> unfold rads <;> nlinarith
  have s2 : sin (rads (ol - 10)) < 0 := by
    apply sin_neg_of_neg_of_neg_pi_lt <;> unfold rads <;> nlinarith
  have c2 : 0 < cos (rads (ol - 10)) := by
    apply cos_pos_of_mem_Ioo; exact rads_mem (by linarith) (by linarith)
  have c1 : cos (rads (ol - 10)) ≤ cos (rads (er - 10)) := by
    rw [← cos_neg (rads (ol - 10))]
    apply cos_le_cos_of_nonneg_of_le_pi
    · unfold rads; have : 0 < (er : ℝ) - 10 := by linarith
      positivity
    · unfold rads; nlinarith
    · unfold rads; nlinarith
  constructor
  · apply div_pos _ px'
    have := mul_pos r1 s1
    have := mul_neg_of_pos_of_neg r2 s2
    simp only
    linarith
  · apply div_pos _ py'
    simp only
    have a1 : radius format ot * cos (rads (ol - 10)) < radius format eb * cos (rads (ol - 10)) :=
      mul_lt_mul_of_pos_right r3 c2
    have a2 : radius format eb * cos (rads (ol - 10)) ≤ radius format eb * cos (rads (er - 10)) :=
      mul_le_mul_of_nonneg_left c1 r1.le
    linarith

/-- C35, exact arithmetic: the corners of the grid are projected to exactly (0, 0) and (Dx, Dy). -/
theorem C35_corners_exact {format dx dy : Int} {b : Int × Int} (h : HasGrid format dx dy b) {ot ol eb er : ℚ}
    (hc : corners b format = some (ot, ol, eb, er)) :
    realProject format dx dy ot ol = (0, 0) ∧ realProject format dx dy eb er = ((dx : ℝ), (dy : ℝ)) := by
  obtain ⟨e1, e2, e3⟩ := realCalib_eq h hc
  obtain ⟨p1, p2⟩ := C37_resolution_positive h
  obtain ⟨px, py⟩ := hasGrid_pos h
  have px' : (dx : ℝ) ≠ 0 := by exact_mod_cast px.ne'
  have py' : (dy : ℝ) ≠ 0 := by exact_mod_cast py.ne'
  rw [e3, e3]
  constructor
  · simp
  · rw [e1] at p1
    rw [e2] at p2
    have n1 : (planeXY realArith format eb er).1 - (planeXY realArith format ot ol).1 ≠ 0 := by
      intro h0; rw [h0] at p1; simp at p1
    have n2 : (planeXY realArith format eb er).2 - (planeXY realArith format ot ol).2 ≠ 0 := by
      intro h0; rw [h0] at p2; simp at p2
    rw [e1, e2]
    ext
    · simp only; field_simp
    · simp only; field_simp

/-- C37. Distinct geographic points (latitude between the poles, longitude in a full turn around 10 E) have distinct
images. -/
theorem C37_injective {format dx dy : Int} {b : Int × Int} (h : HasGrid format dx dy b)
    {n e n' e' : ℝ} (hn : -90 < n ∧ n < 90) (hn' : -90 < n' ∧ n' < 90)
    (he : -170 < e ∧ e ≤ 190) (he' : -170 < e' ∧ e' ≤ 190)
    (heq : realProject format dx dy n e = realProject format dx dy n' e') : n = n' ∧ e = e' := by
  obtain ⟨ot, ol, eb, er, hc⟩ := corners_isSome h
  obtain ⟨e1, e2, e3⟩ := realCalib_eq h hc
  obtain ⟨p1, p2⟩ := C37_resolution_positive h
  rw [e3, e3] at heq
  simp only [Prod.mk.injEq] at heq
  obtain ⟨q1, q2⟩ := heq
  have q1 := (div_left_inj' p1.ne').mp q1
  have q2 := (div_left_inj' p2.ne').mp q2
  rw [planeXY_real format hn.1 hn.2, planeXY_real format hn'.1 hn'.2] at q1 q2
  simp only at q1 q2
  have r1 := radius_pos format hn.1 hn.2
  have r2 := radius_pos format hn'.1 hn'.2
  set r := radius format n
  set r' := radius format n'
  have k1 : r * sin (rads (e - 10)) = r' * sin (rads (e' - 10)) := by linarith
  have k2 : r * cos (rads (e - 10)) = r' * cos (rads (e' - 10)) := by linarith
  have hr : r = r' := by
    have s1 := sin_sq_add_cos_sq (rads (e - 10))
    have s2 := sin_sq_add_cos_sq (rads (e' - 10))
    have : r ^ 2 = r' ^ 2 := by
      calc r ^ 2 = (r * sin (rads (e - 10))) ^ 2 + (r * cos (rads (e - 10))) ^ 2 := by
            rw [mul_pow, mul_pow, ← mul_add, s1, mul_one]
        _ = (r' * sin (rads (e' - 10))) ^ 2 + (r' * cos (rads (e' - 10))) ^ 2 := by rw [k1, k2]
        _ = r' ^ 2 := by rw [mul_pow, mul_pow, ← mul_add, s2, mul_one]
    exact (pow_left_inj₀ r1.le r2.le (by norm_num)).mp this
  have hnn : n = n' := by
    rcases lt_trichotomy n n' with hl | hl | hl
    · have := radius_anti format hn.1 hl hn'.2; simp only [r, r'] at hr; linarith
    · exact hl
    · have := radius_anti format hn'.1 hl hn.2; simp only [r, r'] at hr; linarith
  refine ⟨hnn, ?_⟩
  rw [hr] at k1 k2
  have k1 := mul_left_cancel₀ r2.ne' k1
  have k2 := mul_left_cancel₀ r2.ne' k2
  have hang := Real.Angle.cos_sin_inj k2 k1
  obtain ⟨z, hz⟩ := Real.Angle.angle_eq_iff_two_pi_dvd_sub.mp hang
  have hpi := pi_pos
  have hz' : (e - e') * (π / 180) = 2 * π * z := by
    unfold rads at hz; linarith
  have hz'' : e - e' = 360 * z := by
    have := pi_pos.ne'
    field_simp at hz'
    linarith
  have hz0 : z = 0 := by
    have h1 : (z : ℝ) < 1 := by linarith [he.2, he'.1]
    have h2 : (-1 : ℝ) < z := by linarith [he.1, he'.2]
    have h1 : z < 1 := by exact_mod_cast h1
    have h2 : -1 < z := by exact_mod_cast h2
    omega
  rw [hz0] at hz''
  push_cast at hz''
  linarith

/-- C37. Within 90 degrees of the central meridian x grows eastwards along a parallel and y grows southwards along a
meridian. -/
theorem C37_orientation {format dx dy : Int} {b : Int × Int} (h : HasGrid format dx dy b) :
    (∀ n e e' : ℝ, -90 < n → n < 90 → -80 ≤ e → e < e' → e' ≤ 100 →
      (realProject format dx dy n e).1 < (realProject format dx dy n e').1) ∧
    (∀ n n' e : ℝ, -90 < n → n < n' → n' < 90 → -80 < e → e < 100 →
      (realProject format dx dy n' e).2 < (realProject format dx dy n e).2) := by
  obtain ⟨ot, ol, eb, er, hc⟩ := corners_isSome h
  obtain ⟨_, _, e3⟩ := realCalib_eq h hc
  obtain ⟨p1, p2⟩ := C37_resolution_positive h
  have hpi := pi_pos
  constructor
  · intro n e e' h1 h2 h3 h4 h5
    rw [e3, e3]
    simp only
    apply div_lt_div_of_pos_right _ p1
    rw [planeXY_real format h1 h2, planeXY_real format h1 h2]
    simp only
    have hs : sin (rads (e - 10)) < sin (rads (e' - 10)) := by
      apply strictMonoOn_sin
      · constructor <;> unfold rads <;> nlinarith
      · constructor <;> unfold rads <;> nlinarith
      · exact rads_strictMono (by linarith)
    have := mul_lt_mul_of_pos_left hs (radius_pos format h1 h2)
    linarith
  · intro n n' e h1 h2 h3 h4 h5
    rw [e3, e3]
    simp only
    apply div_lt_div_of_pos_right _ p2
    rw [planeXY_real format h1 (h2.trans h3), planeXY_real format (h1.trans h2) h3]
    simp only
    have hcos : 0 < cos (rads (e - 10)) := cos_pos_of_mem_Ioo (rads_mem (by linarith) (by linarith))
    have := mul_lt_mul_of_pos_right (radius_anti format h1 h2 h3) hcos
    linarith

/-- C36, exact arithmetic: with `2^k` times as many pixels along each edge every projected coordinate is multiplied
by `2^k` and the pixel sizes are divided by it. -/
theorem C36_scaling_exact {format dx dy : Int} {b : Int × Int} (h : HasGrid format dx dy b) (k : Nat) :
    (realCalib format (dx * 2 ^ k) (dy * 2 ^ k)).rx = (realCalib format dx dy).rx / 2 ^ k ∧
    (realCalib format (dx * 2 ^ k) (dy * 2 ^ k)).ry = (realCalib format dx dy).ry / 2 ^ k ∧
    ∀ n e : ℝ, realProject format (dx * 2 ^ k) (dy * 2 ^ k) n e =
      (2 ^ k * (realProject format dx dy n e).1, 2 ^ k * (realProject format dx dy n e).2) := by
  obtain ⟨hb, ⟨l, s1, s2⟩, hf⟩ := id h
  have h' : HasGrid format (dx * 2 ^ k) (dy * 2 ^ k) b :=
    ⟨hb, ⟨l + k, by rw [s1]; ring, by rw [s2]; ring⟩, hf⟩
  obtain ⟨ot, ol, eb, er, hc⟩ := corners_isSome h
  obtain ⟨e1, e2, e3⟩ := realCalib_eq h hc
  obtain ⟨e1', e2', e3'⟩ := realCalib_eq h' hc
  have r1 : (realCalib format (dx * 2 ^ k) (dy * 2 ^ k)).rx = (realCalib format dx dy).rx / 2 ^ k := by
    rw [e1, e1']; push_cast; rw [div_div]
  have r2 : (realCalib format (dx * 2 ^ k) (dy * 2 ^ k)).ry = (realCalib format dx dy).ry / 2 ^ k := by
    rw [e2, e2']; push_cast; rw [div_div]
  refine ⟨r1, r2, ?_⟩
  intro n e
  obtain ⟨p1, p2⟩ := C37_resolution_positive h
  rw [e3', e3, r1, r2]
  ext
  · simp only; field_simp
  · simp only; field_simp

/-- the 900 x 900 km grid at 1 km and the WGS84 1100 x 1200 km grid at 1 km meet the hypotheses -/
example : HasGrid 3 900 900 (225, 225) ∧ HasGrid 5 1100 1200 (275, 300) :=
  ⟨⟨by decide, ⟨2, rfl, rfl⟩, Or.inl (by decide)⟩, ⟨by decide, ⟨2, rfl, rfl⟩, Or.inr rfl⟩⟩

/-- Hamburg (53.55 N, 9.99 E) lies north of Munich (48.14 N, 9.99 E) on the national grid -/
example : (realProject 3 900 900 53.55 9.99).2 < (realProject 3 900 900 48.14 9.99).2 :=
  (C37_orientation (b := (225, 225)) ⟨by decide, ⟨2, rfl, rfl⟩, Or.inl (by decide)⟩).2 _ _ _
    (by norm_num) (by norm_num) (by norm_num) (by norm_num) (by norm_num)

end Props
