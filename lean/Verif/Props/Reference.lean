/-
C52: the grids are where they are documented to be.
-/
import Verif.Lemmas.RefPoints
import Verif.Spec.Reference
import Verif.Props.RealProjection

namespace Props
open Go Radolan Spec Real

theorem spherical_of {format : Int} {b : Int × Int} (hf : format < 5 ∨ b = (275, 300)) (hne : b ≠ (275, 300)) :
    ¬ 5 ≤ format := by
  rcases hf with hf | hf
  · omega
  · exact absurd hf hne

/-- the corners of a grid are the nominal distance apart in the plane, to 10 ppm -/
theorem plane_extent {format dx dy : Int} {b : Int × Int} (h : HasGrid format dx dy b) {ot ol eb er : ℚ}
    (hc : corners b format = some (ot, ol, eb, er)) :
    |(planeXY realArith format eb er).1 - (planeXY realArith format ot ol).1 - (extentKm b).1| ≤ (extentKm b).1 / 10 ^ 5 ∧
    |(planeXY realArith format eb er).2 - (planeXY realArith format ot ol).2 - (extentKm b).2| ≤ (extentKm b).2 / 10 ^ 5 := by
  obtain ⟨hb, _, hf⟩ := h
  have hf' := fun hne => spherical_of hf hne
  simp only [baseGrids, List.mem_cons, List.not_mem_nil, or_false] at hb
  rcases hb with rfl | rfl | rfl | rfl | rfl
  · have hf := hf' (by decide)
    simp [corners] at hc
    obtain ⟨rfl, rfl, rfl, rfl⟩ := hc
    have h1 := Num.g900_x hf
    have h2 := Num.g900_y hf
    simp [extentKm]
    push_cast
    norm_num at h1 h2 ⊢
    exact ⟨h1, h2⟩
  · have hf := hf' (by decide)
    simp [corners] at hc
    obtain ⟨rfl, rfl, rfl, rfl⟩ := hc
    have h1 := Num.g920_x hf
    have h2 := Num.g920_y hf
    simp [extentKm]
    push_cast
    norm_num at h1 h2 ⊢
    exact ⟨h1, h2⟩
  · have hf := hf' (by decide)
    simp [corners] at hc
    obtain ⟨rfl, rfl, rfl, rfl⟩ := hc
    have h1 := Num.g1100_x hf
    have h2 := Num.g1100_y hf
    simp [extentKm]
    push_cast
    norm_num at h1 h2 ⊢
    exact ⟨h1, h2⟩
  · clear hf hf'
    by_cases hf : 5 ≤ format
    · simp [corners, hf] at hc
      obtain ⟨rfl, rfl, rfl, rfl⟩ := hc
      have h1 := Num.g1200w_x hf
      have h2 := Num.g1200w_y hf
      simp [extentKm]
      push_cast
      norm_num at h1 h2 ⊢
      exact ⟨h1, h2⟩
    · simp [corners, hf] at hc
      obtain ⟨rfl, rfl, rfl, rfl⟩ := hc
      have h1 := Num.g1200s_x hf
      have h2 := Num.g1200s_y hf
      simp [extentKm]
      push_cast
      norm_num at h1 h2 ⊢
      exact ⟨h1, h2⟩
  · have hf := hf' (by decide)
    simp [corners] at hc
    obtain ⟨rfl, rfl, rfl, rfl⟩ := hc
    have h1 := Num.g1500_x hf
    have h2 := Num.g1500_y hf
    simp [extentKm]
    push_cast
    norm_num at h1 h2 ⊢
    exact ⟨h1, h2⟩

/-- position, in nominal kilometres from the top left corner, of a projected point -/
theorem position_eq {format dx dy : Int} {b : Int × Int} (h : HasGrid format dx dy b) {ot ol eb er : ℚ}
    (hc : corners b format = some (ot, ol, eb, er)) (n e : ℝ) :
    (realProject format dx dy n e).1 * ((extentKm b).1 / dx) =
      ((planeXY realArith format n e).1 - (planeXY realArith format ot ol).1) /
        ((planeXY realArith format eb er).1 - (planeXY realArith format ot ol).1) * (extentKm b).1 ∧
    (realProject format dx dy n e).2 * ((extentKm b).2 / dy) =
      ((planeXY realArith format n e).2 - (planeXY realArith format ot ol).2) /
        ((planeXY realArith format eb er).2 - (planeXY realArith format ot ol).2) * (extentKm b).2 := by
  obtain ⟨e1, e2, e3⟩ := realCalib_eq h hc
  obtain ⟨p1, p2⟩ := C37_resolution_positive h
  obtain ⟨px, py⟩ := hasGrid_pos h
  have px' : (dx : ℝ) ≠ 0 := by exact_mod_cast px.ne'
  have py' : (dy : ℝ) ≠ 0 := by exact_mod_cast py.ne'
  rw [e3]
  rw [e1] at p1 ⊢
  rw [e2] at p2 ⊢
  have n1 : (planeXY realArith format eb er).1 - (planeXY realArith format ot ol).1 ≠ 0 := by
    intro h0; rw [h0] at p1; simp at p1
  have n2 : (planeXY realArith format eb er).2 - (planeXY realArith format ot ol).2 ≠ 0 := by
    intro h0; rw [h0] at p2; simp at p2
  constructor
  · simp only; field_simp
  · simp only; field_simp

/-- C52. The calibrated pixel size is the nominal extent of the grid divided by the number of pixels, to 10 ppm, for
every grid at every resolution. -/
theorem C52_nominal_resolution {format dx dy : Int} {b : Int × Int} (h : HasGrid format dx dy b) :
    |(realCalib format dx dy).rx - (extentKm b).1 / dx| ≤ (extentKm b).1 / dx / 10 ^ 5 ∧
    |(realCalib format dx dy).ry - (extentKm b).2 / dy| ≤ (extentKm b).2 / dy / 10 ^ 5 := by
  obtain ⟨ot, ol, eb, er, hc⟩ := corners_isSome h
  obtain ⟨e1, e2, _⟩ := realCalib_eq h hc
  obtain ⟨h1, h2⟩ := plane_extent h hc
  obtain ⟨px, py⟩ := hasGrid_pos h
  have px' : (0 : ℝ) < dx := by exact_mod_cast px
  have py' : (0 : ℝ) < dy := by exact_mod_cast py
  rw [e1, e2, ← sub_div, ← sub_div, abs_div, abs_div, abs_of_pos px', abs_of_pos py', div_right_comm ((extentKm b).1 : ℝ) (dx : ℝ),
    div_right_comm ((extentKm b).2 : ℝ) (dy : ℝ)]
  exact ⟨div_le_div_of_nonneg_right h1 px'.le, div_le_div_of_nonneg_right h2 py'.le⟩

/-- C52. Every documented reference point of a grid (four corners and, for the spherical grids, 51 N 9 E) is projected
to its documented place, to 25 m or 1 mm depending on the number of documented decimals, for every grid at every
resolution. -/
theorem C52_reference_points {format dx dy : Int} {b : Int × Int} (h : HasGrid format dx dy b)
    {n e kx ky : ℚ} (hp : (n, e, kx, ky) ∈ refPoints b format) :
    |(realProject format dx dy n e).1 * ((extentKm b).1 / dx) - kx| ≤ refTolerance b ∧
    |(realProject format dx dy n e).2 * ((extentKm b).2 / dy) - ky| ≤ refTolerance b := by
  obtain ⟨ot, ol, eb, er, hc⟩ := corners_isSome h
  obtain ⟨q1, q2⟩ := position_eq h hc n e
  rw [q1, q2]
  clear q1 q2
  obtain ⟨hb, _, hf⟩ := h
  have hf' := fun hne => spherical_of hf hne
  simp only [baseGrids, List.mem_cons, List.not_mem_nil, or_false] at hb
  rcases hb with rfl | rfl | rfl | rfl | rfl
  · have hf := hf' (by decide)
    simp [corners] at hc
    obtain ⟨rfl, rfl, rfl, rfl⟩ := hc
    simp [refPoints] at hp
    simp [extentKm, refTolerance]
    rcases hp with ⟨rfl, rfl, rfl, rfl⟩ | ⟨rfl, rfl, rfl, rfl⟩ | ⟨rfl, rfl, rfl, rfl⟩ | ⟨rfl, rfl, rfl, rfl⟩ | ⟨rfl, rfl, rfl, rfl⟩
    · have h1 := Num.g900_x_0 hf
      have h2 := Num.g900_y_0 hf
      push_cast
      norm_num at h1 h2 ⊢
      try exact ⟨h1, h2⟩
    · have h1 := Num.g900_x_1 hf
      have h2 := Num.g900_y_1 hf
      push_cast
      norm_num at h1 h2 ⊢
      try exact ⟨h1, h2⟩
    · have h1 := Num.g900_x_2 hf
      have h2 := Num.g900_y_2 hf
      push_cast
      norm_num at h1 h2 ⊢
      try exact ⟨h1, h2⟩
    · have h1 := Num.g900_x_3 hf
      have h2 := Num.g900_y_3 hf
      push_cast
      norm_num at h1 h2 ⊢
      try exact ⟨h1, h2⟩
    · have h1 := Num.g900_x_4 hf
      have h2 := Num.g900_y_4 hf
      push_cast
      norm_num at h1 h2 ⊢
      try exact ⟨h1, h2⟩
  · have hf := hf' (by decide)
    simp [corners] at hc
    obtain ⟨rfl, rfl, rfl, rfl⟩ := hc
    simp [refPoints] at hp
    simp [extentKm, refTolerance]
    rcases hp with ⟨rfl, rfl, rfl, rfl⟩ | ⟨rfl, rfl, rfl, rfl⟩ | ⟨rfl, rfl, rfl, rfl⟩ | ⟨rfl, rfl, rfl, rfl⟩ | ⟨rfl, rfl, rfl, rfl⟩
    · have h1 := Num.g920_x_0 hf
      have h2 := Num.g920_y_0 hf
      push_cast
      norm_num at h1 h2 ⊢
      try exact ⟨h1, h2⟩
    · have h1 := Num.g920_x_1 hf
      have h2 := Num.g920_y_1 hf
      push_cast
      norm_num at h1 h2 ⊢
      try exact ⟨h1, h2⟩
    · have h1 := Num.g920_x_2 hf
      have h2 := Num.g920_y_2 hf
      push_cast
      norm_num at h1 h2 ⊢
      try exact ⟨h1, h2⟩
    · have h1 := Num.g920_x_3 hf
      have h2 := Num.g920_y_3 hf
      push_cast
      norm_num at h1 h2 ⊢
      try exact ⟨h1, h2⟩
    · have h1 := Num.g920_x_4 hf
      have h2 := Num.g920_y_4 hf
      push_cast
      norm_num at h1 h2 ⊢
      try exact ⟨h1, h2⟩
  · have hf := hf' (by decide)
    simp [corners] at hc
    obtain ⟨rfl, rfl, rfl, rfl⟩ := hc
    simp [refPoints] at hp
    simp [extentKm, refTolerance]
    rcases hp with ⟨rfl, rfl, rfl, rfl⟩ | ⟨rfl, rfl, rfl, rfl⟩ | ⟨rfl, rfl, rfl, rfl⟩ | ⟨rfl, rfl, rfl, rfl⟩ | ⟨rfl, rfl, rfl, rfl⟩
    · have h1 := Num.g1100_x_0 hf
      have h2 := Num.g1100_y_0 hf
      push_cast
      norm_num at h1 h2 ⊢
      try exact ⟨h1, h2⟩
    · have h1 := Num.g1100_x_1 hf
      have h2 := Num.g1100_y_1 hf
      push_cast
      norm_num at h1 h2 ⊢
      try exact ⟨h1, h2⟩
    · have h1 := Num.g1100_x_2 hf
      have h2 := Num.g1100_y_2 hf
      push_cast
      norm_num at h1 h2 ⊢
      try exact ⟨h1, h2⟩
    · have h1 := Num.g1100_x_3 hf
      have h2 := Num.g1100_y_3 hf
      push_cast
      norm_num at h1 h2 ⊢
      try exact ⟨h1, h2⟩
    · have h1 := Num.g1100_x_4 hf
      have h2 := Num.g1100_y_4 hf
      push_cast
      norm_num at h1 h2 ⊢
      try exact ⟨h1, h2⟩
  · clear hf hf'
    by_cases hf : 5 ≤ format
    · simp [corners, hf] at hc
      obtain ⟨rfl, rfl, rfl, rfl⟩ := hc
      simp [refPoints, hf] at hp
      simp [extentKm, refTolerance]
      rcases hp with ⟨rfl, rfl, rfl, rfl⟩ | ⟨rfl, rfl, rfl, rfl⟩ | ⟨rfl, rfl, rfl, rfl⟩ | ⟨rfl, rfl, rfl, rfl⟩
      · have h1 := Num.g1200w_x_0 hf
        have h2 := Num.g1200w_y_0 hf
        push_cast
        norm_num at h1 h2 ⊢
        try exact ⟨h1, h2⟩
      · have h1 := Num.g1200w_x_1 hf
        have h2 := Num.g1200w_y_1 hf
        push_cast
        norm_num at h1 h2 ⊢
        try exact ⟨h1, h2⟩
      · have h1 := Num.g1200w_x_2 hf
        have h2 := Num.g1200w_y_2 hf
        push_cast
        norm_num at h1 h2 ⊢
        try exact ⟨h1, h2⟩
      · have h1 := Num.g1200w_x_3 hf
        have h2 := Num.g1200w_y_3 hf
        push_cast
        norm_num at h1 h2 ⊢
        try exact ⟨h1, h2⟩
    · simp [corners, hf] at hc
      obtain ⟨rfl, rfl, rfl, rfl⟩ := hc
      simp [refPoints, hf] at hp
      simp [extentKm, refTolerance]
      rcases hp with ⟨rfl, rfl, rfl, rfl⟩ | ⟨rfl, rfl, rfl, rfl⟩ | ⟨rfl, rfl, rfl, rfl⟩ | ⟨rfl, rfl, rfl, rfl⟩ | ⟨rfl, rfl, rfl, rfl⟩
      · have h1 := Num.g1200s_x_0 hf
        have h2 := Num.g1200s_y_0 hf
        push_cast
        norm_num at h1 h2 ⊢
        try exact ⟨h1, h2⟩
      · have h1 := Num.g1200s_x_1 hf
        have h2 := Num.g1200s_y_1 hf
        push_cast
        norm_num at h1 h2 ⊢
        try exact ⟨h1, h2⟩
      · have h1 := Num.g1200s_x_2 hf
        have h2 := Num.g1200s_y_2 hf
        push_cast
        norm_num at h1 h2 ⊢
        try exact ⟨h1, h2⟩
      · have h1 := Num.g1200s_x_3 hf
        have h2 := Num.g1200s_y_3 hf
        push_cast
        norm_num at h1 h2 ⊢
        try exact ⟨h1, h2⟩
      · have h1 := Num.g1200s_x_4 hf
        have h2 := Num.g1200s_y_4 hf
        push_cast
        norm_num at h1 h2 ⊢
        try exact ⟨h1, h2⟩
  · have hf := hf' (by decide)
    simp [corners] at hc
    obtain ⟨rfl, rfl, rfl, rfl⟩ := hc
    simp [refPoints] at hp
    simp [extentKm, refTolerance]
    rcases hp with ⟨rfl, rfl, rfl, rfl⟩ | ⟨rfl, rfl, rfl, rfl⟩ | ⟨rfl, rfl, rfl, rfl⟩ | ⟨rfl, rfl, rfl, rfl⟩ | ⟨rfl, rfl, rfl, rfl⟩
    · have h1 := Num.g1500_x_0 hf
      have h2 := Num.g1500_y_0 hf
      push_cast
      norm_num at h1 h2 ⊢
      try exact ⟨h1, h2⟩
    · have h1 := Num.g1500_x_1 hf
      have h2 := Num.g1500_y_1 hf
      push_cast
      norm_num at h1 h2 ⊢
      try exact ⟨h1, h2⟩
    · have h1 := Num.g1500_x_2 hf
      have h2 := Num.g1500_y_2 hf
      push_cast
      norm_num at h1 h2 ⊢
      try exact ⟨h1, h2⟩
    · have h1 := Num.g1500_x_3 hf
      have h2 := Num.g1500_y_3 hf
      push_cast
      norm_num at h1 h2 ⊢
      try exact ⟨h1, h2⟩
    · have h1 := Num.g1500_x_4 hf
      have h2 := Num.g1500_y_4 hf
      push_cast
      norm_num at h1 h2 ⊢
      try exact ⟨h1, h2⟩

/-- the centre 51 N 9 E of the national composite at 1 km is pixel (450, 450), to 25 m -/
example : |(realProject 3 900 900 51 9).1 - 450| ≤ 25 / 1000 ∧ |(realProject 3 900 900 51 9).2 - 450| ≤ 25 / 1000 := by
  have := C52_reference_points (format := 3) (dx := 900) (dy := 900) (b := (225, 225))
    ⟨by decide, ⟨2, rfl, rfl⟩, Or.inl (by decide)⟩ (n := 51) (e := 9) (kx := 450) (ky := 450) (by simp [refPoints])
  norm_num [extentKm, refTolerance] at this ⊢
  exact this

/-- the WGS84 grid at 1 km has a pixel size of 1 km to 10 ppm -/
example : |(realCalib 5 1100 1200).rx - 1| ≤ 1 / 10 ^ 5 := by
  have := (C52_nominal_resolution (format := 5) (dx := 1100) (dy := 1200) (b := (275, 300))
    ⟨by decide, ⟨2, rfl, rfl⟩, Or.inr rfl⟩).1
  norm_num [extentKm] at this ⊢
  exact this

end Props
