/-
The test cases of the repository, replayed on the model (header_test.go, conversion_test.go and the distance test of
projection_sphere_test.go; the reference points of the projection tests are in Spec/Reference.lean and Props/Reference,
Props/FloatProjection). These are tests of the model, not properties.
-/
import Verif.Props.FloatConversion
import Verif.Props.Plane
import Verif.Spec.Calendar

namespace Props
open Go Go.Fl Radolan Radolan.Num Spec Real

/-! ### header_test.go -/

/-- the fields of a composite compared by testParseHeader, and the rest of the input -/
def headerFields (p : PRes Bytes) : Option ((Bytes × Bytes) × List Int × Option (List F32)) :=
  match p with
  | .ok rest c => some ((rest, c.product), [c.captureTime, c.forecastTime, c.interval, c.dx, c.dy, c.dataLength, c.precision], c.level)
  | _ => none

/-- header_test.go:27-53, TestParseHeaderPG (23:15 CEST is 21:15 UTC) -/
example : headerFields (parseHeader env0 (str "PG262115100000616BY22205LV 6  1.0 19.0 28.0 37.0 46.0 55.0CS0MX 0MS 88<boo,ros,emd,hnr,umd,pro,ess,fld,drs,neu,nhb,oft,eis,tur,isn,fbg,mem> are used, BG460460" ++ [3] ++ str "binarycontent") Composite.zero) =
    some ((str "binarycontent", str "PG"), [(Civil.mk 2016 6 26 21 15).instant, (Civil.mk 2016 6 26 21 15).instant, 0, 460, 460,
      22205 - 159, 0], some ([1, 19, 28, 37, 46, 55].map (lit f32))) := by decide +kernel

/-- header_test.go:55-83, TestParseHeaderFZ (the forecast, 00:45 CEST on the next day, is 22:45 UTC) -/
example : headerFields (parseHeader env0 (str "FZ282105100000716BY 405160VS 3SW   2.13.1PR E-01INT   5GP 450x 450VV 100MF 00000002MS 66<boo,ros,emd,hnr,umd,pro,ess,drs,neu,nhb,oft,eis,tur,isn,fbg,mem>" ++ [3] ++ str "binarycontent") Composite.zero) =
    some ((str "binarycontent", str "FZ"), [(Civil.mk 2016 7 28 21 5).instant, (Civil.mk 2016 7 28 22 45).instant,
      5 * 60 * 1000000000, 450, 450, 405160 - 154, -1], none) := by decide +kernel

/-! ### conversion_test.go -/

/-- conversion_test.go:14-17: rvp-6 values and dBZ -/
example : ∀ p ∈ [((0 : ℚ), (-32.5 : ℚ)), (65, 0), (100, 17.5), (200, 67.5)],
    toDBZ (lit f32 p.1) = lit f32 p.2 ∧ toRVP6 (toDBZ (lit f32 p.1)) = lit f32 p.1 := by decide +kernel

/-- enclosing a rate without computing it: R^142 * 256^100 = 10^m for m = 10 d -/
theorem rate_between {d x y : ℝ} {m : Int} (hd : 10 * d = m) (hy : 0 < y)
    (h1 : 256 ^ 100 * x ^ 142 < (10 : ℝ) ^ m) (h2 : (10 : ℝ) ^ m < 256 ^ 100 * y ^ 142) :
    x < realRate 256 1.42 d ∧ realRate 256 1.42 d < y := by
  have hp : 0 < realRate 256 1.42 d := (C40_rate_monotone (by norm_num) (by norm_num)).1 d
  have hz := C39_zr_law (a := 256) (b := 1.42) (by norm_num) (by norm_num) d
  have key : 256 ^ 100 * (realRate 256 1.42 d) ^ 142 = (10 : ℝ) ^ m := by
    have h100 := congrArg (· ^ 100) hz
    simp only [mul_pow] at h100
    rw [← rpow_natCast ((realRate 256 1.42 d) ^ (1.42 : ℝ)), ← rpow_mul hp.le, ← rpow_natCast ((10 : ℝ) ^ (d / 10)),
      ← rpow_mul (by norm_num), show (1.42 : ℝ) * ((100 : ℕ) : ℝ) = ((142 : ℕ) : ℝ) by norm_num, rpow_natCast,
      show d / 10 * ((100 : ℕ) : ℝ) = (m : ℝ) by rw [← hd]; push_cast; ring, rpow_intCast] at h100
    exact h100
  rw [← key] at h1 h2
  have h1 := (mul_lt_mul_iff_right₀ (by positivity : (0 : ℝ) < 256 ^ 100)).mp h1
  have h2 := (mul_lt_mul_iff_right₀ (by positivity : (0 : ℝ) < 256 ^ 100)).mp h2
  exact ⟨lt_of_pow_lt_pow_left₀ _ hp.le h1, lt_of_pow_lt_pow_left₀ _ hy.le h2⟩

set_option exponentiation.threshold 1000 in
/-- conversion_test.go:14-17: rates of Aniol's relation, to 0.0001 -/
example : |realRate 256 1.42 (-32.5) - 0.0001| < 0.0001 ∧ |realRate 256 1.42 0 - 0.0201| < 0.0001 ∧
    |realRate 256 1.42 17.5 - 0.3439| < 0.0001 ∧ |realRate 256 1.42 67.5 - 1141.7670| < 0.0001 := by
  refine ⟨?_, ?_, ?_, ?_⟩
  · have := rate_between (d := -32.5) (x := 0.00001) (y := 0.00019) (m := -325) (by norm_num) (by norm_num) (by norm_num) (by norm_num)
    rw [abs_lt]; constructor <;> norm_num at this ⊢ <;> linarith
  · have := rate_between (d := 0) (x := 0.02001) (y := 0.02019) (m := 0) (by norm_num) (by norm_num) (by norm_num) (by norm_num)
    rw [abs_lt]; constructor <;> norm_num at this ⊢ <;> linarith
  · have := rate_between (d := 17.5) (x := 0.34381) (y := 0.34399) (m := 175) (by norm_num) (by norm_num) (by norm_num) (by norm_num)
    rw [abs_lt]; constructor <;> norm_num at this ⊢ <;> linarith
  · have := rate_between (d := 67.5) (x := 1141.76691) (y := 1141.76709) (m := 675) (by norm_num) (by norm_num) (by norm_num) (by norm_num)
    rw [abs_lt]; constructor <;> norm_num at this ⊢ <;> linarith

/-! ### projection_sphere_test.go, TestResolution -/

theorem munich {format : Int} (hf : ¬ 5 ≤ format) :
    |(planeXY realArith format (48.173146 : ℝ) (11.546604 : ℝ)).1 - (122595972059 / 10 ^ 9)| ≤ 3 / 10 ^ 8 ∧
    |(planeXY realArith format (48.173146 : ℝ) (11.546604 : ℝ)).2 - (4540610043733 / 10 ^ 9)| ≤ 3 / 10 ^ 8 := by
  have h : Enc (48.173146 : ℝ) (11.546604 : ℝ) (745163520232971 / 10 ^ 15) (666881794708780 / 10 ^ 15) (26990054073815 / 10 ^ 15) (999635702134079 / 10 ^ 15) := by
    apply enc (xn := (840780008743936 / 10 ^ 15)) (xe := (26993332024514 / 10 ^ 15)) <;>
      first | (constructor <;> norm_num) | (simp only [sinP, cosP, abs_le]; constructor <;> norm_num)
  exact sphere_point hf h (by rw [abs_le]; constructor <;> norm_num) (by rw [abs_le]; constructor <;> norm_num)

theorem bremerhaven {format : Int} (hf : ¬ 5 ≤ format) :
    |(planeXY realArith format (53.534366 : ℝ) (8.576135 : ℝ)).1 - (-97299052198 / 10 ^ 9)| ≤ 3 / 10 ^ 8 ∧
    |(planeXY realArith format (53.534366 : ℝ) (8.576135 : ℝ)).2 - (3914470376828 / 10 ^ 9)| ≤ 3 / 10 ^ 8 := by
  have h : Enc (53.534366 : ℝ) (8.576135 : ℝ) (804213490616823 / 10 ^ 15) (594340526558542 / 10 ^ 15) (-24848574510897 / 10 ^ 15) (999691226501852 / 10 ^ 15) := by
    apply enc (xn := (934350949667707 / 10 ^ 15)) (xe := (-24851132353909 / 10 ^ 15)) <;>
      first | (constructor <;> norm_num) | (simp only [sinP, cosP, abs_le]; constructor <;> norm_num)
  exact sphere_point hf h (by rw [abs_le]; constructor <;> norm_num) (by rw [abs_le]; constructor <;> norm_num)

/-- the distance of Munich and Bremerhaven, on every spherical grid, to a millimetre (exact arithmetic) -/
theorem munich_bremerhaven {format dx dy : Int} {b : Int × Int} (h : HasGrid format dx dy b) (hf : format < 5) :
    let k := kmBetween format dx dy 48.173146 11.546604 53.534366 8.576135
    |√(k.1 ^ 2 + k.2 ^ 2) - 663.629945199998| < 0.000001 := by
  have hf' : ¬ 5 ≤ format := by omega
  obtain ⟨m1, m2⟩ := munich hf'
  obtain ⟨b1, b2⟩ := bremerhaven hf'
  rw [kmBetween_eq h]
  simp only
  have hX := abs_le.mp (near_sub b1 m1)
  have hY := abs_le.mp (near_sub b2 m2)
  set X := (planeXY realArith format (53.534366 : ℝ) (8.576135 : ℝ)).1 - (planeXY realArith format (48.173146 : ℝ) (11.546604 : ℝ)).1
  set Y := (planeXY realArith format (53.534366 : ℝ) (8.576135 : ℝ)).2 - (planeXY realArith format (48.173146 : ℝ) (11.546604 : ℝ)).2
  norm_num at hX hY
  have e1 : (663.629944200998 : ℝ) ^ 2 < X ^ 2 + Y ^ 2 := by norm_num; nlinarith [hX.1, hX.2, hY.1, hY.2]
  have e2 : X ^ 2 + Y ^ 2 < (663.629946198998 : ℝ) ^ 2 := by norm_num; nlinarith [hX.1, hX.2, hY.1, hY.2]
  have s1 := Real.lt_sqrt_of_sq_lt e1
  have s2 := (Real.sqrt_lt' (by norm_num)).mpr e2
  rw [abs_lt]; constructor <;> norm_num at s1 s2 ⊢ <;> linarith

/-- projection_sphere_test.go:27-35: the composites of the test -/
example : ∀ p ∈ [((900 : Int), (900 : Int)), (450, 450), (225, 225), (900, 1100), (450, 550), (1400, 1500), (700, 750)],
    let k := kmBetween 3 p.1 p.2 48.173146 11.546604 53.534366 8.576135
    |√(k.1 ^ 2 + k.2 ^ 2) - 663.629945199998| < 0.000001 := by
  intro p hp
  simp only [List.mem_cons, List.not_mem_nil, or_false] at hp
  rcases hp with rfl | rfl | rfl | rfl | rfl | rfl | rfl
  · exact munich_bremerhaven (b := (225, 225)) ⟨by decide, ⟨2, rfl, rfl⟩, Or.inl (by decide)⟩ (by decide)
  · exact munich_bremerhaven (b := (225, 225)) ⟨by decide, ⟨1, rfl, rfl⟩, Or.inl (by decide)⟩ (by decide)
  · exact munich_bremerhaven (b := (225, 225)) ⟨by decide, ⟨0, rfl, rfl⟩, Or.inl (by decide)⟩ (by decide)
  · exact munich_bremerhaven (b := (225, 275)) ⟨by decide, ⟨2, rfl, rfl⟩, Or.inl (by decide)⟩ (by decide)
  · exact munich_bremerhaven (b := (225, 275)) ⟨by decide, ⟨1, rfl, rfl⟩, Or.inl (by decide)⟩ (by decide)
  · exact munich_bremerhaven (b := (350, 375)) ⟨by decide, ⟨2, rfl, rfl⟩, Or.inl (by decide)⟩ (by decide)
  · exact munich_bremerhaven (b := (350, 375)) ⟨by decide, ⟨1, rfl, rfl⟩, Or.inl (by decide)⟩ (by decide)

end Props
