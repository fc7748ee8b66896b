/-
Computing with bounded errors in any arithmetic: `Tracks A P` says that every operation of the arithmetic `A` yields a
result within one rounding error of the exact one, where `P x r ε` reads "`x` stands for the real number `r`, up to `ε`".
The plane coordinates then are within two micrometres of the exact ones.
-/
import Verif.Lemmas.FloatReal

namespace Radolan
open Go Go.Fl Real

theorem goPi_near : |(goPi : ℝ) - π| ≤ 1 / 10 ^ 19 := by
  have h1 := pi_gt_d20
  have h2 := pi_lt_d20
  have e : (goPi : ℝ) = 314159265358979323846264338327950288419716939937510582097494459 / 10 ^ 62 := by
    unfold goPi; rw [Rat.mkRat_eq_div]; push_cast; norm_num
  rw [e, abs_le]
  constructor <;> norm_num at h1 h2 ⊢ <;> linarith

/-- an arithmetic whose operations are exact up to a relative error of `12e-17` -/
structure Tracks {α : Type} (A : Arith α) (P : α → ℝ → ℝ → Prop) : Prop where
  mono : ∀ {x : α} {r ε δ : ℝ}, P x r ε → ε ≤ δ → P x r δ
  lit : ∀ {q : ℚ} {r ε M t : ℝ}, |(q : ℝ) - r| ≤ ε → |r| + ε ≤ M → 1 / 10 ^ 60 ≤ M → M ≤ 10 ^ 60 →
    ε + M * (12 / 10 ^ 17) ≤ t → P (A.lit q) r t
  lit_zero : P (A.lit 0) 0 0
  lit_one : P (A.lit 1) 1 0
  piMul : ∀ q, A.piMul q = A.lit (goPi * q)
  ofInt : ∀ {b : Int} {k : Nat}, 0 < b → b ≤ 2 ^ 53 → b * 2 ^ k < 2 ^ 63 →
    P (A.ofInt (b * 2 ^ k)) ((b * 2 ^ k : Int) : ℝ) 0
  add : ∀ {x y : α} {a b ε δ M t : ℝ}, P x a ε → P y b δ → |a + b| + (ε + δ) ≤ M → 1 / 10 ^ 60 ≤ M → M ≤ 10 ^ 60 →
    ε + δ + M * (12 / 10 ^ 17) ≤ t → P (A.add x y) (a + b) t
  sub : ∀ {x y : α} {a b ε δ M t : ℝ}, P x a ε → P y b δ → |a - b| + (ε + δ) ≤ M → 1 / 10 ^ 60 ≤ M → M ≤ 10 ^ 60 →
    ε + δ + M * (12 / 10 ^ 17) ≤ t → P (A.sub x y) (a - b) t
  mul : ∀ {x y : α} {a b ε δ B C e t : ℝ}, P x a ε → P y b δ → |a| ≤ B → |b| ≤ C → B * δ + C * ε + ε * δ ≤ e →
    1 / 10 ^ 60 ≤ B * C + e → B * C + e ≤ 10 ^ 60 → e + (B * C + e) * (12 / 10 ^ 17) ≤ t → P (A.mul x y) (a * b) t
  div : ∀ {x y : α} {a b ε δ m q e t : ℝ}, P x a ε → P y b δ → 0 < m → m + δ ≤ |b| → |a| ≤ q * |b| →
    (ε + q * δ) / m ≤ e → 1 / 10 ^ 60 ≤ q + e → q + e ≤ 10 ^ 60 → e + (q + e) * (12 / 10 ^ 17) ≤ t →
    P (A.div x y) (a / b) t
  neg : ∀ {x : α} {a ε : ℝ}, P x a ε → P (A.neg x) (-a) ε
  sin : ∀ {x : α} {a ε t : ℝ}, P x a ε → |a| + ε ≤ 8 → ε + 1 / 10 ^ 15 ≤ t → P (A.sin x) (Real.sin a) t
  cos : ∀ {x : α} {a ε t : ℝ}, P x a ε → |a| + ε ≤ 8 → ε + 1 / 10 ^ 15 ≤ t → P (A.cos x) (Real.cos a) t
  tan : ∀ {x : α} {a ε t : ℝ}, P x a ε → |a| + ε ≤ 6 / 5 → 13 * ε + 1 / 10 ^ 14 ≤ t → P (A.tan x) (Real.tan a) t
  pow : ∀ {x y : α} {a b ε δ t : ℝ}, P x a ε → P y b δ → 1 / 2 + ε ≤ a ∧ a + ε ≤ 2 → δ ≤ b ∧ b + δ ≤ 1 / 10 →
    2 * ε + 2 * δ + 5 / 10 ^ 15 ≤ t → P (A.pow x y) (a ^ b) t

/-- the inputs stand for a point in the domain of the accuracy statement -/
structure PointTracks {α : Type} (P : α → ℝ → ℝ → Prop) (xn xe : α) (n e : ℝ) : Prop where
  north : P xn n (75 / 10 ^ 16)
  east : P xe e (75 / 10 ^ 16)
  lat : -45 ≤ n ∧ n ≤ 90
  lon : |e| ≤ 360

section
variable {α : Type} {A : Arith α} {P : α → ℝ → ℝ → Prop} (hT : Tracks A P)
include hT

/-- a multiple of π -/
theorem piMul_tr {q : ℚ} {Q t : ℝ} (hq : |(q : ℝ)| ≤ Q) (h1 : 1 / 10 ^ 20 ≤ Q) (h2 : Q ≤ 1)
    (ht : Q / 10 ^ 19 + 4 * Q * (12 / 10 ^ 17) ≤ t) : P (A.piMul q) (realArith.piMul q) t := by
  have hp := pi_pos
  have hp4 := pi_lt_d2
  rw [hT.piMul]
  refine hT.lit (ε := Q / 10 ^ 19) (M := 4 * Q) ?_ ?_ ?_ ?_ ht
  · show |((goPi * q : ℚ) : ℝ) - π * (q : ℝ)| ≤ _
    push_cast
    rw [← sub_mul, abs_mul]
    have := mul_le_mul goPi_near hq (abs_nonneg _) (by norm_num)
    linarith
  · show |π * (q : ℝ)| + _ ≤ _
    rw [abs_mul, abs_of_pos hp]
    have : π * |(q : ℝ)| ≤ 3.15 * Q := mul_le_mul hp4.le hq (abs_nonneg _) (by norm_num)
    norm_num at this ⊢; linarith
  · norm_num at h1 ⊢; linarith
  · norm_num; linarith

theorem deg_tr {x r : α} {d k D t : ℝ} (hx : P x d (75 / 10 ^ 16)) (hr : P r k (3 / 10 ^ 18)) (hd : |d| ≤ D)
    (hk : |k| ≤ 1746 / 10 ^ 5) (hD1 : 1 ≤ D) (hD2 : D ≤ 360)
    (ht : (D * (3 / 10 ^ 18) + 132 / 10 ^ 18) + (D * (1746 / 10 ^ 5) + 1 / 10 ^ 10) * (12 / 10 ^ 17) ≤ t) : P (A.mul x r) (d * k) t := by
  refine hT.mul (e := D * (3 / 10 ^ 18) + 132 / 10 ^ 18) hx hr hd hk ?_ ?_ ?_ ?_
  · norm_num; linarith
  · norm_num; linarith
  · norm_num; linarith
  · norm_num at ht ⊢; linarith

/-- the spherical projection -/
theorem sphere_tr {xn xe : α} {n e : ℝ} (h : PointTracks P xn xe n e) :
    P (sphereXY A xn xe).1 (sphereXY realArith n e).1 (1 / 10 ^ 9) ∧
    P (sphereXY A xn xe).2 (sphereXY realArith n e).2 (1 / 10 ^ 9) ∧
    |(sphereXY realArith n e).1| ≤ 65000 ∧ |(sphereXY realArith n e).2| ≤ 65000 := by
  have hpi := pi_pos
  have hpi1 := pi_gt_d4
  have hpi2 := pi_lt_d4
  have hr : P (A.piMul (1 / 180)) (realArith.piMul (1 / 180)) (3 / 10 ^ 18) :=
    piMul_tr hT (Q := 1 / 180) (by norm_num) (by norm_num) (by norm_num) (by norm_num)
  have hk : |realArith.piMul (1 / 180)| ≤ 1746 / 10 ^ 5 := by
    show |π * ((1 / 180 : ℚ) : ℝ)| ≤ _
    rw [abs_of_pos (by positivity)]; push_cast; linarith
  have hlat : |n| ≤ 90 := by rw [abs_le]; constructor <;> linarith [h.lat.1, h.lat.2]
  have hphi : P (rad A xn) (rad realArith n) (7 / 10 ^ 16) :=
    deg_tr hT h.north hr hlat hk (by norm_num) (by norm_num) (by norm_num)
  have hlam : P (rad A xe) (rad realArith e) (22 / 10 ^ 16) :=
    deg_tr hT h.east hr h.lon hk (by norm_num) (by norm_num) (by norm_num)
  have hphi0 : P (rad A (junctionNorth A)) (rad realArith (junctionNorth realArith)) (7 / 10 ^ 16) := by
    refine deg_tr hT (D := 60) ?_ hr ?_ hk (by norm_num) (by norm_num) (by norm_num)
    · exact hT.lit (ε := 0) (M := 60) (by simp [junctionNorth, realArith]) (by simp [junctionNorth, realArith])
        (by norm_num) (by norm_num) (by norm_num)
    · simp [junctionNorth, realArith]
  have hlam0 : P (rad A (junctionEast A)) (rad realArith (junctionEast realArith)) (7 / 10 ^ 16) := by
    refine deg_tr hT (D := 10) ?_ hr ?_ hk (by norm_num) (by norm_num) (by norm_num)
    · exact hT.lit (ε := 0) (M := 10) (by simp [junctionEast, realArith]) (by simp [junctionEast, realArith])
        (by norm_num) (by norm_num) (by norm_num)
    · simp [junctionEast, realArith]
  -- exact values
  have ephi : rad realArith n = n * (π / 180) := by simp only [rad, realArith]; push_cast; ring
  have elam : rad realArith e - rad realArith (junctionEast realArith) = (e - 10) * (π / 180) := by
    simp only [rad, realArith, junctionEast]; push_cast; ring
  have ephi0 : rad realArith (junctionNorth realArith) = π / 3 := by
    simp only [rad, realArith, junctionNorth]; push_cast; ring
  have bphi : |rad realArith n| ≤ 16 / 10 := by
    rw [ephi, abs_mul, abs_of_pos (by positivity : 0 < π / 180)]
    have := mul_le_mul_of_nonneg_right hlat (by positivity : 0 ≤ π / 180)
    linarith
  have bd : |rad realArith e - rad realArith (junctionEast realArith)| ≤ 65 / 10 := by
    rw [elam, abs_mul, abs_of_pos (by positivity : 0 < π / 180)]
    have h1 : |e - 10| ≤ 370 := by
      have := abs_sub e 10; rw [abs_of_pos (by norm_num : (0 : ℝ) < 10)] at this; linarith [h.lon]
    have := mul_le_mul_of_nonneg_right h1 (by positivity : 0 ≤ π / 180)
    linarith
  have hsin : P (A.sin (rad A xn)) (sin (rad realArith n)) (17 / 10 ^ 16) :=
    hT.sin hphi (by norm_num at bphi ⊢; linarith) (by norm_num)
  have hcos : P (A.cos (rad A xn)) (cos (rad realArith n)) (17 / 10 ^ 16) :=
    hT.cos hphi (by norm_num at bphi ⊢; linarith) (by norm_num)
  have hsin0 : P (A.sin (rad A (junctionNorth A))) (sin (rad realArith (junctionNorth realArith)))
      (17 / 10 ^ 16) :=
    hT.sin hphi0 (by rw [ephi0, abs_of_pos (by positivity)]; norm_num; linarith) (by norm_num)
  have hone : P (A.lit 1) (realArith.lit 1) (1 / 10 ^ 15 * 0) := by
    have := hT.lit_one
    simpa [realArith] using this
  have e1 : realArith.lit 1 = 1 := by simp [realArith]
  have hs1 : -1 ≤ sin (rad realArith n) ∧ sin (rad realArith n) ≤ 1 := ⟨neg_one_le_sin _, sin_le_one _⟩
  have hs0 : -1 ≤ sin (rad realArith (junctionNorth realArith)) ∧ sin (rad realArith (junctionNorth realArith)) ≤ 1 :=
    ⟨neg_one_le_sin _, sin_le_one _⟩
  have hnum : P (A.add (A.lit 1) (A.sin (rad A (junctionNorth A))))
      (realArith.lit 1 + sin (rad realArith (junctionNorth realArith))) (2 / 10 ^ 15) :=
    hT.add (M := 21 / 10) hone hsin0 (by rw [e1, abs_of_nonneg (by linarith [hs0.1])]; norm_num; linarith [hs0.2])
      (by norm_num) (by norm_num) (by norm_num)
  have hden : P (A.add (A.lit 1) (A.sin (rad A xn)))
      (realArith.lit 1 + sin (rad realArith n)) (2 / 10 ^ 15) :=
    hT.add (M := 21 / 10) hone hsin (by rw [e1, abs_of_nonneg (by linarith [hs1.1])]; norm_num; linarith [hs1.2])
      (by norm_num) (by norm_num) (by norm_num)
  -- 1 + sin φ ≥ 1 - sin 45°
  have hlow : 29 / 100 ≤ 1 + sin (rad realArith n) := by
    have h1 : sin (-(π / 4)) ≤ sin (rad realArith n) := by
      apply sin_le_sin_of_le_of_le_pi_div_two
      · linarith
      · rw [ephi]; nlinarith [h.lat.2]
      · rw [ephi]; nlinarith [h.lat.1]
    rw [sin_neg, sin_pi_div_four] at h1
    have h2 : √2 < 142 / 100 := by rw [Real.sqrt_lt' (by norm_num)]; norm_num
    linarith
  have hm : P (A.div (A.add (A.lit 1) (A.sin (rad A (junctionNorth A))))
      (A.add (A.lit 1) (A.sin (rad A xn))))
      ((realArith.lit 1 + sin (rad realArith (junctionNorth realArith))) / (realArith.lit 1 + sin (rad realArith n)))
      (6 / 10 ^ 14) := by
    refine hT.div (m := 289 / 1000) (q := 7) (e := 56 / 10 ^ 15) hnum hden (by norm_num) ?_ ?_ (by norm_num) (by norm_num)
      (by norm_num) (by norm_num)
    · rw [e1, abs_of_nonneg (by linarith)]; norm_num; linarith
    · rw [e1, abs_of_nonneg (by linarith [hs0.1]), abs_of_nonneg (by linarith)]; linarith [hs0.2]
  have hR : P (earthRadius A) (earthRadius realArith) (8 / 10 ^ 13) := by
    refine hT.lit (ε := 0) (M := 6371) ?_ ?_ (by norm_num) (by norm_num) (by norm_num)
    · simp [earthRadius, realArith]
    · simp only [earthRadius, realArith, Rat.mkRat_eq_div]; norm_num
  have eR : |earthRadius realArith| ≤ 6371 := by simp only [earthRadius, realArith, Rat.mkRat_eq_div]; norm_num
  have bm : |(realArith.lit 1 + sin (rad realArith (junctionNorth realArith))) / (realArith.lit 1 + sin (rad realArith n))| ≤ 7 := by
    rw [e1, abs_div, abs_of_nonneg (by linarith [hs0.1] : 0 ≤ 1 + sin (rad realArith (junctionNorth realArith))),
      abs_of_nonneg (by linarith : 0 ≤ 1 + sin (rad realArith n)), div_le_iff₀ (by linarith)]
    linarith [hs0.2]
  have hRm := hT.mul (e := 39 / 10 ^ 11) (t := 4 / 10 ^ 10) hR hm eR bm (by norm_num) (by norm_num) (by norm_num) (by norm_num)
  have bRm := Num.abs_mul_le eR bm
  have hrho := hT.mul (C := 1) (e := 48 / 10 ^ 11) (t := 5 / 10 ^ 10) hRm hcos bRm (abs_cos_le_one _) (by norm_num)
    (by norm_num) (by norm_num) (by norm_num)
  have brho := Num.abs_mul_le bRm (abs_cos_le_one (rad realArith n))
  have hdl := hT.sub (M := 66 / 10) (t := 4 / 10 ^ 15) hlam hlam0 (by norm_num at bd ⊢; linarith) (by norm_num) (by norm_num)
    (by norm_num)
  have hsl := hT.sin (t := 5 / 10 ^ 15) hdl (by norm_num at bd ⊢; linarith) (by norm_num)
  have hcl := hT.cos (t := 5 / 10 ^ 15) hdl (by norm_num at bd ⊢; linarith) (by norm_num)
  have hx := hT.mul (C := 1) (e := 75 / 10 ^ 11) (t := 1 / 10 ^ 9) hrho hsl brho (abs_sin_le_one _) (by norm_num)
    (by norm_num) (by norm_num) (by norm_num)
  have hy := hT.mul (C := 1) (e := 75 / 10 ^ 11) (t := 1 / 10 ^ 9) hrho hcl brho (abs_cos_le_one _) (by norm_num)
    (by norm_num) (by norm_num) (by norm_num)
  refine ⟨hx, hy, ?_, ?_⟩
  · exact (Num.abs_mul_le brho (abs_sin_le_one _)).trans (by norm_num)
  · exact (Num.abs_mul_le brho (abs_cos_le_one _)).trans (by norm_num)

set_option maxHeartbeats 1000000 in
/-- the ellipsoidal projection -/
theorem wgs_tr {xn xe : α} {n e : ℝ} (h : PointTracks P xn xe n e) :
    P (wgs84XY A (projDE1200 A) xn xe).1 (wgs84XY realArith (projDE1200 realArith) n e).1 (2 / 10 ^ 9) ∧
    P (wgs84XY A (projDE1200 A) xn xe).2 (wgs84XY realArith (projDE1200 realArith) n e).2 (2 / 10 ^ 9) ∧
    |(wgs84XY realArith (projDE1200 realArith) n e).1| ≤ 65000 ∧
    |(wgs84XY realArith (projDE1200 realArith) n e).2| ≤ 65000 := by
  have hpi := pi_pos
  have hpi1 := pi_gt_d4
  have hpi2 := pi_lt_d4
  have hr : P (degToRad A) (degToRad realArith) (3 / 10 ^ 18) :=
    piMul_tr hT (Q := 1 / 180) (by norm_num) (by norm_num) (by norm_num) (by norm_num)
  have edr : degToRad realArith = π / 180 := by simp only [degToRad, realArith]; push_cast; ring
  have hk : |degToRad realArith| ≤ 1746 / 10 ^ 5 := by rw [edr, abs_of_pos (by positivity)]; norm_num at hpi2 ⊢; linarith
  have hlatb : |n| ≤ 90 := by rw [abs_le]; constructor <;> linarith [h.lat.1, h.lat.2]
  have hlat : P (A.mul xn (degToRad A)) (n * degToRad realArith) (7 / 10 ^ 16) :=
    deg_tr hT h.north hr hlatb hk (by norm_num) (by norm_num) (by norm_num)
  have hlon : P (A.mul xe (degToRad A)) (e * degToRad realArith) (22 / 10 ^ 16) :=
    deg_tr hT h.east hr h.lon hk (by norm_num) (by norm_num) (by norm_num)
  have blat : |n * degToRad realArith| ≤ 16 / 10 := by
    rw [edr, abs_mul, abs_of_pos (by positivity : 0 < π / 180)]
    have := mul_le_mul_of_nonneg_right hlatb (by positivity : 0 ≤ π / 180)
    linarith
  have hsin : P (A.sin (A.mul xn (degToRad A))) (sin (n * degToRad realArith)) (17 / 10 ^ 16) :=
    hT.sin hlat (by norm_num at blat ⊢; linarith) (by norm_num)
  -- constants
  have litv : ∀ (q : ℚ) (M t : ℝ), |(q : ℝ)| ≤ M → 1 / 10 ^ 60 ≤ M → M ≤ 10 ^ 60 → M * (12 / 10 ^ 17) ≤ t →
      P (A.lit q) (realArith.lit q) t := by
    intro q M t h1 h2 h3 h4
    exact hT.lit (ε := 0) (M := M) (by simp [realArith]) (by simpa [realArith] using h1) h2 h3 (by simpa using h4)
  have hone : P (A.lit 1) (realArith.lit 1) (1 / 10 ^ 15 * 0) := by
    have := hT.lit_one
    simpa [realArith] using this
  have e1 : realArith.lit 1 = 1 := by simp [realArith]
  have hhalf : P (A.lit (1 / 2)) (realArith.lit (1 / 2)) (6 / 10 ^ 17) :=
    litv _ (1 / 2) _ (by norm_num) (by norm_num) (by norm_num) (by norm_num)
  have ehalf : realArith.lit (1 / 2) = 1 / 2 := by simp [realArith]
  have hecc : P (projDE1200 A).ecc (projDE1200 realArith).ecc (1 / 10 ^ 17) :=
    litv _ (82 / 1000) _ (by rw [Rat.mkRat_eq_div]; norm_num) (by norm_num) (by norm_num) (by norm_num)
  have eecc : (projDE1200 realArith).ecc = 8181919084262032 / 10 ^ 17 := by
    simp only [projDE1200, realArith, Rat.mkRat_eq_div]; push_cast; norm_num
  have hk0 : P (projDE1200 A).k_0 (projDE1200 realArith).k_0 (15 / 10 ^ 10) :=
    litv _ 11900000 _ (by rw [Rat.mkRat_eq_div]; norm_num) (by norm_num) (by norm_num) (by norm_num)
  have ek0 : (projDE1200 realArith).k_0 = 11862667042661695 / 10 ^ 9 := by
    simp only [projDE1200, realArith, Rat.mkRat_eq_div]; push_cast; norm_num
  have hx0 : P (projDE1200 A).x_0 (projDE1200 realArith).x_0 (1 / 10 ^ 9) :=
    litv _ 600000 _ (by rw [Rat.mkRat_eq_div]; norm_num) (by norm_num) (by norm_num) (by norm_num)
  have ex0 : |(projDE1200 realArith).x_0| ≤ 600000 := by
    simp only [projDE1200, realArith, Rat.mkRat_eq_div]; push_cast; norm_num
  have hy0 : P (projDE1200 A).y_0 (projDE1200 realArith).y_0 (1 / 10 ^ 9) :=
    litv _ 3700000 _ (by rw [Rat.mkRat_eq_div]; norm_num) (by norm_num) (by norm_num) (by norm_num)
  have ey0 : |(projDE1200 realArith).y_0| ≤ 3700000 := by
    simp only [projDE1200, realArith, Rat.mkRat_eq_div]; push_cast; norm_num
  have hscale : P (projDE1200 A).scale (projDE1200 realArith).scale (12 / 10 ^ 14) :=
    litv _ 1000 _ (by norm_num) (by norm_num) (by norm_num) (by norm_num)
  have escale : (projDE1200 realArith).scale = 1000 := by simp [projDE1200, realArith]
  have hlon0 : P (projDE1200 A).lon_0 (projDE1200 realArith).lon_0 (3 / 10 ^ 17) :=
    piMul_tr hT (Q := 10 / 180) (by norm_num) (by norm_num) (by norm_num) (by norm_num)
  have elon0 : (projDE1200 realArith).lon_0 = 10 * (π / 180) := by
    simp only [projDE1200, realArith]; push_cast; ring
  have hpi2' : P (A.piMul (1 / 2)) (realArith.piMul (1 / 2)) (25 / 10 ^ 17) :=
    piMul_tr hT (Q := 1 / 2) (by norm_num) (by norm_num) (by norm_num) (by norm_num)
  have epi2 : realArith.piMul (1 / 2) = π / 2 := by simp only [realArith]; push_cast; ring
  -- the half polar distance
  have elat : n * degToRad realArith = n * (π / 180) := by rw [edr]
  have bcol : 0 ≤ π / 2 - n * degToRad realArith ∧ π / 2 - n * degToRad realArith ≤ 236 / 100 := by
    rw [elat]
    constructor
    · nlinarith [h.lat.2]
    · have h1 : n * (π / 180) ≥ -45 * (π / 180) := mul_le_mul_of_nonneg_right h.lat.1 (by positivity)
      norm_num at hpi2; linarith
  have hcol : P (A.sub (A.piMul (1 / 2)) (A.mul xn (degToRad A)))
      (realArith.piMul (1 / 2) - n * degToRad realArith) (13 / 10 ^ 16) :=
    hT.sub (M := 24 / 10) hpi2' hlat (by rw [epi2, abs_of_nonneg bcol.1]; norm_num at bcol ⊢; linarith [bcol.2]) (by norm_num)
      (by norm_num) (by norm_num)
  have harg : P (A.mul (A.lit (1 / 2)) (A.sub (A.piMul (1 / 2))
      (A.mul xn (degToRad A)))) (realArith.lit (1 / 2) * (realArith.piMul (1 / 2) - n * degToRad realArith))
      (1 / 10 ^ 15) :=
    hT.mul (B := 1 / 2) (C := 236 / 100) (e := 8 / 10 ^ 16) hhalf hcol (by rw [ehalf]; norm_num)
      (by rw [epi2, abs_of_nonneg bcol.1]; exact bcol.2) (by norm_num) (by norm_num) (by norm_num) (by norm_num)
  have barg : |realArith.lit (1 / 2) * (realArith.piMul (1 / 2) - n * degToRad realArith)| ≤ 118 / 100 := by
    rw [ehalf, epi2, abs_of_nonneg (by linarith [bcol.1])]; linarith [bcol.2]
  have htan := hT.tan (t := 23 / 10 ^ 15) harg (by norm_num at barg ⊢; linarith) (by norm_num)
  have btan : |tan (realArith.lit (1 / 2) * (realArith.piMul (1 / 2) - n * degToRad realArith))| ≤ 4 := by
    set a := realArith.lit (1 / 2) * (realArith.piMul (1 / 2) - n * degToRad realArith) with ha
    have h1 := Real.one_sub_sq_div_two_le_cos (x := a)
    have h2 : a ^ 2 ≤ (118 / 100) ^ 2 := by rw [← sq_abs]; exact pow_le_pow_left₀ (abs_nonneg _) barg 2
    have h3 : 3 / 10 ≤ cos a := by norm_num at h2; linarith
    rw [tan_eq_sin_div_cos, abs_div, abs_of_pos (by linarith : 0 < cos a), div_le_iff₀ (by linarith)]
    linarith [abs_sin_le_one a]
  have hkt := hT.mul (B := 11900000) (e := 281 / 10 ^ 9) (t := 29 / 10 ^ 8) hk0 htan (by rw [ek0]; norm_num) btan (by norm_num)
    (by norm_num) (by norm_num) (by norm_num)
  have bkt : |(projDE1200 realArith).k_0 * tan (realArith.lit (1 / 2) * (realArith.piMul (1 / 2) - n * degToRad realArith))|
      ≤ 11900000 * 4 := Num.abs_mul_le (by rw [ek0]; norm_num) btan
  -- the ellipsoidal factor
  have hs1 : |sin (n * degToRad realArith)| ≤ 1 := abs_sin_le_one _
  have becc : |(projDE1200 realArith).ecc| ≤ 82 / 1000 := by rw [eecc]; norm_num
  have hes := hT.mul (C := 1) (e := 15 / 10 ^ 17) (t := 17 / 10 ^ 17) hecc hsin becc hs1 (by norm_num) (by norm_num) (by norm_num)
    (by norm_num)
  have bes : |(projDE1200 realArith).ecc * sin (n * degToRad realArith)| ≤ 82 / 1000 * 1 := Num.abs_mul_le becc hs1
  have bes' := abs_le.mp bes
  have hnum := hT.sub (M := 11 / 10) (t := 4 / 10 ^ 16) hone hes
    (by rw [e1, abs_of_nonneg (by linarith [bes'.2])]; norm_num at bes' ⊢; linarith [bes'.1]) (by norm_num) (by norm_num) (by norm_num)
  have hden := hT.add (M := 11 / 10) (t := 4 / 10 ^ 16) hone hes
    (by rw [e1, abs_of_nonneg (by linarith [bes'.1])]; norm_num at bes' ⊢; linarith [bes'.2]) (by norm_num) (by norm_num) (by norm_num)
  have hbase := hT.div (m := 9 / 10) (q := 12 / 10) (e := 1 / 10 ^ 15) (t := 12 / 10 ^ 16) hnum hden (by norm_num)
    (by rw [e1, abs_of_nonneg (by linarith [bes'.1])]; norm_num at bes' ⊢; linarith [bes'.1])
    (by rw [e1, abs_of_nonneg (by linarith [bes'.2]), abs_of_nonneg (by linarith [bes'.1])]; linarith [bes'.1, bes'.2])
    (by norm_num) (by norm_num) (by norm_num) (by norm_num)
  set B := (realArith.lit 1 - (projDE1200 realArith).ecc * sin (n * degToRad realArith)) /
    (realArith.lit 1 + (projDE1200 realArith).ecc * sin (n * degToRad realArith)) with hB
  have bB : 8 / 10 ≤ B ∧ B ≤ 13 / 10 := by
    have hp : 0 < realArith.lit 1 + (projDE1200 realArith).ecc * sin (n * degToRad realArith) := by
      rw [e1]; linarith [bes'.1]
    rw [hB, le_div_iff₀ hp, div_le_iff₀ hp, e1]
    constructor <;> linarith [bes'.1, bes'.2]
  have hexp := hT.mul (B := 1 / 2) (e := 1 / 10 ^ 17) (t := 2 / 10 ^ 17) hhalf hecc (by rw [ehalf]; norm_num) becc (by norm_num)
    (by norm_num) (by norm_num) (by norm_num)
  have bexp : 4 / 100 ≤ realArith.lit (1 / 2) * (projDE1200 realArith).ecc ∧
      realArith.lit (1 / 2) * (projDE1200 realArith).ecc ≤ 5 / 100 := by
    rw [ehalf, eecc]; constructor <;> norm_num
  have hpow := hT.pow (t := 8 / 10 ^ 15) hbase hexp (by norm_num; constructor <;> linarith [bB.1, bB.2])
    (by norm_num at bexp ⊢; constructor <;> linarith [bexp.1, bexp.2]) (by norm_num)
  have bpow : 8 / 10 ≤ B ^ (realArith.lit (1 / 2) * (projDE1200 realArith).ecc) := by
    rcases le_total B 1 with hle | hle
    · calc (8 / 10 : ℝ) ≤ B := bB.1
        _ = B ^ (1 : ℝ) := (rpow_one _).symm
        _ ≤ _ := rpow_le_rpow_of_exponent_ge (by linarith [bB.1]) hle (by linarith [bexp.2])
    · calc (8 / 10 : ℝ) ≤ 1 := by norm_num
        _ = B ^ (0 : ℝ) := (rpow_zero _).symm
        _ ≤ _ := rpow_le_rpow_of_exponent_le hle (by linarith [bexp.1])
  have hs := hT.div (m := 79 / 100) (q := 60000000) (e := 99 / 10 ^ 8) (t := 1 / 10 ^ 6) hkt hpow (by norm_num)
    (by rw [abs_of_nonneg (by linarith)]; norm_num at bpow ⊢; linarith)
    (by rw [abs_of_nonneg (by linarith : 0 ≤ B ^ (realArith.lit (1 / 2) * (projDE1200 realArith).ecc))]
        refine bkt.trans ?_
        linarith)
    (by norm_num) (by norm_num) (by norm_num) (by norm_num)
  set S := (projDE1200 realArith).k_0 * tan (realArith.lit (1 / 2) * (realArith.piMul (1 / 2) - n * degToRad realArith)) /
    B ^ (realArith.lit (1 / 2) * (projDE1200 realArith).ecc) with hS
  have bS : |S| ≤ 60000000 := by
    rw [hS, abs_div, abs_of_nonneg (by linarith : 0 ≤ B ^ (realArith.lit (1 / 2) * (projDE1200 realArith).ecc)),
      div_le_iff₀ (by linarith)]
    refine bkt.trans ?_
    linarith
  -- longitude
  have bd : |e * degToRad realArith - (projDE1200 realArith).lon_0| ≤ 65 / 10 := by
    rw [edr, elon0, ← sub_mul, abs_mul, abs_of_pos (by positivity : 0 < π / 180)]
    have h1 : |e - 10| ≤ 370 := by
      have := abs_sub e 10; rw [abs_of_pos (by norm_num : (0 : ℝ) < 10)] at this; linarith [h.lon]
    have := mul_le_mul_of_nonneg_right h1 (by positivity : 0 ≤ π / 180)
    norm_num at hpi2 ⊢; linarith
  have hdl := hT.sub (M := 66 / 10) (t := 4 / 10 ^ 15) hlon hlon0 (by norm_num at bd ⊢; linarith) (by norm_num) (by norm_num)
    (by norm_num)
  have hsl := hT.sin (t := 5 / 10 ^ 15) hdl (by norm_num at bd ⊢; linarith) (by norm_num)
  have hcl := hT.cos (t := 5 / 10 ^ 15) hdl (by norm_num at bd ⊢; linarith) (by norm_num)
  have hxs := hT.mul (C := 1) (e := 14 / 10 ^ 7) (t := 15 / 10 ^ 7) hs hsl bS (abs_sin_le_one _) (by norm_num)
    (by norm_num) (by norm_num) (by norm_num)
  have hys := hT.mul (C := 1) (e := 14 / 10 ^ 7) (t := 15 / 10 ^ 7) hs hcl bS (abs_cos_le_one _) (by norm_num)
    (by norm_num) (by norm_num) (by norm_num)
  have bxs := Num.abs_mul_le bS (abs_sin_le_one (e * degToRad realArith - (projDE1200 realArith).lon_0))
  have bys := Num.abs_mul_le bS (abs_cos_le_one (e * degToRad realArith - (projDE1200 realArith).lon_0))
  have bx := (abs_add_le _ _).trans (add_le_add ex0 bxs)
  have by' := (abs_sub _ _).trans (add_le_add ey0 bys)
  have hX := hT.add (M := 61000000) (t := 17 / 10 ^ 7) hx0 hxs (by norm_num at bx ⊢; linarith) (by norm_num) (by norm_num) (by norm_num)
  have hY := hT.sub (M := 64000000) (t := 17 / 10 ^ 7) hy0 hys (by norm_num at by' ⊢; linarith) (by norm_num) (by norm_num) (by norm_num)
  have qx := hT.div (m := 999) (q := 61000) (e := 18 / 10 ^ 10) (t := 2 / 10 ^ 9) hX hscale (by norm_num)
    (by rw [escale]; norm_num) (by rw [escale]; norm_num at bx ⊢; linarith) (by norm_num) (by norm_num) (by norm_num) (by norm_num)
  have qy := hT.div (m := 999) (q := 64000) (e := 18 / 10 ^ 10) (t := 2 / 10 ^ 9) hY (hT.neg hscale) (by norm_num)
    (by rw [escale]; norm_num) (by rw [escale]; norm_num at by' ⊢; linarith) (by norm_num) (by norm_num) (by norm_num) (by norm_num)
  refine ⟨qx, qy, ?_, ?_⟩
  · show |_ / (projDE1200 realArith).scale| ≤ _
    rw [escale, abs_div, div_le_iff₀ (by norm_num)]
    refine bx.trans ?_
    norm_num
  · show |_ / -(projDE1200 realArith).scale| ≤ _
    rw [escale, abs_div, div_le_iff₀ (by norm_num)]
    refine by'.trans ?_
    norm_num

/-- the plane coordinates are within two micrometres of the exact ones -/
theorem plane_tr (format : Int) {xn xe : α} {n e : ℝ} (h : PointTracks P xn xe n e) :
    P (planeXY A format xn xe).1 (planeXY realArith format n e).1 (2 / 10 ^ 9) ∧
    P (planeXY A format xn xe).2 (planeXY realArith format n e).2 (2 / 10 ^ 9) ∧
    |(planeXY realArith format n e).1| ≤ 65000 ∧ |(planeXY realArith format n e).2| ≤ 65000 := by
  unfold planeXY
  split
  · exact wgs_tr hT h
  · obtain ⟨h1, h2, h3, h4⟩ := sphere_tr hT h
    exact ⟨hT.mono h1 (by norm_num), hT.mono h2 (by norm_num), h3, h4⟩

end
end Radolan
