/-
C102: the accuracy that C54 and its followers assume of sine, cosine and tangent is proved for the code of Go's package
math (Model/Trig.lean), however a compiler fuses its operations. The spherical projection then is accurate without any
assumption, and the ellipsoidal one with an assumption about math.Pow only.
-/
import Verif.Lemmas.TrigFuns
import Verif.Spec.Trig
import Verif.Props.Fusion
import Verif.Props.Reference

namespace Props
open Go Radolan Spec Real Go.Fl Spec.Fusion Radolan.Trig Spec.Trig

/-! ### the two arithmetics -/

theorem pi4A_value : (lit f64 pi4A).isFin = true ∧ (lit f64 pi4A).val = 6588397 / 8388608 := by decide +kernel

theorem exact_product {k : Nat} (hk : k ≤ 5) (b : Bool) : Ap (mk f64 b (2 * k * (6588397 / 8388608))) (2 * k * pi4) 0 := by
  have h : ∀ k : Nat, k ≤ 5 → rnd f64 (2 * k * (6588397 / 8388608)) = 2 * k * (6588397 / 8388608) ∧
      |rnd f64 (2 * k * (6588397 / 8388608))| < 1000 := by
    intro k hk
    interval_cases k <;> decide +kernel
  obtain ⟨h1, h2⟩ := h k hk
  have h3 : (1000 : ℚ) < pow2 f64.emax := by
    refine lt_trans (?_ : _ < pow2 10) (pow2_lt.mpr (by decide))
    rw [pow2_eq]; norm_num
  obtain ⟨f1, f2⟩ := mk_fin (b := b) (h2.trans h3)
  refine ⟨f1, ?_⟩
  rw [f2, h1]; unfold pi4; push_cast; simp

theorem small_const : (lit f64 (1 / 10 ^ 14)).isFin = true ∧ (lit f64 (1 / 10 ^ 14)).val ≤ 1 / 10 ^ 14 + 1 / 10 ^ 25 := by
  decide +kernel

theorem below_const {x : F64} (hx : x.isFin = true) (h : Fl.lt (lit f64 (1 / 10 ^ 14)) x = false) :
    (x.val : ℝ) ≤ 1 / 10 ^ 14 + 1 / 10 ^ 25 := by
  rw [lt_fin small_const.1 hx] at h
  have h1 : x.val ≤ (lit f64 (1 / 10 ^ 14)).val := _root_.not_lt.mp (of_decide_eq_false h)
  have h2 : x.val ≤ 1 / 10 ^ 14 + 1 / 10 ^ 25 := h1.trans small_const.2
  have : (x.val : ℝ) ≤ ((1 / 10 ^ 14 + 1 / 10 ^ 25 : ℚ) : ℝ) := by exact_mod_cast h2
  refine this.trans (le_of_eq ?_)
  push_cast; rfl

theorem trig_permitted : TrigTracks (permittedArith exactMath) Fusion.SetAp just Spec.Trig.larger where
  base := Fusion.tracks_permitted exactMath_accurate
  rebase := by
    intro x r s ε δ h hd u hu
    have := h u hu
    have tri : ∀ {a : ℝ}, |a - r| ≤ ε → |a - s| ≤ ε + δ := fun ha => (abs_sub_le _ r _).trans (add_le_add ha hd)
    cases u with
    | word y => exact ⟨this.1, tri this.2⟩
    | exact q => exact ⟨tri this.1, fun b => ⟨(this.2 b).1, tri (this.2 b).2⟩⟩
  ofWord hx := Fusion.just_ap (Ap.exact hx)
  prod := by
    rintro y k hy hv hk w ⟨u, v, rfl, rfl, hw⟩
    obtain ⟨p1, p2⟩ := pi4A_value
    cases hw with
    | separate hx hz =>
      rw [show _ = y from hx, show _ = lit f64 pi4A from hz]
      show Ap (Fl.mul y (lit f64 pi4A)) _ _
      rw [mul_fin hy p1, hv, p2]
      exact exact_product hk _
    | @kept p q hp hq _ =>
      obtain ⟨_, rfl⟩ := hp
      obtain ⟨_, rfl⟩ := hq
      show |((y.val * (lit f64 pi4A).val : ℚ) : ℝ) - _| ≤ 0 ∧ ∀ neg, Ap (mk f64 neg (y.val * (lit f64 pi4A).val)) _ _
      rw [hv, p2]
      refine ⟨?_, fun b => exact_product hk b⟩
      unfold pi4; push_cast; simp
    | @fused p q neg hp hq _ =>
      obtain ⟨_, rfl⟩ := hp
      obtain ⟨_, rfl⟩ := hq
      show Ap (mk f64 neg (y.val * (lit f64 pi4A).val)) _ _
      rw [hv, p2]
      exact exact_product hk _
  branch := by
    rintro zz a b v w e t hz ha hb u (⟨x, _, _, hu⟩ | ⟨x, hx, hl, hu⟩)
    · exact ha u hu
    · have hx' := observable_ap hz hx
      refine hb ?_ u hu
      have := below_const hx'.1 hl
      linarith [(abs_le.mp hx'.2).1]

/-! ### the property -/

/-- C102. Whatever operations are fused, math.Sin and math.Cos are finite and within `7·10^-16` of sine and cosine for
arguments up to 8 rad, and math.Tan is finite and within `10^-14` of the tangent for arguments up to 1.2 rad. -/
theorem C102_accurate {M : MathLib} {big : F64 → Nat × F64} (h : GoTrig M big) {x : F64} (hx : x.isFin = true) :
    (|(x.val : ℝ)| ≤ 8 → (M.sin x).isFin = true ∧ |((M.sin x).val : ℝ) - Real.sin x.val| ≤ 7 / 10 ^ 16) ∧
    (|(x.val : ℝ)| ≤ 8 → (M.cos x).isFin = true ∧ |((M.cos x).val : ℝ) - Real.cos x.val| ≤ 7 / 10 ^ 16) ∧
    (|(x.val : ℝ)| ≤ 6 / 5 → (M.tan x).isFin = true ∧ |((M.tan x).val : ℝ) - Real.tan x.val| ≤ 1 / 10 ^ 14) :=
  ⟨fun h8 => observable_ap (sinOf_tr trig_permitted big hx h8) (h.sin x),
   fun h8 => observable_ap (cosOf_tr trig_permitted big hx h8) (h.cos x),
   fun h6 => observable_ap (tanOf_tr trig_permitted big hx h6) (h.tan x)⟩

/-- C102. So the assumptions of C54 hold for every library with Go's trigonometric functions and an accurate power. -/
theorem C102_library {M : MathLib} {big : F64 → Nat × F64} (h : GoTrig M big)
    (hp : ∀ x y : F64, x.isFin = true → y.isFin = true → 1 / 2 ≤ (x.val : ℝ) ∧ (x.val : ℝ) ≤ 2 →
      0 ≤ (y.val : ℝ) ∧ (y.val : ℝ) ≤ 1 / 10 →
      (M.pow x y).isFin = true ∧ |((M.pow x y).val : ℝ) - (x.val : ℝ) ^ (y.val : ℝ)| ≤ 5 / 10 ^ 15) : AccurateMath M where
  sin x hx h8 := by
    obtain ⟨a, b⟩ := (C102_accurate h hx).1 h8
    exact ⟨a, b.trans (by norm_num)⟩
  cos x hx h8 := by
    obtain ⟨a, b⟩ := (C102_accurate h hx).2.1 h8
    exact ⟨a, b.trans (by norm_num)⟩
  tan x hx h6 := (C102_accurate h hx).2.2 h6
  pow := hp

/-! ### the code with every operation rounded -/

/-- an arithmetic with the operations of float64 among its results -/
structure TrigCovers {α : Type} (A : Arith α) (word : F64 → α) (larger : α → α → α → α) (R : F64 → α → Prop) : Prop where
  ops : Covers A noLib R
  word : ∀ x, R x (word x)
  larger : ∀ {x y z u v w}, R x u → R y v → R z w → R (largerF x y z) (larger u v w)

section
variable {α : Type} {A : Arith α} {word : F64 → α} {larger : α → α → α → α} {R : F64 → α → Prop}
variable (hC : TrigCovers A word larger R)
include hC

theorem step_covers {x z : F64} {u w : α} (c : ℚ) (hx : R x u) (hz : R z w) : R (step (f64Arith noLib) x z c) (step A u w c) :=
  hC.ops.add (hC.ops.mul hx hz) (hC.ops.lit _)

theorem sinPoly_covers {z : F64} {w : α} (hz : R z w) : R (sinPoly (f64Arith noLib) z) (sinPoly A w) := by
  have h2 := hC.ops.mul hz hz
  exact hC.ops.add hz (hC.ops.mul (hC.ops.mul hz h2) (step_covers hC _ (step_covers hC _ (step_covers hC _ (step_covers hC _
    (step_covers hC _ (hC.ops.lit _) h2) h2) h2) h2) h2))

theorem cosPoly_covers {z : F64} {w : α} (hz : R z w) : R (cosPoly (f64Arith noLib) z) (cosPoly A w) := by
  have h2 := hC.ops.mul hz hz
  exact hC.ops.add (hC.ops.sub (hC.ops.lit _) (hC.ops.mul (hC.ops.lit _) h2)) (hC.ops.mul (hC.ops.mul h2 h2)
    (step_covers hC _ (step_covers hC _ (step_covers hC _ (step_covers hC _ (step_covers hC _ (hC.ops.lit _) h2) h2) h2) h2) h2))

theorem tanPoly_covers {z : F64} {w : α} (hz : R z w) : R (tanPoly (f64Arith noLib) largerF z) (tanPoly A larger w) := by
  have h2 := hC.ops.mul hz hz
  exact hC.larger h2 (hC.ops.add hz (hC.ops.mul hz (hC.ops.div (hC.ops.mul h2 (step_covers hC _ (step_covers hC _
    (hC.ops.lit _) h2) h2)) (step_covers hC _ (step_covers hC _ (step_covers hC _ (hC.ops.add h2 (hC.ops.lit _)) h2) h2) h2)))) hz

theorem reduced_covers (big : F64 → Nat × F64) (x : F64) : (reduced A word big x).1 = (reduced (f64Arith noLib) id big x).1 ∧
    R (reduced (f64Arith noLib) id big x).2 (reduced A word big x).2 := by
  unfold reduced
  split
  · exact ⟨rfl, hC.word _⟩
  · have hy := hC.word (octant x).2
    exact ⟨rfl, hC.ops.sub (hC.ops.sub (hC.ops.sub (hC.word x) (hC.ops.mul hy (hC.ops.lit _))) (hC.ops.mul hy (hC.ops.lit _)))
      (hC.ops.mul hy (hC.ops.lit _))⟩

theorem signed_covers {y : F64} {w : α} (s : Bool) (h : R y w) :
    R (if s then (f64Arith noLib).neg y else y) (if s then A.neg w else w) := by
  cases s
  · exact h
  · exact hC.ops.neg h

omit hC in
theorem ite_covers {p : Prop} [Decidable p] {x y : F64} {u v : α} (hx : R x u) (hy : R y v) :
    R (if p then x else y) (if p then u else v) := by
  split
  · exact hx
  · exact hy

theorem sinOf_covers (big : F64 → Nat × F64) (x : F64) : R (goSin big x) (sinOf A word big x) := by
  unfold goSin sinOf
  split
  · exact hC.word _
  split
  · exact hC.word _
  · obtain ⟨e, h⟩ := reduced_covers hC big (if Fl.lt x Fl.zero then Fl.neg x else x)
    simp only [e]
    exact signed_covers hC _ (ite_covers (cosPoly_covers hC h) (sinPoly_covers hC h))

theorem cosOf_covers (big : F64 → Nat × F64) (x : F64) : R (goCos big x) (cosOf A word big x) := by
  unfold goCos cosOf
  split
  · exact hC.word _
  · obtain ⟨e, h⟩ := reduced_covers hC big (Fl.abs x)
    simp only [e]
    exact signed_covers hC _ (ite_covers (sinPoly_covers hC h) (cosPoly_covers hC h))

theorem tanOf_covers (big : F64 → Nat × F64) (x : F64) : R (goTan big x) (tanOf A word larger big x) := by
  unfold goTan tanOf
  split
  · exact hC.word _
  split
  · exact hC.word _
  · obtain ⟨e, h⟩ := reduced_covers hC big (if Fl.lt x Fl.zero then Fl.neg x else x)
    have ht := tanPoly_covers hC h
    simp only [e]
    exact signed_covers hC _ (ite_covers (hC.ops.div (hC.ops.lit _) ht) ht)

end

theorem trigCovers_permitted : TrigCovers (permittedArith noLib) just Spec.Trig.larger (fun x a => a (.word x)) where
  ops := covers_permitted noLib
  word _ := rfl
  larger := by
    intro x y z u v w hx hy hz
    unfold largerF
    by_cases h : Fl.lt (Fl.lit f64 (1 / 10 ^ 14)) x = true
    · rw [if_pos h]; exact Or.inl ⟨x, ⟨_, hx, rfl⟩, h, hy⟩
    · rw [if_neg h]; exact Or.inr ⟨x, ⟨_, hx, rfl⟩, by simpa using h, hz⟩

/-- C102. The functions with every operation rounded are among the permitted ones, whatever the rest of the library is. -/
theorem C102_separate_rounding (M : MathLib) (big : F64 → Nat × F64) :
    GoTrig { M with sin := goSin big, cos := goCos big, tan := goTan big } big where
  sin x := ⟨_, sinOf_covers trigCovers_permitted big x, rfl⟩
  cos x := ⟨_, cosOf_covers trigCovers_permitted big x, rfl⟩
  tan x := ⟨_, tanOf_covers trigCovers_permitted big x, rfl⟩

/-! ### the spherical projection without assumptions -/

/-- the spherical projection does not call math.Pow -/
theorem sphere_no_pow {α : Type} (A : Arith α) (pow : α → α → α) {format : Int} (hf : format < 5) (dx dy : Int) (u v : α) :
    project { A with pow := pow } (calibrate { A with pow := pow } format dx dy) u v = project A (calibrate A format dx dy) u v ∧
    calibrate { A with pow := pow } format dx dy = calibrate A format dx dy := by
  have h5 : ¬ (5 ≤ format) := by omega
  have hk : cornerPoints { A with pow := pow } format (detectGrid dx dy) = cornerPoints A format (detectGrid dx dy) := by
    cases detectGrid dx dy <;> rfl
  have hc : calibrate { A with pow := pow } format dx dy = calibrate A format dx dy := by
    unfold calibrate
    simp only [hk, h5, false_and, if_false]
    rfl
  refine ⟨?_, hc⟩
  rw [hc]
  have hw : (calibrate A format dx dy).wgs84 = none := by
    unfold calibrate
    simp only [h5, false_and, if_false]
    split <;> rfl
  unfold project
  rw [hw]
  rfl

/-- Go's trigonometric functions with an exact power -/
theorem goTrig_accurate {M : MathLib} {big : F64 → Nat × F64} (h : GoTrig M big) :
    AccurateMath { M with pow := exactMath.pow } :=
  C102_library (M := { M with pow := exactMath.pow }) ⟨h.sin, h.cos, h.tan⟩ exactMath_accurate.pow

/-- C102. With Go's trigonometric functions, and whatever operations are fused in them and in this package, Project of a
composite with a format version below 5 returns finite numbers that differ from the exact stereographic projection by at
most a billionth of the number of pixels along the edge. -/
theorem C102_sphere {E : Env} {big : F64 → Nat × F64} (h : GoTrig E.math big) {c : Composite} {b : Int × Int}
    (hg : HasGrid c.format c.dx c.dy b) (hf : c.format < 5) (hdx : c.dx < 2 ^ 63) (hdy : c.dy < 2 ^ 63)
    {north east : F64} (hp : OnMap north east) :
    let r := realProject c.format c.dx c.dy north.val east.val
    (∀ x, Observable (permittedProject E c north east).1 x → x.isFin = true ∧ |(x.val : ℝ) - r.1| ≤ c.dx / 10 ^ 9) ∧
    (∀ y, Observable (permittedProject E c north east).2 y → y.isFin = true ∧ |(y.val : ℝ) - r.2| ≤ c.dy / 10 ^ 9) := by
  have key := C67_project (E := { E with math := { E.math with pow := exactMath.pow } }) (goTrig_accurate h) hg hdx hdy hp
  have e : permittedProject { E with math := { E.math with pow := exactMath.pow } } c north east = permittedProject E c north east :=
    (sphere_no_pow (permittedArith E.math) (permittedArith { E.math with pow := exactMath.pow }).pow hf c.dx c.dy
      (just north) (just east)).1
  rw [e] at key
  exact key

/-- C102. Likewise the documented reference points, and the resolutions. -/
theorem C102_sphere_reference {E : Env} {big : F64 → Nat × F64} (h : GoTrig E.math big) {c : Composite} {b : Int × Int}
    (hg : HasGrid c.format c.dx c.dy b) (hf : c.format < 5) (hdx : c.dx < 2 ^ 63) (hdy : c.dy < 2 ^ 63) :
    ((∀ x, Observable (permittedCalib E c).rx x →
      PosFin x ∧ |(x.val : ℝ) - (realCalib c.format c.dx c.dy).rx| ≤ 5 / 10 ^ 12 * (realCalib c.format c.dx c.dy).rx) ∧
    (∀ y, Observable (permittedCalib E c).ry y →
      PosFin y ∧ |(y.val : ℝ) - (realCalib c.format c.dx c.dy).ry| ≤ 5 / 10 ^ 12 * (realCalib c.format c.dx c.dy).ry)) ∧
    ∀ {n e kx ky : ℚ}, (n, e, kx, ky) ∈ refPoints b c.format →
    let q := permittedProject E c (Fl.lit f64 n) (Fl.lit f64 e)
    (∀ x, Observable q.1 x → x.isFin = true ∧ |(x.val : ℝ) * ((extentKm b).1 / c.dx) - kx| ≤ refTolerance b + 2 / 10 ^ 6) ∧
    (∀ y, Observable q.2 y → y.isFin = true ∧ |(y.val : ℝ) * ((extentKm b).2 / c.dy) - ky| ≤ refTolerance b + 2 / 10 ^ 6) := by
  have hM := goTrig_accurate h
  have e : ∀ north east, permittedProject { E with math := { E.math with pow := exactMath.pow } } c north east
      = permittedProject E c north east := fun north east =>
    (sphere_no_pow (permittedArith E.math) (permittedArith { E.math with pow := exactMath.pow }).pow hf c.dx c.dy
      (just north) (just east)).1
  have ec : permittedCalib { E with math := { E.math with pow := exactMath.pow } } c = permittedCalib E c :=
    (sphere_no_pow (permittedArith E.math) (permittedArith { E.math with pow := exactMath.pow }).pow hf c.dx c.dy
      (just Fl.zero) (just Fl.zero)).2
  refine ⟨?_, ?_⟩
  · have key := C67_resolution (E := { E with math := { E.math with pow := exactMath.pow } }) hM hg hdx hdy
    rw [ec] at key
    exact key
  · intro n e' kx ky hp
    have key := C67_reference_points (E := { E with math := { E.math with pow := exactMath.pow } }) hM hg hdx hdy hp
    simp only [e] at key
    exact key

/-- a sample: the code evaluated with every operation rounded, in an environment whose math.Pow is arbitrary; the product RX
has the national grid and format version 2, and 51 N, 9 E is on the map -/
example (E : Env) (big : F64 → Nat × F64) :
    let E' := { E with math := { E.math with sin := goSin big, cos := goCos big, tan := goTan big } }
    let c := NewDummy E' (str "RX") 2 900 900
    let q := c.Project E' (Fl.lit f64 51) (Fl.lit f64 9)
    q.1.isFin = true ∧ |(q.1.val : ℝ) - (realProject 2 900 900 51 9).1| ≤ 900 / 10 ^ 9 := by
  intro E' c q
  have hg : HasGrid c.format c.dx c.dy (225, 225) := ⟨by decide, ⟨2, rfl, rfl⟩, Or.inl (show (2 : Int) < 5 by decide)⟩
  have v51 : (Fl.lit f64 51).isFin = true ∧ (Fl.lit f64 51).val = 51 := by decide +kernel
  have v9 : (Fl.lit f64 9).isFin = true ∧ (Fl.lit f64 9).val = 9 := by decide +kernel
  have hon : OnMap (Fl.lit f64 51) (Fl.lit f64 9) := by unfold OnMap; decide +kernel
  have key := C102_sphere (E := E') (C102_separate_rounding E.math big) (c := c) hg (show (2 : Int) < 5 by decide)
    (show (900 : Int) < 2 ^ 63 by decide) (show (900 : Int) < 2 ^ 63 by decide) hon
  have := key.1 q.1 (C67_separate_rounding (Ready.dummy (E := E') _ _ _ _) _ _).2.2.1
  rw [show c.format = 2 from rfl, show c.dx = 900 from rfl, show c.dy = 900 from rfl, v51.2, v9.2] at this
  push_cast at this
  exact this

/-- a sample: the arguments of the formulas, here 51° in radians (rounded), are in the range of `C102_accurate` -/
example (big : F64 → Nat × F64) : |((goSin big (Fl.lit f64 (89 / 100))).val : ℝ) - Real.sin (Fl.lit f64 (89 / 100)).val| ≤ 7 / 10 ^ 16 := by
  have v : (Fl.lit f64 (89 / 100)).isFin = true ∧ |(Fl.lit f64 (89 / 100)).val| ≤ 8 := by decide +kernel
  have h8 : |((Fl.lit f64 (89 / 100)).val : ℝ)| ≤ 8 := by exact_mod_cast v.2
  exact ((C102_accurate (C102_separate_rounding exactMath big) v.1).1 h8).2

end Props
