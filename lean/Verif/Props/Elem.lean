/-
C104: the accuracy that C103 assumes of exponential, logarithm and square root is proved for the code of Go's package math
(Model/Elem.lean), however a compiler fuses its operations, given that the square root is rounded correctly. So nothing
else is assumed about package math.
-/
import Verif.Lemmas.ElemAmd
import Verif.Lemmas.ElemLog
import Verif.Spec.Elem
import Verif.Props.Pow

namespace Props
open Go Radolan Spec Real Go.Fl Spec.Fusion Radolan.Trig Spec.Trig Radolan.Pow Spec.Pow Radolan.Elem Spec.Elem

/-! ### the arithmetic of permitted evaluations -/

theorem rep_ap {w : ℚ} (h : IsRep f64 w) (b : Bool) : Ap (mk f64 b w) (w : ℝ) 0 := by
  obtain ⟨m1, m2⟩ := mk_fin (b := b) (q := w) (by rw [h.1]; exact h.2)
  exact ⟨m1, by rw [m2, h.1]; simp⟩

theorem ldexp_ap {x : F64} {r ε : ℝ} {k : Int} (h : Ap x r ε) (hr : |r| + ε ≤ 2) (hk : |k| ≤ 8) :
    Ap (ldexp x k) (r * 2 ^ k) ((ε + 24 / 10 ^ 17) * 2 ^ k) := by
  have hpos : (0 : ℝ) < 2 ^ k := by positivity
  obtain ⟨k1, k2⟩ := abs_le.mp hk
  have hu : (2 : ℝ) ^ k ≤ 256 := by
    refine (zpow_le_zpow_right₀ (by norm_num) k2).trans ?_
    norm_num
  have hl : 1 / 256 ≤ (2 : ℝ) ^ k := by
    refine _root_.le_trans ?_ (zpow_le_zpow_right₀ (by norm_num) k1)
    norm_num
  have hb : ∀ b, Ap (mk f64 b (x.val * (2 : ℚ) ^ k)) (r * 2 ^ k) ((ε + 24 / 10 ^ 17) * 2 ^ k) := by
    intro b
    refine (mk_ap (ε := ε * 2 ^ k) (M := 2 * 2 ^ k) ?_ ?_ (by norm_num at hl ⊢; linarith) (by norm_num at hu ⊢; linarith)).mono ?_
    · push_cast
      rw [← sub_mul, abs_mul, abs_of_pos hpos]
      exact mul_le_mul_of_nonneg_right h.2 hpos.le
    · rw [abs_mul, abs_of_pos hpos, ← add_mul]
      exact mul_le_mul_of_nonneg_right hr hpos.le
    · have : ε * 2 ^ k + 2 * 2 ^ k * (12 / 10 ^ 17) = (ε + 24 / 10 ^ 17) * (2 : ℝ) ^ k := by ring
      rw [this]
  cases x with
  | fin q hq => exact hb _
  | nzero =>
    have := hb false
    refine ⟨rfl, ?_⟩
    change |((0 : ℚ) : ℝ) - r * 2 ^ k| ≤ _
    have hz : (mk f64 false ((Fl.nzero : F64).val * (2 : ℚ) ^ k)).val = 0 := by
      change (mk f64 false (0 * (2 : ℚ) ^ k)).val = 0
      rw [zero_mul, Fl.mk]; simp [Fl.zero, val]
    have h2 := this.2
    rwa [hz] at h2
  | nan => exact absurd h.1 (by simp [isFin])
  | inf b => exact absurd h.1 (by simp [isFin])

theorem elem_permitted : ElemTracks (permittedArith exactMath) Fusion.SetAp just stored scaled where
  base := Fusion.tracks_permitted exactMath_accurate
  rebase := trig_permitted.rebase
  ofWord hx := Fusion.just_ap (Ap.exact hx)
  prod := by
    rintro y c v w hy hw hc hv hrep z ⟨u, v', rfl, rfl, hz⟩
    cases hz with
    | separate h1 h2 =>
      rw [show _ = y from h1, show _ = lit f64 c from h2]
      show Ap (Fl.mul y (lit f64 c)) _ _
      rw [mul_fin hy hc, hw, hv]
      exact rep_ap hrep _
    | @kept p q hp hq _ =>
      obtain ⟨_, rfl⟩ := hp
      obtain ⟨_, rfl⟩ := hq
      show |((y.val * (lit f64 c).val : ℚ) : ℝ) - _| ≤ 0 ∧ ∀ neg, Ap (mk f64 neg (y.val * (lit f64 c).val)) _ _
      rw [hw, hv]
      exact ⟨by simp, fun b => rep_ap hrep b⟩
    | @fused p q neg hp hq _ =>
      obtain ⟨_, rfl⟩ := hp
      obtain ⟨_, rfl⟩ := hq
      show Ap (mk f64 neg (y.val * (lit f64 c).val)) _ _
      rw [hw, hv]
      exact rep_ap hrep _
  observe := by
    rintro v f r ε w t hv hf u ⟨x, hx, hu⟩
    exact hf x (observable_ap hv hx) u hu
  scale := by
    rintro a r ε k ha hr hk w ⟨u, x, hu, hx, rfl⟩
    exact ldexp_ap ((ha u hu).rounds hx) hr hk

/-! ### the property -/

variable {exp' log' sqrt' : F64 → F64}

/-- C104. Whatever operations are fused, math.Exp (in Go and on amd64) is finite and has a relative error of at most
`22·10^-16` for arguments up to 5 in absolute value. -/
theorem C104_exp (h : GoElementary exp' log' sqrt') {x : F64} (hx : x.isFin = true) (h5 : |(x.val : ℝ)| ≤ 5) :
    (exp' x).isFin = true ∧ |((exp' x).val : ℝ) - Real.exp x.val| ≤ Real.exp x.val * (22 / 10 ^ 16) := by
  rcases h.exp x with h1 | h1
  · refine Ap.mono (observable_ap (expOf_tr elem_permitted hx h5) h1) ?_
    exact mul_le_mul_of_nonneg_left (by norm_num) (exp_pos _).le
  · exact observable_ap (amdExpOf_tr elem_permitted hx h5) h1

/-- C104. Likewise math.Log of every positive number, denormal numbers included, is finite and within `4·10^-16` (times one
plus the logarithm) of the natural logarithm. -/
theorem C104_log (h : GoElementary exp' log' sqrt') {x : F64} (hx : x.isFin = true) (h0 : 0 < (x.val : ℝ)) :
    (log' x).isFin = true ∧ |((log' x).val : ℝ) - Real.log x.val| ≤ (1 + |Real.log x.val|) * (4 / 10 ^ 16) :=
  observable_ap (logOf_tr elem_permitted hx h0) (h.log x)

/-- C104. So exponential, logarithm and square root are as accurate as C103 assumes. -/
theorem C104_elementary (h : GoElementary exp' log' sqrt') : AccurateElementary exp' log' sqrt' where
  exp _ hx h5 := C104_exp h hx h5
  log _ hx h1 _ := C104_log h hx (by linarith)
  sqrt x hx h1 h2 := by
    have hx0 : (0 : ℚ) ≤ x.val := by
      have : ((0 : ℚ) : ℝ) ≤ x.val := by push_cast; linarith
      exact_mod_cast this
    obtain ⟨s1, s2⟩ := h.sqrt x hx hx0
    obtain ⟨t1, t2⟩ := sample_elementary.sqrt x hx h1 h2
    exact ⟨s1, (s2 _ t1).trans t2⟩

theorem observable_just {x y : F64} (h : Observable (just x) y) : y = x := by
  obtain ⟨u, rfl, hu⟩ := h
  exact hu

/-- C104. Special cases: the exponential of NaN, +∞ and -∞ is NaN, +∞ and 0, and it overflows above 710; the logarithm of
NaN and negative numbers is NaN, of +∞ it is +∞ and of both zeros it is -∞. -/
theorem C104_special_cases (h : GoElementary exp' log' sqrt') :
    (exp' .nan = .nan ∧ exp' (.inf false) = .inf false ∧ exp' (.inf true) = zero) ∧
    (∀ x : F64, x.isFin = true → 710 ≤ x.val → exp' x = .inf false) ∧
    (log' .nan = .nan ∧ log' (.inf false) = .inf false ∧ log' (.inf true) = .nan) ∧
    (∀ x : F64, x.isFin = true → x.val < 0 → log' x = .nan) ∧ log' zero = .inf true ∧ log' .nzero = .inf true := by
  have z0 : lit f64 0 = zero := by decide +kernel
  refine ⟨⟨?_, ?_, ?_⟩, fun x hx h7 => ?_, ⟨?_, ?_, ?_⟩, fun x hx hn => ?_, ?_, ?_⟩
  · rcases h.exp .nan with e | e
    · unfold expOf at e; rw [if_pos (Or.inl rfl)] at e; exact observable_just e
    · unfold amdExpOf at e; rw [if_pos (Or.inl rfl)] at e; exact observable_just e
  · rcases h.exp (.inf false) with e | e
    · unfold expOf at e; rw [if_pos (Or.inr rfl)] at e; exact observable_just e
    · unfold amdExpOf at e; rw [if_pos (Or.inr rfl)] at e; exact observable_just e
  · rcases h.exp (.inf true) with e | e
    · unfold expOf at e; rw [if_neg (by simp), if_pos rfl] at e; exact (observable_just e).trans z0
    · unfold amdExpOf at e; rw [if_neg (by simp), if_pos rfl] at e; exact (observable_just e).trans z0
  · have hn : x ≠ .nan ∧ x ≠ .inf false ∧ x ≠ .inf true := by refine ⟨?_, ?_, ?_⟩ <;> (rintro rfl; simp [isFin] at hx)
    have c1 : (lit f64 (mkRat 709782712893383973096 (10 ^ 18))).isFin = true ∧
      (lit f64 (mkRat 709782712893383973096 (10 ^ 18))).val < 710 := by decide +kernel
    have c2 : (lit f64 (mkRat 709782712893384 (10 ^ 12))).isFin = true ∧ (lit f64 (mkRat 709782712893384 (10 ^ 12))).val < 710 := by
      decide +kernel
    rcases h.exp x with e | e
    · unfold expOf at e
      rw [if_neg (by simp [hn.1, hn.2.1]), if_neg hn.2.2, if_pos (by rw [lt_fin c1.1 hx]; exact decide_eq_true (lt_of_lt_of_le c1.2 h7))] at e
      exact observable_just e
    · unfold amdExpOf at e
      rw [if_neg (by simp [hn.1, hn.2.1]), if_neg hn.2.2, if_pos (by rw [lt_fin c2.1 hx]; exact decide_eq_true (lt_of_lt_of_le c2.2 h7))] at e
      exact observable_just e
  · have e := h.log .nan
    unfold logOf at e; rw [if_pos (Or.inl rfl)] at e; exact observable_just e
  · have e := h.log (.inf false)
    unfold logOf at e; rw [if_pos (Or.inr rfl)] at e; exact observable_just e
  · have e := h.log (.inf true)
    unfold logOf at e; rw [if_neg (by simp), if_pos (by decide)] at e; exact observable_just e
  · have hnn : x ≠ .nan ∧ x ≠ .inf false := by refine ⟨?_, ?_⟩ <;> (rintro rfl; simp [isFin] at hx)
    have e := h.log x
    unfold logOf at e
    rw [if_neg (by simp [hnn.1, hnn.2]), if_pos (by rw [lt_fin hx (by rfl)]; exact decide_eq_true hn)] at e
    exact observable_just e
  · have e := h.log zero
    unfold logOf at e; rw [if_neg (by simp [zero]), if_neg (by decide), if_pos (by decide)] at e; exact observable_just e
  · have e := h.log .nzero
    unfold logOf at e; rw [if_neg (by simp), if_neg (by decide), if_pos (by decide)] at e; exact observable_just e

variable {M : MathLib} {special : F64 → F64 → F64} {big : F64 → Nat × F64}

/-- C104. All the assumptions made about package math (C41, C54, C57, C67, C86, C87 and others) hold for Go's code. -/
theorem C104_library (hT : GoTrig M big) (hP : GoPow M exp' sqrt' special) (hE : GoElementary exp' M.log sqrt') :
    AccurateMath M ∧ AccuratePowLog M ∧ ∀ x : F64, x ≠ lit f64 1 → M.pow x .nan = .nan :=
  C103_library hT hP (C104_elementary hE)

/-- C104. In particular the projection of every grid, and the rates of all Z-R relations, are accurate, however operations
are fused, in this package and in package math. -/
theorem C104_project_and_rate {E : Env} (hT : GoTrig E.math big) (hP : GoPow E.math exp' sqrt' special)
    (hE : GoElementary exp' E.math.log sqrt') :
    (∀ {c : Composite} {b : Int × Int}, HasGrid c.format c.dx c.dy b → c.dx < 2 ^ 63 → c.dy < 2 ^ 63 →
      ∀ {north east : F64}, OnMap north east →
      let r := realProject c.format c.dx c.dy north.val east.val
      (∀ x, Observable (permittedProject E c north east).1 x → x.isFin = true ∧ |(x.val : ℝ) - r.1| ≤ c.dx / 10 ^ 9) ∧
      (∀ y, Observable (permittedProject E c north east).2 y → y.isFin = true ∧ |(y.val : ℝ) - r.2| ≤ c.dy / 10 ^ 9)) ∧
    (∀ {a b : F64}, Parameters a b → ∀ {d : F32}, d.isFin = true → |(d.val : ℝ)| ≤ 128 →
      ∀ {R : F64}, PermittedRate E.math (permittedZR E.math a b) d R →
      R.isFin = true ∧ 0 < R.val ∧ |(R.val : ℝ) - realRate a.val b.val d.val| ≤ realRate a.val b.val d.val / 10 ^ 10) :=
  C103_project_and_rate hT hP (C104_elementary hE)

/-! ### the code with every operation rounded -/

section
variable {α : Type} {A : Arith α} {word : F64 → α} {observe : α → (F64 → α) → α} {scale : α → Int → α} {R : F64 → α → Prop}

/-- an arithmetic with the operations of float64 among its results -/
structure ElemCovers {α : Type} (A : Arith α) (word : F64 → α) (observe : α → (F64 → α) → α) (scale : α → Int → α)
    (R : F64 → α → Prop) : Prop where
  ops : Covers A noLib R
  word : ∀ x, R x (word x)
  observe : ∀ {v : F64} {u : α} {f : F64 → F64} {g : F64 → α}, R v u → (∀ x, R (f x) (g x)) → R (f v) (observe u g)
  scale : ∀ {x u} (k : Int), R x u → R (ldexp x k) (scale u k)

variable (hC : ElemCovers A word observe scale R)
include hC

theorem cstep_covers {x z : F64} {u w : α} (c : ℚ) (hx : R x u) (hz : R z w) :
    R (cstep (f64Arith noLib) c x z) (cstep A c u w) := hC.ops.add (hC.ops.lit _) (hC.ops.mul hx hz)

theorem expmulti_covers {h l : F64} {u w : α} (k : Int) (hh : R h u) (hl : R l w) :
    R (expmulti (f64Arith noLib) ldexp h l k) (expmulti A scale u w k) := by
  have hr := hC.ops.sub hh hl
  have ht := hC.ops.mul hr hr
  have hc := hC.ops.sub hr (hC.ops.mul ht (cstep_covers hC p1 ht (cstep_covers hC p2 ht (cstep_covers hC p3 ht
    (cstep_covers hC p4 ht (hC.ops.lit p5))))))
  exact hC.scale k (hC.ops.sub (hC.ops.lit _) (hC.ops.sub (hC.ops.sub hl (hC.ops.div (hC.ops.mul hr hc)
    (hC.ops.sub (hC.ops.lit _) hc))) hh))

theorem expOf_covers (x : F64) : R (goExp x) (expOf A word observe scale x) := by
  unfold goExp expOf
  split
  · exact hC.word _
  split
  · exact hC.ops.lit 0
  split
  · exact hC.word _
  split
  · exact hC.ops.lit 0
  split
  · exact hC.ops.add (hC.ops.lit _) (hC.word _)
  · refine hC.observe (f := fun v => expmulti (f64Arith noLib) ldexp
        (Fl.sub x (Fl.mul (lit f64 ((ratTrunc v.val : Int) : ℚ)) (lit f64 ln2Hi)))
        (Fl.mul (lit f64 ((ratTrunc v.val : Int) : ℚ)) (lit f64 ln2Lo)) (ratTrunc v.val)) ?_ fun v => ?_
    · exact ite_covers (hC.ops.sub (hC.ops.mul (hC.ops.lit _) (hC.word _)) (hC.ops.lit _))
        (hC.ops.add (hC.ops.mul (hC.ops.lit _) (hC.word _)) (hC.ops.lit _))
    · exact expmulti_covers hC _ (hC.ops.sub (hC.word _) (hC.ops.mul (hC.word _) (hC.ops.lit _)))
        (hC.ops.mul (hC.word _) (hC.ops.lit _))

theorem square_covers {x : F64} {u : α} (h : R x u) : R (square (f64Arith noLib) x) (square A u) :=
  hC.ops.mul h (hC.ops.add h (hC.ops.lit _))

theorem amdExpOf_covers (x : F64) : R (amdExp x) (amdExpOf A word observe scale x) := by
  unfold amdExp amdExpOf
  split
  · exact hC.word _
  split
  · exact hC.ops.lit 0
  split
  · exact hC.word _
  · refine hC.observe (hC.ops.mul (hC.word _) (hC.ops.lit _)) fun v => ?_
    have hk := hC.word (Fl.lit f64 (roundEven v.val : ℚ))
    have hs := hC.ops.mul (hC.ops.sub (hC.ops.sub (hC.word x) (hC.ops.mul hk (hC.ops.lit ln2U))) (hC.ops.mul hk (hC.ops.lit ln2L)))
      (hC.ops.lit (1 / 16))
    exact hC.scale _ (hC.ops.add (square_covers hC (square_covers hC (square_covers hC (square_covers hC (hC.ops.mul hs
      (cstep_covers hC _ hs (cstep_covers hC _ hs (cstep_covers hC _ hs (cstep_covers hC _ hs (cstep_covers hC _ hs
      (cstep_covers hC _ hs (cstep_covers hC _ hs (hC.ops.lit _))))))))))))) (hC.ops.lit _))

theorem logOf_covers (x : F64) : R (goLog x) (logOf A word x) := by
  unfold goLog logOf
  split
  · exact hC.word _
  split
  · exact hC.word _
  split
  · exact hC.word _
  · simp only []
    have hf := hC.ops.sub (hC.word (if Fl.lt (frexp x).1 (Fl.lit f64 (sqrt2 / 2)) = true then Fl.mul (frexp x).1 (Fl.lit f64 2)
      else (frexp x).1)) (hC.ops.lit 1)
    have hk := hC.word (Fl.lit f64 ((if Fl.lt (frexp x).1 (Fl.lit f64 (sqrt2 / 2)) = true then (frexp x).2 - 1 else (frexp x).2 : Int) : ℚ))
    have hs := hC.ops.div hf (hC.ops.add (hC.ops.lit 2) hf)
    have h2 := hC.ops.mul hs hs
    have h4 := hC.ops.mul h2 h2
    have t1 := hC.ops.mul h2 (cstep_covers hC l1 h4 (cstep_covers hC l3 h4 (cstep_covers hC l5 h4 (hC.ops.lit l7))))
    have t2 := hC.ops.mul h4 (cstep_covers hC l2 h4 (cstep_covers hC l4 h4 (hC.ops.lit l6)))
    have hq := hC.ops.mul (hC.ops.mul (hC.ops.lit (1 / 2)) hf) hf
    exact hC.ops.sub (hC.ops.mul hk (hC.ops.lit _)) (hC.ops.sub (hC.ops.sub hq (hC.ops.add (hC.ops.mul hs (hC.ops.add hq
      (hC.ops.add t1 t2))) (hC.ops.mul hk (hC.ops.lit _)))) hf)

end

theorem elemCovers_permitted : ElemCovers (permittedArith noLib) just stored scaled (fun x a => a (.word x)) where
  ops := covers_permitted noLib
  word _ := rfl
  observe hv hf := ⟨_, ⟨_, hv, rfl⟩, hf _⟩
  scale _ hx := ⟨_, _, hx, rfl, rfl⟩

/-- C104. The functions with every operation rounded are among the permitted ones, on amd64 and elsewhere. -/
theorem C104_separate_rounding {sqrt' : F64 → F64} (hs : ∀ x : F64, x.isFin = true → 0 ≤ x.val → (sqrt' x).isFin = true ∧
    ∀ z : F64, z.isFin = true → |((sqrt' x).val : ℝ) - Real.sqrt x.val| ≤ |(z.val : ℝ) - Real.sqrt x.val|) :
    GoElementary goExp goLog sqrt' ∧ GoElementary amdExp goLog sqrt' :=
  ⟨⟨fun x => Or.inl ⟨_, expOf_covers elemCovers_permitted x, rfl⟩, fun x => ⟨_, logOf_covers elemCovers_permitted x, rfl⟩, hs⟩,
   ⟨fun x => Or.inr ⟨_, amdExpOf_covers elemCovers_permitted x, rfl⟩, fun x => ⟨_, logOf_covers elemCovers_permitted x, rfl⟩, hs⟩⟩

/-! ### samples -/

/-- there are finitely many float64 values -/
theorem reps_finite : {q : ℚ | IsRep f64 q}.Finite := by
  refine ((Set.finite_Icc (-(2 ^ 53) : Int) (2 ^ 53)).prod (Set.finite_Icc f64.emin f64.emax)).image
    (fun p => (p.1 : ℚ) * pow2 p.2) |>.subset ?_
  rintro q ⟨h1, h2⟩
  obtain ⟨n, e, he, hn, hr⟩ := rnd_form f64 q
  rw [h1] at hr
  by_cases h0 : n = 0
  · exact ⟨(0, f64.emin), ⟨Set.mem_Icc.mpr ⟨by norm_num, by norm_num⟩, Set.mem_Icc.mpr ⟨_root_.le_refl _, by decide⟩⟩, by simp [hr, h0]⟩
  · refine ⟨(n, e), ⟨Set.mem_Icc.mpr (abs_le.mp hn), Set.mem_Icc.mpr ⟨he, ?_⟩⟩, hr.symm⟩
    have h3 : (1 : ℚ) ≤ |(n : ℚ)| := by
      have : 1 ≤ |n| := Int.one_le_abs h0
      exact_mod_cast this
    have h4 : pow2 e ≤ |q| := by
      rw [hr, abs_mul, abs_of_pos (pow2_pos e)]
      exact le_mul_of_one_le_left (pow2_pos e).le h3
    exact (pow2_lt.mp (lt_of_le_of_lt h4 h2)).le

theorem nearest_exists (r : ℝ) : ∃ z : F64, z.isFin = true ∧ ∀ y : F64, y.isFin = true → |(z.val : ℝ) - r| ≤ |(y.val : ℝ) - r| := by
  obtain ⟨q, hq, hmin⟩ := Set.exists_min_image _ (fun q : ℚ => |(q : ℝ) - r|) reps_finite ⟨0, IsRep.zero f64⟩
  exact ⟨.fin q hq, rfl, fun y _ => hmin y.val y.val_repr⟩

/-- the correctly rounded square root -/
noncomputable def correctSqrt (x : F64) : F64 := Classical.choose (nearest_exists (Real.sqrt x.val))

theorem sample_go : GoElementary goExp goLog correctSqrt ∧ GoElementary amdExp goLog correctSqrt :=
  C104_separate_rounding fun x _ _ => Classical.choose_spec (nearest_exists (Real.sqrt x.val))

/-- package math: the code of Go, with every operation rounded -/
noncomputable def goMath (amd64 : Bool) (big : F64 → Nat × F64) (special : F64 → F64 → F64) : MathLib where
  sin := goSin big
  cos := goCos big
  tan := goTan big
  pow := goPow (if amd64 then amdExp else goExp) goLog correctSqrt special
  log10 := goLog10 amd64 goLog
  log := goLog

/-- C104. Package math with every operation rounded is accurate: the assumptions of the other properties can be met by
Go's own code. -/
theorem C104_go (amd64 : Bool) (big : F64 → Nat × F64) (special : F64 → F64 → F64) :
    AccurateMath (goMath amd64 big special) ∧ AccuratePowLog (goMath amd64 big special) := by
  have hT : GoTrig (goMath amd64 big special) big := C102_separate_rounding (goMath amd64 big special) big
  have hP : GoPow (goMath amd64 big special) (if amd64 then amdExp else goExp) correctSqrt special :=
    ⟨fun _ _ => rfl, fun _ => by cases amd64; exact Or.inl rfl; exact Or.inr rfl⟩
  have hE : GoElementary (if amd64 then amdExp else goExp) goLog correctSqrt := by
    cases amd64
    · exact sample_go.1
    · exact sample_go.2
  obtain ⟨h1, h2, _⟩ := C104_library hT hP hE
  exact ⟨h1, h2⟩

/-- e and log 10, to the last bit, and `e^4.7`, where the two exponential functions differ by one unit in the last place -/
example : goExp (lit f64 1) = lit f64 (6121026514868073 / 2251799813685248) ∧
    amdExp (lit f64 1) = lit f64 (6121026514868073 / 2251799813685248) ∧
    goLog (lit f64 10) = lit f64 (2592480341699211 / 1125899906842624) ∧
    (goExp (lit f64 (47 / 10))).val = 3868422225670493 / 35184372088832 ∧
    (amdExp (lit f64 (47 / 10))).val = 7736844451340987 / 70368744177664 := by decide +kernel

example : |((goLog (lit f64 200)).val : ℝ) - Real.log 200| ≤ (1 + |Real.log 200|) * (4 / 10 ^ 16) := by
  have v : (lit f64 200).isFin = true ∧ (lit f64 200).val = 200 := by decide +kernel
  have := (C104_log sample_go.1 v.1 (by rw [v.2]; norm_num)).2
  rwa [v.2, show ((200 : ℚ) : ℝ) = 200 by norm_num] at this

end Props
