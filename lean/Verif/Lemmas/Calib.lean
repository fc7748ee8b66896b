/- Calibration in float64: offset and resolution in terms of the plane coordinates of the corners. -/
import Verif.Lemmas.Grid

namespace Go.Fl
variable {f : Fmt}

theorem isRep_one (f : Fmt) : IsRep f 1 := by
  have h := f.hzero
  refine ⟨?_, ?_⟩
  · have := rnd_exact f (n := 1) (e := 0) (by omega) (by simp; exact one_le_pow₀ (by norm_num))
    simpa using this
  · rw [abs_one, ← pow2_zero]; exact pow2_lt.mpr (by omega)

theorem lit_one : lit f 1 = .fin 1 (isRep_one f) := lit_of_repr _
theorem lit_zero : lit f 0 = zero := by simp [lit, mk]

theorem mk_zero (b : Bool) : mk f b 0 = if b then .nzero else zero := by simp [mk]

/-- subtracting zero and dividing by one changes nothing -/
theorem sub_zero_div_one (x : Fl f) : div (sub x (lit f 0)) (lit f 1) = x := by
  rw [lit_zero, lit_one]
  have hnz : neg (zero : Fl f) = .nzero := by simp [neg, zero]
  unfold sub; rw [hnz]
  cases x with
  | nan => rfl
  | inf b => cases b <;> rfl
  | nzero => simp [add, sign, val, mk_zero, div]
  | fin q h =>
    by_cases h0 : q = 0
    · subst h0; simp [add, sign, val, mk_zero, div, zero]
    · have e1 : add (.fin q h : Fl f) .nzero = .fin q h := by
        simp only [add, val, add_zero]
        exact mk_of_repr h h0
      rw [e1]
      simp only [div, val, one_ne_zero, if_false, div_one]
      exact mk_of_repr h h0

theorem sub_self_fin {x : Fl f} (h : x.isFin = true) : sub x x = zero := by
  rw [sub_fin h h, sub_self, mk_zero]
  cases x with
  | fin q hq =>
    by_cases h0 : q = 0
    · subst h0; simp [sign]
    · simp only [sign, neg, h0, if_false]
      by_cases hl : q < 0
      · simp [hl, hl.le]
      · simp [hl]
  | nzero => simp [neg, zero, sign]
  | _ => simp [isFin] at h

theorem add_fin_of_result {x y : Fl f} (hr : (add x y).isFin = true) : x.isFin = true ∧ y.isFin = true := by
  cases x <;> cases y <;> simp only [add, isFin] at hr ⊢ <;> simp at hr ⊢
  split at hr
  all_goals first
    | (rename_i heq; split at heq <;> simp at heq; done)
    | simp at hr

theorem sub_fin_of_result {x y : Fl f} (hr : (sub x y).isFin = true) : x.isFin = true ∧ y.isFin = true := by
  have := add_fin_of_result hr
  rw [neg_isFin] at this
  exact this

theorem div_fin_of_result {x y : Fl f} (hr : (div x y).isFin = true) (h0 : (div x y).val ≠ 0) :
    x.isFin = true ∧ y.isFin = true ∧ y.val ≠ 0 := by
  by_cases hx : x.isFin = true
  · by_cases hy : y.isFin = true
    · refine ⟨hx, hy, ?_⟩
      intro hy0
      have : div x y = if x.val = 0 then .nan else .inf (x.sign ^^ y.sign) := by
        cases x <;> cases y <;> simp_all [isFin, div]
      rw [this] at hr
      split at hr <;> simp [isFin] at hr
    · exfalso
      cases y with
      | nan => cases x <;> simp [div, isFin] at hr
      | inf b =>
        have : (div x (.inf b)).val = 0 := by
          cases x <;> simp [isFin] at hx <;> simp only [div] <;> split <;> simp [val, zero]
        exact h0 this
      | _ => simp [isFin] at hy
  · exfalso
    cases x with
    | nan => cases y <;> simp [div, isFin] at hr
    | inf a => cases y <;> simp [div, isFin] at hr
    | _ => simp [isFin] at hx

end Go.Fl

namespace Radolan
open Go _root_.Spec

/-- plane coordinates (km) used for a format -/
def planeXY (A : Arith α) (format : Int) (north east : α) : α × α :=
  if 5 ≤ format then wgs84XY A (projDE1200 A) north east else sphereXY A north east

/-- the corner coordinates of the code are the specified ones -/
theorem cornerPoints_spec (A : Arith α) {format : Int} {g : Grid} (hg : g ≠ .unknown) {ot ol eb er : ℚ}
    (h : corners (gridBase g) format = some (ot, ol, eb, er)) :
    cornerPoints A format g = some ⟨A.lit ot, A.lit ol, A.lit eb, A.lit er⟩ := by
  cases g <;> first
    | exact absurd rfl hg
    | (simp only [corners, gridBase, Prod.mk.injEq] at h
       norm_num at h
       try split at h
       all_goals
         try simp only [Option.some.injEq, Prod.mk.injEq] at h
         obtain ⟨rfl, rfl, rfl, rfl⟩ := h
         simp only [cornerPoints, *, if_true, if_false, Rat.mkRat_eq_div]
         norm_num)

/-- projecting with a calibration whose projection matches the format -/
theorem project_eq (A : Arith α) (format : Int) (rx ry ox oy n e : α) :
    project A ⟨rx, ry, true, ox, oy, if 5 ≤ format then some (projDE1200 A) else none⟩ n e
      = (A.div (A.sub (planeXY A format n e).1 ox) rx, A.div (A.sub (planeXY A format n e).2 oy) ry) := by
  unfold project planeXY
  by_cases h5 : 5 ≤ format
  · simp only [if_pos h5, projectWGS84]
    rw [if_neg (by simp)]
  · simp only [if_neg h5, projectSphere]
    rw [if_neg (by simp)]

/-- calibration for any arithmetic in which subtracting 0 and dividing by 1 change nothing -/
theorem calibrate_eq (A : Arith α) {format dx dy : Int} {k : Corners α}
    (hid : ∀ x, A.div (A.sub x (A.lit 0)) (A.lit 1) = x)
    (hid1 : ∀ x, A.div x (A.lit 1) = x)
    (hk : cornerPoints A format (detectGrid dx dy) = some k)
    (hp : (calibrate A format dx dy).hasProjection = true) :
    calibrate A format dx dy =
      ⟨A.div (A.sub (planeXY A format k.edgeBottom k.edgeRight).1 (planeXY A format k.originTop k.originLeft).1)
        (A.ofInt dx),
       A.div (A.sub (planeXY A format k.edgeBottom k.edgeRight).2 (planeXY A format k.originTop k.originLeft).2)
        (A.ofInt dy), true,
       (planeXY A format k.originTop k.originLeft).1, (planeXY A format k.originTop k.originLeft).2,
        if 5 ≤ format then some (projDE1200 A) else none⟩ := by
  have hcond : ¬ (5 ≤ format ∧ detectGrid dx dy ≠ .de1200) := by
    have := (calibrate_hasProjection A format dx dy).mp hp
    rintro ⟨h1, h2⟩
    rcases this.2 with h | h
    · omega
    · exact h2 h
  unfold calibrate
  simp only
  rw [hk]
  simp only [if_neg hcond, project_eq, hid, hid1]

theorem Fl.div_one {f : Fmt} (x : Fl f) : Fl.div x (Fl.lit f 1) = x := by
  rw [Fl.lit_one]
  cases x with
  | nan => rfl
  | inf b => cases b <;> rfl
  | nzero => simp [Fl.sign, Fl.val, Fl.mk_zero, Fl.div]
  | fin q h =>
    by_cases h0 : q = 0
    · subst h0; simp [Fl.sign, Fl.val, Fl.mk_zero, Fl.div, Fl.zero]
    · simp only [Fl.div, Fl.val, one_ne_zero, if_false, _root_.div_one]
      exact Fl.mk_of_repr h h0

theorem calibrate_f64 (L : MathLib) {format dx dy : Int} {k : Corners F64}
    (hk : cornerPoints (f64Arith L) format (detectGrid dx dy) = some k)
    (hp : (calibrate (f64Arith L) format dx dy).hasProjection = true) :
    calibrate (f64Arith L) format dx dy =
      ⟨Fl.div (Fl.sub (planeXY (f64Arith L) format k.edgeBottom k.edgeRight).1
          (planeXY (f64Arith L) format k.originTop k.originLeft).1) (Fl.lit f64 dx),
       Fl.div (Fl.sub (planeXY (f64Arith L) format k.edgeBottom k.edgeRight).2
          (planeXY (f64Arith L) format k.originTop k.originLeft).2) (Fl.lit f64 dy), true,
       (planeXY (f64Arith L) format k.originTop k.originLeft).1,
       (planeXY (f64Arith L) format k.originTop k.originLeft).2,
        if 5 ≤ format then some (projDE1200 (f64Arith L)) else none⟩ :=
  calibrate_eq (f64Arith L) Fl.sub_zero_div_one Fl.div_one hk hp

end Radolan
