/-
C34, C35, C36: the corners of the grid and the resolution, in float64 arithmetic.
-/
import Verif.Lemmas.FloatDiv
import Verif.Props.Grid

namespace Props
open Go Radolan Spec

/-- finite and positive -/
def PosFin (x : F64) : Prop := x.isFin = true ∧ 0 < x.val

/-- everything about a ready composite with projection, in terms of its plane coordinates -/
theorem ready_projection {E : Env} {c : Composite} (h : Ready E c) (hp : c.hasProjection = true)
    {b : Int × Int} (hb : b ∈ baseGrids) (hs : Scaled b c.dx c.dy) {ot ol eb er : ℚ}
    (hc : corners b c.format = some (ot, ol, eb, er)) :
    let P := planeXY (f64Arith E.math) c.format
    let o := P (Fl.lit f64 ot) (Fl.lit f64 ol)
    let e := P (Fl.lit f64 eb) (Fl.lit f64 er)
    c.rx = Fl.div (Fl.sub e.1 o.1) (Fl.lit f64 c.dx) ∧ c.ry = Fl.div (Fl.sub e.2 o.2) (Fl.lit f64 c.dy) ∧
    ∀ n e', c.Project E n e' = (Fl.div (Fl.sub (P n e').1 o.1) c.rx, Fl.div (Fl.sub (P n e').2 o.2) c.ry) := by
  intro P o e
  have hcal := ready_calib h
  have hp' : (calibrate (f64Arith E.math) c.format c.dx c.dy).hasProjection = true := by rw [← hcal]; exact hp
  have hg : detectGrid c.dx c.dy ≠ .unknown := ((ready_hasProjection h).mp hp).1
  have hbg : gridBase (detectGrid c.dx c.dy) = b := by
    have key : ∀ g : Grid, g ≠ .unknown → gridBase g = b → detectGrid c.dx c.dy = g := by
      intro g hg he; rw [← he] at hs; exact (detectGrid_iff hg).mpr hs
    simp only [baseGrids, List.mem_cons, List.not_mem_nil, or_false] at hb
    rcases hb with rfl | rfl | rfl | rfl | rfl
    · rw [key .national (by decide) rfl]; rfl
    · rw [key .nationalPicture (by decide) rfl]; rfl
    · rw [key .extendedNational (by decide) rfl]; rfl
    · rw [key .de1200 (by decide) rfl]; rfl
    · rw [key .middleEuropean (by decide) rfl]; rfl
  have hcorn := cornerPoints_spec (f64Arith E.math) (format := c.format) hg (by rw [hbg]; exact hc)
  have heq := calibrate_f64 E.math hcorn hp'
  rw [← hcal] at heq
  simp only [Calib.mk.injEq] at heq
  obtain ⟨e1, e2, _, e4, e5, e6⟩ := heq
  refine ⟨e1, e2, ?_⟩
  intro n e'
  unfold Composite.Project
  rw [hp, e4, e5, e6, project_eq]
  rfl

theorem base_pos {b : Int × Int} (hb : b ∈ baseGrids) : 0 < b.1 ∧ b.1 ≤ 375 ∧ 0 < b.2 ∧ b.2 ≤ 375 := by
  have : ∀ b ∈ baseGrids, 0 < b.1 ∧ b.1 ≤ 375 ∧ 0 < b.2 ∧ b.2 ≤ 375 := by decide
  exact this b hb

theorem zero_div_pos {x : F64} (h : PosFin x) : Fl.div Fl.zero x = Fl.zero := by
  obtain ⟨h1, h2⟩ := h
  rw [Fl.div_fin rfl h1 h2.ne']
  have hs : x.sign = false := by
    cases x with
    | fin q hq => simp [Fl.sign]; simp [Fl.val] at h2; exact h2.le
    | nzero => simp [Fl.val] at h2
    | _ => simp [Fl.isFin] at h1
  rw [hs]
  simp [Fl.zero, Fl.val, Fl.sign, Fl.mk_zero]

/-- C34. The top left corner of the grid is projected to exactly (0, 0), in float64 arithmetic with every operation
rounded, whatever functions math.Sin etc. return, as long as the calibrated resolutions Rx and Ry are positive
numbers. -/
theorem C34_origin {E : Env} {c : Composite} (h : Ready E c) (hp : c.hasProjection = true)
    {b : Int × Int} (hb : b ∈ baseGrids) (hs : Scaled b c.dx c.dy) {ot ol eb er : ℚ}
    (hc : corners b c.format = some (ot, ol, eb, er)) (hx : PosFin c.rx) (hy : PosFin c.ry) :
    c.Project E (Fl.lit f64 ot) (Fl.lit f64 ol) = (Fl.zero, Fl.zero) := by
  obtain ⟨h1, h2, h3⟩ := ready_projection h hp hb hs hc
  rw [h3]
  have fx := Fl.div_fin_of_result (by rw [← h1]; exact hx.1) (by rw [← h1]; exact hx.2.ne')
  have fy := Fl.div_fin_of_result (by rw [← h2]; exact hy.1) (by rw [← h2]; exact hy.2.ne')
  rw [Fl.sub_self_fin (Fl.sub_fin_of_result fx.1).2, Fl.sub_self_fin (Fl.sub_fin_of_result fy.1).2,
    zero_div_pos hx, zero_div_pos hy]

/-- C35. The bottom right corner of the grid is projected to (Dx, Dy) up to a relative error of 2^-51, float64
rounding included. -/
theorem C35_edge {E : Env} {c : Composite} (h : Ready E c) (hp : c.hasProjection = true)
    {b : Int × Int} (hb : b ∈ baseGrids) (hs : Scaled b c.dx c.dy) {ot ol eb er : ℚ}
    (hc : corners b c.format = some (ot, ol, eb, er)) (hdx : c.dx < 2 ^ 63) (hdy : c.dy < 2 ^ 63)
    (hx : c.rx.isFin = true ∧ pow2 (-1021) ≤ |c.rx.val|) (hy : c.ry.isFin = true ∧ pow2 (-1021) ≤ |c.ry.val|) :
    let q := c.Project E (Fl.lit f64 eb) (Fl.lit f64 er)
    q.1.isFin = true ∧ |q.1.val - c.dx| ≤ c.dx * pow2 (-51) ∧
    q.2.isFin = true ∧ |q.2.val - c.dy| ≤ c.dy * pow2 (-51) := by
  intro q
  obtain ⟨h1, h2, h3⟩ := ready_projection h hp hb hs hc
  obtain ⟨k, s1, s2⟩ := hs
  obtain ⟨p1, p2, p3, p4⟩ := base_pos hb
  have lx := Fl.lit_scaled (b := b.1) (k := k) p1 (by omega) (by rw [← s1]; exact hdx)
  have ly := Fl.lit_scaled (b := b.2) (k := k) p3 (by omega) (by rw [← s2]; exact hdy)
  rw [← s1] at lx
  rw [← s2] at ly
  have hpow : (1 : Int) ≤ 2 ^ k := one_le_pow₀ (by norm_num)
  have bnd : ∀ {z d : Int}, 0 < z → d = z * 2 ^ k → d < 2 ^ 63 → (1 : ℚ) ≤ d ∧ (d : ℚ) ≤ pow2 63 := by
    intro z d hz hd hlt
    constructor
    · have : 1 ≤ d := by rw [hd]; nlinarith
      exact_mod_cast this
    · have h63 : pow2 63 = ((2 ^ 63 : Int) : ℚ) := by simp [pow2]
      rw [h63]; exact_mod_cast hlt.le
  obtain ⟨bx1, bx2⟩ := bnd p1 s1 hdx
  obtain ⟨by1, by2⟩ := bnd p3 s2 hdy
  have kx := Fl.div_div_self lx.1 (by rw [lx.2]; exact bx1) (by rw [lx.2]; exact bx2) (by rw [← h1]; exact hx.1)
    (by rw [← h1]; exact hx.2)
  have ky := Fl.div_div_self ly.1 (by rw [ly.2]; exact by1) (by rw [ly.2]; exact by2) (by rw [← h2]; exact hy.1)
    (by rw [← h2]; exact hy.2)
  rw [← h1, lx.2] at kx
  rw [← h2, ly.2] at ky
  have hq : q = _ := h3 _ _
  rw [hq]
  exact ⟨kx.1, kx.2, ky.1, ky.2⟩

/-- C36. A composite of the same format with `2^k` times as many pixels along each edge has exactly `2^-k` times the
pixel size, and projects every point to exactly `2^k` times the coordinates (float64 rounding included), except that
coordinates below `2^-1021` in magnitude may be rounded. -/
theorem C36_resolution_scaling {E : Env} {c c' : Composite} (h : Ready E c) (h' : Ready E c')
    (hp : c.hasProjection = true) (hf : c'.format = c.format) (k : Nat)
    (hx : c'.dx = c.dx * 2 ^ k) (hy : c'.dy = c.dy * 2 ^ k) (hdx : c'.dx < 2 ^ 63) (hdy : c'.dy < 2 ^ 63)
    (hrx : c.rx.isFin = true) (hry : c.ry.isFin = true)
    (hrx' : c'.rx.isFin = true ∧ pow2 (-1021) ≤ |c'.rx.val|)
    (hry' : c'.ry.isFin = true ∧ pow2 (-1021) ≤ |c'.ry.val|) :
    c'.hasProjection = true ∧ c.rx.val = 2 ^ k * c'.rx.val ∧ c.ry.val = 2 ^ k * c'.ry.val ∧
    ∀ north east, 
      let p := c.Project E north east
      let p' := c'.Project E north east
      (p.1.isFin = true → p'.1.isFin = true → pow2 (-1021) ≤ |p.1.val| → p'.1.val = 2 ^ k * p.1.val) ∧
      (p.2.isFin = true → p'.2.isFin = true → pow2 (-1021) ≤ |p.2.val| → p'.2.val = 2 ^ k * p.2.val) := by
  obtain ⟨b, hb, ⟨l, s1, s2⟩, hfb⟩ := (C31_has_projection_iff h).mp hp
  have hs : Scaled b c.dx c.dy := ⟨l, s1, s2⟩
  have s1' : c'.dx = b.1 * 2 ^ (l + k) := by rw [hx, s1]; ring
  have s2' : c'.dy = b.2 * 2 ^ (l + k) := by rw [hy, s2]; ring
  have hs' : Scaled b c'.dx c'.dy := ⟨l + k, s1', s2'⟩
  have hp' : c'.hasProjection = true := (C31_has_projection_iff h').mpr ⟨b, hb, hs', by rw [hf]; exact hfb⟩
  obtain ⟨⟨ot, ol, eb, er⟩, hc⟩ : ∃ q, corners b c.format = some q := by
    simp only [baseGrids, List.mem_cons, List.not_mem_nil, or_false] at hb
    rcases hb with rfl | rfl | rfl | rfl | rfl <;> simp [corners]
    split <;> simp
  obtain ⟨h1, h2, h3⟩ := ready_projection h hp hb hs hc
  obtain ⟨h1', h2', h3'⟩ := ready_projection h' hp' hb hs' (by rw [hf]; exact hc)
  rw [hf] at h1' h2' h3'
  obtain ⟨p1, p2, p3, p4⟩ := base_pos hb
  have hpow : (1 : Int) ≤ 2 ^ k := one_le_pow₀ (by norm_num)
  have hpowl : (1 : Int) ≤ 2 ^ l := one_le_pow₀ (by norm_num)
  have hdx0 : 0 < c.dx := by rw [s1]; positivity
  have hdy0 : 0 < c.dy := by rw [s2]; positivity
  have lx := Fl.lit_scaled (b := b.1) (k := l) p1 (by omega) (by rw [← s1]; nlinarith)
  have ly := Fl.lit_scaled (b := b.2) (k := l) p3 (by omega) (by rw [← s2]; nlinarith)
  have lx' := Fl.lit_scaled (b := b.1) (k := l + k) p1 (by omega) (by rw [← s1']; exact hdx)
  have ly' := Fl.lit_scaled (b := b.2) (k := l + k) p3 (by omega) (by rw [← s2']; exact hdy)
  rw [← s1] at lx
  rw [← s2] at ly
  rw [← s1'] at lx'
  rw [← s2'] at ly'
  have vx : (Fl.lit f64 (c'.dx : ℚ)).val = (Fl.lit f64 (c.dx : ℚ)).val * pow2 k := by
    rw [lx'.2, lx.2, hx, pow2_nat]; push_cast; rfl
  have vy : (Fl.lit f64 (c'.dy : ℚ)).val = (Fl.lit f64 (c.dy : ℚ)).val * pow2 k := by
    rw [ly'.2, ly.2, hy, pow2_nat]; push_cast; rfl
  have ex : c.rx.val = c'.rx.val * pow2 k := by
    rw [h1, h1']
    exact Fl.div_scaled_divisor lx.1 (by rw [lx.2]; exact_mod_cast hdx0.ne') lx'.1 vx (by rw [← h1]; exact hrx)
      (by rw [← h1']; exact hrx'.1) (by rw [← h1']; exact hrx'.2)
  have ey : c.ry.val = c'.ry.val * pow2 k := by
    rw [h2, h2']
    exact Fl.div_scaled_divisor ly.1 (by rw [ly.2]; exact_mod_cast hdy0.ne') ly'.1 vy (by rw [← h2]; exact hry)
      (by rw [← h2']; exact hry'.1) (by rw [← h2']; exact hry'.2)
  have nz : ∀ {x : F64}, pow2 (-1021) ≤ |x.val| → x.val ≠ 0 := by
    intro x hx h0; rw [h0, abs_zero] at hx; linarith [pow2_pos (-1021)]
  refine ⟨hp', by rw [ex, pow2_nat]; ring, by rw [ey, pow2_nat]; ring, ?_⟩
  intro n e p p'
  have hpe : p = _ := h3 n e
  have hpe' : p' = _ := h3' n e
  rw [hpe, hpe']
  simp only
  constructor
  · intro f1 f2 hlo
    rw [Fl.div_scaled_divisor hrx'.1 (nz hrx'.2) hrx ex f2 f1 hlo, pow2_nat]; ring
  · intro f1 f2 hlo
    rw [Fl.div_scaled_divisor hry'.1 (nz hry'.2) hry ey f2 f1 hlo, pow2_nat]; ring

/-! ### the hypotheses are met -/

instance (x : F64) : Decidable (PosFin x) := by unfold PosFin; infer_instance

/-- a crude math library: Taylor polynomials -/
def taylorMath : MathLib where
  sin x := Fl.sub x (Fl.div (Fl.mul x (Fl.mul x x)) (Fl.lit f64 6))
  cos x := Fl.sub (Fl.lit f64 1) (Fl.div (Fl.mul x x) (Fl.lit f64 2))
  tan x := Fl.add x (Fl.div (Fl.mul x (Fl.mul x x)) (Fl.lit f64 3))
  pow x y := Fl.add (Fl.lit f64 1) (Fl.mul y (Fl.sub x (Fl.lit f64 1)))
  log10 x := Fl.sub x (Fl.lit f64 1)
  log x := Fl.sub x (Fl.lit f64 1)

def env1 : Env := { env0 with math := taylorMath }

theorem sample_resolution :
    let c := NewDummy env1 (str "RW") 3 450 450
    let c' := NewDummy env1 (str "RW") 3 900 900
    PosFin c.rx ∧ PosFin c.ry ∧ pow2 (-20) ≤ |c'.rx.val| ∧ pow2 (-20) ≤ |c'.ry.val| ∧ c'.rx.isFin = true ∧
      c'.ry.isFin = true := by
  decide +kernel

example : let c := NewDummy env1 (str "RW") 3 450 450
    c.Project env1 (Fl.lit f64 54.5877) (Fl.lit f64 2.0715) = (Fl.zero, Fl.zero) := by
  obtain ⟨h1, h2, _⟩ := sample_resolution
  exact C34_origin (c := NewDummy env1 (str "RW") 3 450 450) (b := (225, 225)) (.dummy ..)
    ((C31_has_projection_iff (.dummy ..)).mpr ⟨(225, 225), by decide, ⟨1, rfl, rfl⟩, Or.inl (show (3 : Int) < 5 by decide)⟩)
    (by decide) ⟨1, rfl, rfl⟩ (eb := 47.0705) (er := 14.6209) (by simp [corners]) h1 h2

example : let c := NewDummy env1 (str "RW") 3 900 900
    let q := c.Project env1 (Fl.lit f64 47.0705) (Fl.lit f64 14.6209)
    |q.1.val - 900| ≤ 900 * pow2 (-51) ∧ |q.2.val - 900| ≤ 900 * pow2 (-51) := by
  obtain ⟨_, _, h3, h4, h5, h6⟩ := sample_resolution
  have hle : pow2 (-1021) ≤ pow2 (-20) := pow2_le.mpr (by decide)
  have := C35_edge (E := env1) (c := NewDummy env1 (str "RW") 3 900 900) (b := (225, 225)) (.dummy ..)
    ((C31_has_projection_iff (.dummy ..)).mpr ⟨(225, 225), by decide, ⟨2, rfl, rfl⟩, Or.inl (show (3 : Int) < 5 by decide)⟩)
    (by decide) ⟨2, rfl, rfl⟩ (ot := 54.5877) (ol := 2.0715) (eb := 47.0705) (er := 14.6209) (by simp [corners])
    (show (900 : Int) < 2 ^ 63 by decide) (show (900 : Int) < 2 ^ 63 by decide) ⟨h5, hle.trans h3⟩ ⟨h6, hle.trans h4⟩
  exact ⟨this.2.1, this.2.2.2⟩

example : (NewDummy env1 (str "RW") 3 450 450).rx.val = 2 ^ 1 * (NewDummy env1 (str "XX") 3 900 900).rx.val := by
  obtain ⟨h1, h2, h3, h4, h5, h6⟩ := sample_resolution
  have hle : pow2 (-1021) ≤ pow2 (-20) := pow2_le.mpr (by decide)
  exact (C36_resolution_scaling (E := env1) (c := NewDummy env1 (str "RW") 3 450 450)
    (c' := NewDummy env1 (str "XX") 3 900 900) (.dummy ..) (.dummy ..)
    ((C31_has_projection_iff (.dummy ..)).mpr ⟨(225, 225), by decide, ⟨1, rfl, rfl⟩, Or.inl (show (3 : Int) < 5 by decide)⟩)
    rfl 1 rfl rfl (show (900 : Int) < 2 ^ 63 by decide) (show (900 : Int) < 2 ^ 63 by decide) h1.1 h2.1
    ⟨h5, hle.trans h3⟩ ⟨h6, hle.trans h4⟩).2.1

end Props
