/- Permitted evaluations at the ends of a gradient, where every intermediate result is exact, and on missing values. -/
import Verif.Lemmas.FusedColors
import Verif.Lemmas.Heat

namespace Radolan.Fusion
open Go Go.Fl _root_.Spec _root_.Spec.Fusion

/-! ### exact results -/

/-- every permitted result is the number `q` -/
def Exactly (a : Inter → Prop) (q : ℚ) : Prop := ∀ u, a u → u.Is q

theorem rep_mk {q : ℚ} (h : IsRep f64 q) (b : Bool) : (mk f64 b q).isFin = true ∧ (mk f64 b q).val = q := by
  have := mk_fin (f := f64) (b := b) (q := q) (by rw [h.1]; exact h.2)
  rwa [h.1] at this

theorem is_rounds {u : Inter} {q : ℚ} (h : u.Is q) (hq : IsRep f64 q) {x : F64} (hx : u.Rounds x) : x.isFin = true ∧ x.val = q := by
  cases u with
  | word y =>
    obtain ⟨h1, h2⟩ := h
    cases hx
    exact ⟨h1, h2.symm⟩
  | exact p =>
    obtain ⟨b, rfl⟩ := hx
    rw [show p = q from h.symm]
    exact rep_mk hq b

theorem is_unique {u : Inter} {p q : ℚ} (h : u.Is p) (h' : u.Is q) : p = q := by
  cases u with
  | word x => exact h.2.trans h'.2.symm
  | exact r => exact Eq.trans h (Eq.symm h')

theorem exactly_just {x : F64} (h : x.isFin = true) : Exactly (just x) x.val := by
  rintro u rfl
  exact ⟨h, rfl⟩

theorem exactly_num {q : ℚ} (h : IsRep f64 q) : Exactly (num q) q := by
  rintro u rfl
  exact ⟨lit_isFin h, (lit_val h).symm⟩

theorem exactly_binary {op : F64 → F64 → F64} {exactly : ℚ → ℚ → ℚ} {defined : ℚ → ℚ → Prop} {a b : Inter → Prop} {p q : ℚ}
    (ha : Exactly a p) (hb : Exactly b q) (hp : IsRep f64 p) (hq : IsRep f64 q) (hr : IsRep f64 (exactly p q))
    (hop : ∀ x y : F64, x.isFin = true → x.val = p → y.isFin = true → y.val = q → ∃ s, op x y = mk f64 s (exactly p q)) :
    Exactly (binary op exactly defined a b) (exactly p q) := by
  rintro w ⟨u, v, hu, hv, hw⟩
  cases hw with
  | @separate x y hx hy =>
    obtain ⟨x1, x2⟩ := is_rounds (ha u hu) hp hx
    obtain ⟨y1, y2⟩ := is_rounds (hb v hv) hq hy
    obtain ⟨s, e⟩ := hop x y x1 x2 y1 y2
    rw [e]
    exact ⟨(rep_mk hr s).1, (rep_mk hr s).2.symm⟩
  | @kept p' q' hp' hq' _ =>
    rw [is_unique hp' (ha u hu), is_unique hq' (hb v hv)]
    exact rfl
  | @fused p' q' s hp' hq' _ =>
    rw [is_unique hp' (ha u hu), is_unique hq' (hb v hv)]
    exact ⟨(rep_mk hr s).1, (rep_mk hr s).2.symm⟩

variable {a b : Inter → Prop} {p q : ℚ}

theorem exactly_plus (ha : Exactly a p) (hb : Exactly b q) {r : ℚ} (hr : r = p + q) (hp : IsRep f64 p) (hq : IsRep f64 q) (hR : IsRep f64 r) :
    Exactly (plus a b) r := by
  subst hr
  exact exactly_binary (exactly := (· + ·)) ha hb hp hq hR fun x y h1 h2 h3 h4 => ⟨_, by rw [add_fin h1 h3, h2, h4]⟩

theorem exactly_minus (ha : Exactly a p) (hb : Exactly b q) {r : ℚ} (hr : r = p - q) (hp : IsRep f64 p) (hq : IsRep f64 q) (hR : IsRep f64 r) :
    Exactly (minus a b) r := by
  subst hr
  exact exactly_binary (exactly := (· - ·)) ha hb hp hq hR fun x y h1 h2 h3 h4 => ⟨_, by rw [sub_fin h1 h3, h2, h4]⟩

theorem exactly_times (ha : Exactly a p) (hb : Exactly b q) {r : ℚ} (hr : r = p * q) (hp : IsRep f64 p) (hq : IsRep f64 q) (hR : IsRep f64 r) :
    Exactly (times a b) r := by
  subst hr
  exact exactly_binary (exactly := (· * ·)) ha hb hp hq hR fun x y h1 h2 h3 h4 => ⟨_, by rw [mul_fin h1 h3, h2, h4]⟩

theorem exactly_over (ha : Exactly a p) (hb : Exactly b q) (h0 : q ≠ 0) {r : ℚ} (hr : r = p / q) (hp : IsRep f64 p) (hq : IsRep f64 q)
    (hR : IsRep f64 r) : Exactly (over a b) r := by
  subst hr
  exact exactly_binary (exactly := (· / ·)) ha hb hp hq hR fun x y h1 h2 h3 h4 =>
    ⟨_, by rw [div_fin h1 h3 (by rw [h4]; exact h0), h2, h4]⟩

theorem exactly_absolute (ha : Exactly a p) {r : ℚ} (hr : r = |p|) (hp : IsRep f64 p) : Exactly (absolute a) r := by
  subst hr
  rintro w ⟨u, hu, ⟨x, hx, rfl⟩ | ⟨q, hq, rfl⟩⟩
  · obtain ⟨x1, x2⟩ := is_rounds (ha u hu) hp hx
    exact ⟨by rw [abs_isFin]; exact x1, by rw [abs_val, x2]⟩
  · rw [is_unique hq (ha u hu)]
    exact rfl

theorem exactly_remainder (ha : Exactly a p) (hb : Exactly b q) {n : Int} (hn : 0 ≤ n) (h1 : (n : ℚ) ≤ p / q) (h2 : p / q < n + 1)
    (h0 : q ≠ 0) {r : ℚ} (hr : r = p - n * q) (hp : IsRep f64 p) (hq : IsRep f64 q) (hR : IsRep f64 r) : Exactly (remainder a b) r := by
  subst hr
  rintro w ⟨u, v, x, y, hu, hv, hx, hy, rfl⟩
  obtain ⟨x1, x2⟩ := is_rounds (ha u hu) hp hx
  obtain ⟨y1, y2⟩ := is_rounds (hb v hv) hq hy
  have e : fmod x y = mk f64 x.sign (p - n * q) := by
    rw [fmod_eq x1 y1 (by rw [y2]; exact h0), x2, y2, ratTrunc_of hn h1 h2]
  rw [e]
  exact ⟨(rep_mk hR _).1, (rep_mk hR _).2.symm⟩

theorem exactly_byte {I : Vis.Impl} {l : UInt8} (ha : Exactly a p) (hl : toByte I a l) (hp : IsRep f64 p) {n : Nat} (hn : n ≤ 255)
    (h1 : (n : ℚ) ≤ p) (h2 : p < n + 1) : l = UInt8.ofNat n := by
  obtain ⟨u, x, hu, hx, rfl⟩ := hl
  obtain ⟨x1, x2⟩ := is_rounds (ha u hu) hp hx
  have e : ratTrunc x.val = (n : Int) := by rw [x2]; exact ratTrunc_of (by omega) (by exact_mod_cast h1) (by exact_mod_cast h2)
  unfold toU8
  rw [if_pos x1, e, if_pos ⟨by omega, by omega⟩]
  simp

/-! ### the end of a gradient -/

/-- the position is 1 after `if p > 1 { p = 1 }`: it is exactly 1, or it is rounded to something above -/
def AtEnd (a : Inter → Prop) : Prop := ∀ u, a u → u.Is 1 ∨ ∀ x, u.Rounds x → Fl.lt (Fl.lit f64 1) x = true

theorem limited_end (h : AtEnd a) : Exactly (limited a) 1 := by
  rintro w (⟨rfl, -⟩ | ⟨hw, x, hx, hl⟩)
  · exact exactly_num (by decide +kernel) _ rfl
  · rcases h w hw with k | k
    · exact k
    · rw [k x hx] at hl; simp at hl

theorem atEnd_exact (h : Exactly a 1) : AtEnd a := fun u hu => Or.inl (h u hu)

theorem atEnd_above {r ε : ℝ} (h : SetAp a r ε) (hr : 1 < r - ε) : AtEnd a := by
  intro u hu
  refine Or.inr fun x hx => ?_
  obtain ⟨x1, x2⟩ := (h u hu).rounds hx
  obtain ⟨o1, o2⟩ := Fl.one_fin
  rw [Fl.lt_fin o1 x1, decide_eq_true_iff, o2]
  have := (abs_le.mp x2).1
  have : (1 : ℝ) < x.val := by linarith
  exact_mod_cast this

theorem heat_end (h : AtEnd a) {I : Vis.Impl} {col : Vis.RGBA} (hc : permittedHeatColor I a col) : col = ⟨191, 127, 255, 255⟩ := by
  have R : ∀ q ∈ [(0 : ℚ), 1, 2, 1 / 2, 1 / 4, 3 / 4, 3 / 2, 9 / 2, 30, 60, 240, 270, 330, 360, 255, 765 / 4, 255 / 2, -1 / 2], IsRep f64 q := by
    decide +kernel
  have r0 := R 0 (by simp); have r1 := R 1 (by simp); have r2 := R 2 (by simp); have rh := R (1 / 2) (by simp)
  have rq := R (1 / 4) (by simp); have rt := R (3 / 4) (by simp); have r32 := R (3 / 2) (by simp); have r92 := R (9 / 2) (by simp)
  have r30 := R 30 (by simp); have r60 := R 60 (by simp); have r240 := R 240 (by simp); have r270 := R 270 (by simp)
  have r330 := R 330 (by simp); have r360 := R 360 (by simp); have r255 := R 255 (by simp); have ra := R (765 / 4) (by simp)
  have rb := R (255 / 2) (by simp); have rm := R (-1 / 2) (by simp)
  clear R
  have hp := limited_end h
  unfold permittedHeatColor at hc
  dsimp only at hc
  generalize limited a = p at hp hc
  have e1 := exactly_times (exactly_num r330) hp (r := 330) (by norm_num) r330 r1 r330
  have e2 := exactly_minus (exactly_num r360) e1 (r := 30) (by norm_num) r360 r330 r30
  have e3 := exactly_plus e2 (exactly_num r240) (r := 270) (by norm_num) r30 r240 r270
  have hh := exactly_remainder e3 (exactly_num r360) (n := 0) (by norm_num) (by norm_num) (by norm_num) (by norm_num) (r := 270) (by norm_num) r270 r360 r270
  have l1 := exactly_times (exactly_num rh) hp (r := 1 / 2) (by norm_num) rh r1 rh
  have l := exactly_plus l1 (exactly_num rq) (r := 3 / 4) (by norm_num) rh rq rt
  have c1 := exactly_times (exactly_num r2) l (r := 3 / 2) (by norm_num) r2 rt r32
  have c2 := exactly_minus c1 (exactly_num r1) (r := 1 / 2) (by norm_num) r32 r1 rh
  have c3 := exactly_absolute c2 (r := 1 / 2) (by norm_num [abs_of_pos]) rh
  have c4 := exactly_minus (exactly_num r1) c3 (r := 1 / 2) (by norm_num) r1 rh rh
  have c := exactly_times c4 (exactly_num r1) (r := 1 / 2) (by norm_num) rh r1 rh
  have y := exactly_over hh (exactly_num r60) (by norm_num) (r := 9 / 2) (by norm_num) r270 r60 r92
  have x1 := exactly_remainder y (exactly_num r2) (n := 2) (by norm_num) (by norm_num) (by norm_num) (by norm_num) (r := 1 / 2) (by norm_num) r92 r2 rh
  have x2 := exactly_minus x1 (exactly_num r1) (r := -1 / 2) (by norm_num) rh r1 rm
  have x3 := exactly_absolute x2 (r := 1 / 2) (by norm_num [abs_of_neg]) rm
  have x4 := exactly_minus (exactly_num r1) x3 (r := 1 / 2) (by norm_num) r1 rh rh
  have x := exactly_times c x4 (r := 1 / 4) (by norm_num) rh rh rq
  have m1 := exactly_over c (exactly_num r2) (by norm_num) (r := 1 / 4) (by norm_num) rh r2 rq
  have m := exactly_minus l m1 (r := 1 / 2) (by norm_num) rt rq rh
  obtain ⟨u, v, hu, hv, hcol⟩ := hc
  obtain ⟨v1, v2⟩ := is_rounds (y u hu) r92 hv
  rw [if_neg (isFin_ne_nan v1)] at hcol
  have hs : toInt I.int v = 4 := by
    unfold toInt
    rw [if_pos v1, v2, show ratTrunc (9 / 2) = 4 from ratTrunc_of (by norm_num) (by norm_num) (by norm_num)]
    exact if_pos (by norm_num)
  rw [hs] at hcol
  obtain ⟨g1, g2, g3, g4⟩ := hcol
  have b1 := exactly_byte (exactly_times (exactly_num r255) (exactly_plus x m (r := 3 / 4) (by norm_num) rq rh rt)
    (r := 765 / 4) (by norm_num) r255 rt ra) g1 ra (n := 191) (by norm_num) (by norm_num) (by norm_num)
  have b2 := exactly_byte (exactly_times (exactly_num r255) (exactly_plus (exactly_num r0) m (r := 1 / 2) (by norm_num) r0 rh rh)
    (r := 255 / 2) (by norm_num) r255 rh rb) g2 rb (n := 127) (by norm_num) (by norm_num) (by norm_num)
  have b3 := exactly_byte (exactly_times (exactly_num r255) (exactly_plus c m (r := 1) (by norm_num) rh rh r1)
    (r := 255) (by norm_num) r255 r1 r255) g3 r255 (n := 255) (by norm_num) (by norm_num) (by norm_num)
  cases col
  simp only at b1 b2 b3 g4
  rw [b1, b2, b3, g4]
  rfl

theorem bright_end (h : AtEnd a) {I : Vis.Impl} {l : UInt8} (hl : toByte I (times (num 255) (limited a)) l) : l = 255 := by
  have r1 : IsRep f64 1 := by decide +kernel
  have r255 : IsRep f64 255 := by decide +kernel
  exact exactly_byte (exactly_times (exactly_num r255) (limited_end h) (r := 255) (by norm_num) r255 r1 r255) hl r255 (n := 255)
    (by norm_num) (by norm_num) (by norm_num)

/-! ### missing values -/

/-- every permitted result is NaN -/
def Missing (a : Inter → Prop) : Prop := ∀ u, a u → u = .word .nan

theorem missing_left {op : F64 → F64 → F64} {exactly : ℚ → ℚ → ℚ} {defined : ℚ → ℚ → Prop} (hop : ∀ y, op .nan y = .nan)
    (h : Missing a) : Missing (binary op exactly defined a b) := by
  rintro w ⟨u, v, hu, hv, hw⟩
  rw [h u hu] at hw
  cases hw with
  | separate hx hy => cases hx; rw [hop]
  | kept hp _ _ => exact absurd hp.1 (by decide)
  | fused _ hp _ _ => exact absurd hp.1 (by decide)

theorem missing_right {op : F64 → F64 → F64} {exactly : ℚ → ℚ → ℚ} {defined : ℚ → ℚ → Prop} (hop : ∀ x, op x .nan = .nan)
    (h : Missing b) : Missing (binary op exactly defined a b) := by
  rintro w ⟨u, v, hu, hv, hw⟩
  rw [h v hv] at hw
  cases hw with
  | separate hx hy => cases hy; rw [hop]
  | kept _ hp _ => exact absurd hp.1 (by decide)
  | fused _ _ hp _ => exact absurd hp.1 (by decide)

theorem nan_sub (y : F64) : Fl.sub .nan y = .nan := by unfold Fl.sub; cases Fl.neg y <;> rfl
theorem nan_div (y : F64) : Fl.div .nan y = .nan := by cases y <;> rfl
theorem mul_nan (x : F64) : Fl.mul x .nan = .nan := by cases x <;> rfl
theorem nan_add' (x : F64) : Fl.add .nan x = .nan := by cases x <;> rfl
theorem add_nan (x : F64) : Fl.add x .nan = .nan := by cases x <;> rfl

theorem missing_limited (h : Missing a) : Missing (limited a) := by
  rintro w (⟨_, u, x, hu, hx, hl⟩ | ⟨hw, _⟩)
  · rw [h u hu] at hx
    cases hx
    rw [show Fl.lt (Fl.lit f64 1) (.nan : F64) = false by decide +kernel] at hl
    exact absurd hl (by decide)
  · exact h w hw

theorem missing_byte (h : Missing a) {I : Vis.Impl} {l : UInt8} (hl : toByte I a l) : l = I.u8 .nan := by
  obtain ⟨u, x, hu, hx, rfl⟩ := hl
  rw [h u hu] at hx
  cases hx
  rfl

/-- the position of a missing value -/
theorem missing_position {v : F64} (hv : v = .nan) {b c : Inter → Prop} : Missing (over (minus (just v) b) c) :=
  missing_left nan_div (missing_left nan_sub (by rintro u rfl; rw [hv]))

theorem heat_missing (h : Missing a) {I : Vis.Impl} {col : Vis.RGBA} (hc : permittedHeatColor I a col) :
    col = ⟨I.u8 .nan, I.u8 .nan, I.u8 .nan, 255⟩ := by
  have hp := missing_limited h
  unfold permittedHeatColor at hc
  dsimp only at hc
  generalize limited a = p at hp hc
  have hm : ∀ c : Inter → Prop, Missing (minus (plus (times (num (1 / 2)) p) (num (1 / 4))) c) := fun c =>
    missing_left nan_sub (missing_left nan_add' (missing_right mul_nan hp))
  obtain ⟨u, v, _, _, g1, g2, g3, g4⟩ := hc
  have b1 := missing_byte (missing_right mul_nan (missing_right add_nan (hm _))) g1
  have b2 := missing_byte (missing_right mul_nan (missing_right add_nan (hm _))) g2
  have b3 := missing_byte (missing_right mul_nan (missing_right add_nan (hm _))) g3
  cases col
  simp only at b1 b2 b3 g4
  rw [b1, b2, b3, g4]

theorem bright_missing (h : Missing a) {I : Vis.Impl} {l : UInt8} (hl : toByte I (times (num 255) (limited a)) l) : l = I.u8 .nan :=
  missing_byte (missing_right mul_nan (missing_limited h)) hl

/-! ### visibility -/

theorem strength_one {h k : ℝ} (hd : |h - k| ≤ 60 ∨ 300 ≤ |h - k|) : strength h k = 1 := by
  unfold strength
  have : min |h - k| (360 - |h - k|) ≤ 60 := by
    rcases hd with hd | hd
    · exact (min_le_left _ _).trans hd
    · exact (min_le_right _ _).trans (by linarith)
  rw [min_eq_left (by linarith [div_le_one_of_le₀ this (by norm_num : (0 : ℝ) ≤ 60)]), max_eq_right (by norm_num)]

theorem bright_half {l : UInt8} {z : ℝ} (h : Brightness l z) (hz : 1 / 2 ≤ z) : 127 ≤ l := by
  have h2 := h.2
  rw [UInt8.le_iff_toNat_le]
  show 127 ≤ l.toNat
  have : (126 : ℝ) < l.toNat := by norm_num at h2; linarith
  have : 126 < l.toNat := by exact_mod_cast this
  omega

theorem heat_visible {col : Vis.RGBA} {r : ℝ} (hr : 0 ≤ r ∧ r ≤ 1) (h : IsHeat col r) : Visible col := by
  obtain ⟨h1, h2, h3, _⟩ := h
  have full : ∀ k : ℝ, strength (hue r) k = 1 → 1 / 2 ≤ hsl (hue r) (lightness r) k := by
    intro k hk
    unfold hsl lightness
    rw [hk]
    rcases le_total (2 * (1 / 4 + r / 2) - 1) 0 with hs | hs
    · rw [abs_of_nonpos hs]; linarith [hr.1]
    · rw [abs_of_nonneg hs]; linarith [hr.1]
  have hrange : 0 ≤ hue r ∧ hue r ≤ 360 := by
    unfold hue
    split
    · constructor <;> linarith [hr.1]
    · rename_i hn
      have := not_le.mp hn
      constructor <;> linarith [hr.2]
  obtain ⟨a1, a2⟩ := hrange
  unfold Visible
  rcases le_total (hue r) 60 with b1 | b1
  · exact Or.inl (bright_half h1 (full 0 (strength_one (Or.inl (abs_le.mpr ⟨by linarith, by linarith⟩)))))
  rcases le_total (hue r) 180 with b2 | b2
  · exact Or.inr (Or.inl (bright_half h2 (full 120 (strength_one (Or.inl (abs_le.mpr ⟨by linarith, by linarith⟩))))))
  rcases le_total (hue r) 300 with b3 | b3
  · exact Or.inr (Or.inr (bright_half h3 (full 240 (strength_one (Or.inl (abs_le.mpr ⟨by linarith, by linarith⟩))))))
  · exact Or.inl (bright_half h1 (full 0 (strength_one (Or.inr (by rw [abs_of_nonneg (by linarith)]; linarith)))))

end Radolan.Fusion
