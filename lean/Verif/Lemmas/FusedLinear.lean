/- Permitted evaluations of the position in a linear gradient at and beyond its end; binary32 computations with few results. -/
import Verif.Lemmas.FusedEnds
import Verif.Props.FusedColors
import Verif.Props.FusedConversion

namespace Props
open Go Radolan Radolan.Vis Radolan.Fusion Spec Spec.Fusion

/-- a value at or beyond the end of a linear gradient -/
theorem linear_end {a b : ℚ} (ha : IsRep f64 a) (hb : IsRep f64 b) (hd : IsRep f64 (b - a)) (hab : 1 ≤ b - a) (hbig : b - a ≤ 1000)
    {v : F64} (hv : v.isFin = true) (h1 : v.val = b ∨ b + 1 / 10 ^ 9 ≤ v.val) (hmax : v.val ≤ 10 ^ 40) (ha0 : -1000 ≤ a) :
    AtEnd (over (minus (just v) (just (Fl.lit f64 a))) (minus (just (Fl.lit f64 b)) (just (Fl.lit f64 a)))) := by
  have hne : b - a ≠ 0 := by linarith
  have r1 : IsRep f64 1 := by decide +kernel
  have B : Exactly (minus (just (Fl.lit f64 b)) (just (Fl.lit f64 a))) (b - a) :=
    exactly_minus (exactly_num hb) (exactly_num ha) rfl hb ha hd
  rcases h1 with h1 | h1
  · refine atEnd_exact (exactly_over (r := 1) (p := b - a) (q := b - a) ?_ B hne (by field_simp) hd hd r1)
    have hj := exactly_just hv
    rw [h1] at hj
    exact exactly_minus hj (exactly_num ha) rfl hb ha hd
  have h1r : (b : ℝ) + 1 / 10 ^ 9 ≤ v.val := by
    have := (Rat.cast_le (K := ℝ)).mpr h1; push_cast at this; exact this
  have habr : (1 : ℝ) ≤ (b : ℝ) - a := by exact_mod_cast hab
  have hbigr : (b : ℝ) - a ≤ 1000 := by exact_mod_cast hbig
  have hmaxr : (v.val : ℝ) ≤ 10 ^ 40 := by
    have := (Rat.cast_le (K := ℝ)).mpr hmax; push_cast at this; exact this
  have ha0r : (-1000 : ℝ) ≤ a := by
    have := (Rat.cast_le (K := ℝ)).mpr ha0; push_cast at this; exact this
  have v0 := just_ap (Fl.Ap.exact hv)
  have a0 := lit_ap ha
  have b0 := lit_ap hb
  have w := minus_ap (M := (b : ℝ) - a) (t := ((b : ℝ) - a) * (12 / 10 ^ 17)) b0 a0 (by rw [abs_of_nonneg (by linarith)]; linarith)
    (by norm_num; linarith) (by norm_num; linarith) (by linarith)
  generalize hW : (b : ℝ) - a = W at *
  generalize hD : (v.val : ℝ) - a = D at *
  have hDW1 : W + 1 / 10 ^ 9 ≤ D := by linarith
  have hl : W ≤ D := by norm_num at hDW1; linarith
  have hD0 : 0 ≤ D := by linarith
  have hW0 : 0 < W := by linarith
  have hr : 1 ≤ D / W := by rw [le_div_iff₀ hW0]; linarith
  have s := minus_ap (M := 2 * D) (t := D * (24 / 10 ^ 17)) v0 a0 (by rw [hD, abs_of_nonneg hD0]; linarith) (by norm_num; linarith)
    (by norm_num; norm_num at hmaxr; linarith) (by linarith)
  rw [hD] at s
  have hDW : D / W * W = D := by field_simp
  have hDW2 : D / W ≤ D := by rw [div_le_iff₀ hW0]; nlinarith
  have k := over_ap (m := W / 2) (q := D / W) (e := D / W * (1 / 10 ^ 14)) (t := 1 / 10 ^ 13 * (D / W)) s w (by linarith)
    (by rw [abs_of_pos hW0]; norm_num; linarith) (by rw [abs_of_nonneg hD0, abs_of_pos hW0, hDW]) (by
      rw [div_le_iff₀ (by linarith), show D / W * (W * (12 / 10 ^ 17)) = D * (12 / 10 ^ 17) by rw [← mul_assoc, hDW],
        show D / W * (1 / 10 ^ 14) * (W / 2) = D * (1 / 10 ^ 14 / 2) by
          rw [show D / W * (1 / 10 ^ 14) * (W / 2) = D / W * W * (1 / 10 ^ 14 / 2) by ring, hDW]]
      norm_num; linarith) (by norm_num; norm_num at hr; linarith) (by norm_num; norm_num at hmaxr; linarith) (by norm_num; linarith)
  refine atEnd_above k ?_
  have h2 : (W + 1 / 10 ^ 9) / W ≤ D / W := div_le_div_of_nonneg_right hDW1 hW0.le
  rw [add_div, div_self hW0.ne'] at h2
  have h3 : (1 : ℝ) / 10 ^ 12 ≤ 1 / 10 ^ 9 / W := by rw [le_div_iff₀ hW0]; norm_num; linarith
  have h4 : (1 : ℝ) + 1 / 10 ^ 12 ≤ D / W := by linarith
  have h5 : D / W - 1 / 10 ^ 13 * (D / W) = D / W * (1 - 1 / 10 ^ 13) := by ring
  rw [h5]
  calc (1 : ℝ) < (1 + 1 / 10 ^ 12) * (1 - 1 / 10 ^ 13) := by norm_num
    _ ≤ D / W * (1 - 1 / 10 ^ 13) := mul_le_mul_of_nonneg_right h4 (by norm_num)

/-! ### float32 computations with few possible results -/

/-- `A`: the possible values after rounding; `A'`: the possible values of finite intermediate results -/
def Among (a : Inter32 → Prop) (A A' : List ℚ) : Prop :=
  ∀ u, a u → (∀ x, u.Rounds x → x.isFin = true ∧ x.val ∈ A) ∧ ∀ q, u.Is q → q ∈ A'

theorem among_just {x : F32} (h : x.isFin = true) : Among (just32 x) [x.val] [x.val] := by
  rintro u rfl
  exact ⟨by rintro y rfl; exact ⟨h, by simp⟩, by rintro q ⟨_, rfl⟩; simp⟩

theorem mk32_rep {z : ℚ} (h : |rnd f32 z| < pow2 128) (s : Bool) : (Fl.mk f32 s z).isFin = true ∧ (Fl.mk f32 s z).val = rnd f32 z :=
  Fl.mk_fin (f := f32) h

theorem among_binary {op : F32 → F32 → F32} {exactly : ℚ → ℚ → ℚ} {defined : ℚ → ℚ → Prop} {a b : Inter32 → Prop}
    {A A' B B' C C' : List ℚ} (ha : Among a A A') (hb : Among b B B')
    (hop : ∀ x y : F32, x.isFin = true → y.isFin = true → y.val ∈ B → ∃ s, op x y = Fl.mk f32 s (exactly x.val y.val))
    (h1 : ∀ p ∈ A, ∀ q ∈ B, rnd f32 (exactly p q) ∈ C ∧ |rnd f32 (exactly p q)| < pow2 128)
    (h2 : ∀ p ∈ A', ∀ q ∈ B', exactly p q ∈ C' ∧ rnd f32 (exactly p q) ∈ C ∧ |rnd f32 (exactly p q)| < pow2 128)
    (hC : ∀ z ∈ C, z ∈ C') : Among (binary32 op exactly defined a b) C C' := by
  have word : ∀ (z : ℚ) (s : Bool), rnd f32 z ∈ C → |rnd f32 z| < pow2 128 →
      (∀ x, (Inter32.word (Fl.mk f32 s z)).Rounds x → x.isFin = true ∧ x.val ∈ C) ∧ ∀ q, (Inter32.word (Fl.mk f32 s z)).Is q → q ∈ C' := by
    intro z s k1 k2
    obtain ⟨m1, m2⟩ := mk32_rep k2 s
    exact ⟨by rintro x rfl; exact ⟨m1, by rw [m2]; exact k1⟩, by rintro q ⟨_, rfl⟩; rw [m2]; exact hC _ k1⟩
  rintro w ⟨u, v, hu, hv, ⟨x, y, hx, hy, rfl⟩ | ⟨p, q, hp, hq, _, rfl | ⟨s, rfl⟩⟩⟩
  · obtain ⟨x1, x2⟩ := (ha u hu).1 x hx
    obtain ⟨y1, y2⟩ := (hb v hv).1 y hy
    obtain ⟨s, e⟩ := hop x y x1 y1 y2
    rw [e]
    exact word _ s (h1 _ x2 _ y2).1 (h1 _ x2 _ y2).2
  · obtain ⟨k1, k2, k3⟩ := h2 p ((ha u hu).2 p hp) q ((hb v hv).2 q hq)
    refine ⟨?_, ?_⟩
    · rintro x ⟨s, rfl⟩
      obtain ⟨m1, m2⟩ := mk32_rep k3 s
      exact ⟨m1, by rw [m2]; exact k2⟩
    · rintro z rfl
      exact k1
  · obtain ⟨k1, k2, k3⟩ := h2 p ((ha u hu).2 p hp) q ((hb v hv).2 q hq)
    exact word _ s k2 k3

/-- the same, with the lists computed -/
def images (f : ℚ → ℚ → ℚ) (A B : List ℚ) : List ℚ := A.flatMap fun p => B.map (f p)

theorem among_images {op : F32 → F32 → F32} {exactly : ℚ → ℚ → ℚ} {defined : ℚ → ℚ → Prop} {a b : Inter32 → Prop}
    {A A' B B' : List ℚ} (ha : Among a A A') (hb : Among b B B') (hA : ∀ z ∈ A, z ∈ A') (hB : ∀ z ∈ B, z ∈ B')
    (hop : ∀ x y : F32, x.isFin = true → y.isFin = true → y.val ∈ B → ∃ s, op x y = Fl.mk f32 s (exactly x.val y.val))
    (h : ∀ z ∈ images exactly A' B', |rnd f32 z| < pow2 128) :
    Among (binary32 op exactly defined a b) ((images exactly A' B').map (rnd f32))
      ((images exactly A' B').map (rnd f32) ++ images exactly A' B') := by
  have mem : ∀ p ∈ A', ∀ q ∈ B', exactly p q ∈ images exactly A' B' := fun p hp q hq =>
    List.mem_flatMap.mpr ⟨p, hp, List.mem_map.mpr ⟨q, hq, rfl⟩⟩
  refine among_binary ha hb hop (fun p hp q hq => ?_) (fun p hp q hq => ?_) (fun z hz => List.mem_append_left _ hz)
  · have := mem p (hA p hp) q (hB q hq)
    exact ⟨List.mem_map.mpr ⟨_, this, rfl⟩, h _ this⟩
  · have := mem p hp q hq
    exact ⟨List.mem_append_right _ this, List.mem_map.mpr ⟨_, this, rfl⟩, h _ this⟩

/-- 1 dBZ and 75 dBZ, stated in tenths of RVP-6 units, are decoded to something not below, whatever is fused -/
theorem tenths_fused {r : Int} (hr : r = 670 ∨ r = 2150) {x : F32} (hx : PermittedPixel true (-1) r x) :
    x.isFin = true ∧ (r : ℚ) / 20 - 65 / 2 ≤ x.val := by
  have hlit : (Fl.lit f32 (r : ℚ)).isFin = true ∧ (Fl.lit f32 (r : ℚ)).val = r := by rcases hr with rfl | rfl <;> decide +kernel
  have hten : ((Fl.pow10 (-1)).conv f32).isFin = true ∧ ((Fl.pow10 (-1)).conv f32).val = 13421773 / 134217728 := by decide +kernel
  have htwo : (Fl.lit f32 2).isFin = true ∧ (Fl.lit f32 2).val = 2 := by decide +kernel
  have hoff : (Fl.lit f32 (65 / 2)).isFin = true ∧ (Fl.lit f32 (65 / 2)).val = 65 / 2 := by decide +kernel
  have a0 := among_just hlit.1
  have a1 := among_just hten.1
  have a2 := among_just htwo.1
  have a3 := among_just hoff.1
  rw [hlit.2] at a0
  rw [hten.2] at a1
  rw [htwo.2] at a2
  rw [hoff.2] at a3
  have b1 : Among (permittedRaw (-1) r) _ _ := among_images (op := Fl.mul) (exactly := (· * ·)) a0 a1 (fun _ h => h) (fun _ h => h)
    (fun x y fx fy _ => ⟨_, Fl.mul_fin fx fy⟩) (by rcases hr with rfl | rfl <;> decide +kernel)
  have b2 := among_images (op := Fl.div) (exactly := (· / ·)) (defined := fun _ q => q ≠ 0) b1 a2 (fun _ h => List.mem_append_left _ h) (fun _ h => h)
    (fun x y fx fy hy => ⟨_, Fl.div_fin fx fy (by rw [List.mem_singleton.mp hy]; norm_num)⟩) (by rcases hr with rfl | rfl <;> decide +kernel)
  have b3 : Among (permittedDBZ (permittedRaw (-1) r)) _ _ := among_images (op := Fl.sub) (exactly := (· - ·)) b2 a3
    (fun _ h => List.mem_append_left _ h) (fun _ h => h)
    (fun x y fx fy _ => ⟨_, Fl.sub_fin fx fy⟩) (by rcases hr with rfl | rfl <;> decide +kernel)
  obtain ⟨u, hu, hx⟩ := hx
  obtain ⟨k1, k2⟩ := (b3 u hu).1 x hx
  refine ⟨k1, ?_⟩
  generalize x.val = z at k2
  revert k2
  rcases hr with rfl | rfl
  · have : ∀ z ∈ (images (· - ·) ((images (· / ·) ((images (· * ·) [((670 : Int) : ℚ)] [13421773 / 134217728]).map (rnd f32) ++
        images (· * ·) [((670 : Int) : ℚ)] [13421773 / 134217728]) [2]).map (rnd f32) ++
        images (· / ·) ((images (· * ·) [((670 : Int) : ℚ)] [13421773 / 134217728]).map (rnd f32) ++
        images (· * ·) [((670 : Int) : ℚ)] [13421773 / 134217728]) [2]) [65 / 2]).map (rnd f32), ((670 : Int) : ℚ) / 20 - 65 / 2 ≤ z := by
      decide +kernel
    exact this z
  · have : ∀ z ∈ (images (· - ·) ((images (· / ·) ((images (· * ·) [((2150 : Int) : ℚ)] [13421773 / 134217728]).map (rnd f32) ++
        images (· * ·) [((2150 : Int) : ℚ)] [13421773 / 134217728]) [2]).map (rnd f32) ++
        images (· / ·) ((images (· * ·) [((2150 : Int) : ℚ)] [13421773 / 134217728]).map (rnd f32) ++
        images (· * ·) [((2150 : Int) : ℚ)] [13421773 / 134217728]) [2]) [65 / 2]).map (rnd f32), ((2150 : Int) : ℚ) / 20 - 65 / 2 ≤ z := by
      decide +kernel
    exact this z

end Props
