/- Every permitted evaluation of a colour is near the exact colour. -/
import Verif.Spec.FusedColors
import Verif.Lemmas.Fusion
import Verif.Lemmas.Hue
import Mathlib.Algebra.Order.Round

namespace Radolan.Fusion
open Go Go.Fl Real _root_.Spec _root_.Spec.Fusion

/-! ### distance to the nearest even number -/

noncomputable def dist2 (u : ℝ) : ℝ := |u - 2 * round (u / 2)|

theorem dist2_le (u : ℝ) (z : Int) : dist2 u ≤ |u - 2 * z| := by
  have := round_le (u / 2) z
  unfold dist2
  have e : ∀ t : ℝ, |u - 2 * t| = 2 * |u / 2 - t| := by
    intro t
    rw [← abs_of_pos (show (0 : ℝ) < 2 by norm_num), ← abs_mul, abs_of_pos (show (0 : ℝ) < 2 by norm_num)]
    congr 1; ring
  rw [e, e]
  linarith

theorem dist2_lip (u v : ℝ) : |dist2 u - dist2 v| ≤ |u - v| := by
  have key : ∀ a b : ℝ, dist2 a - dist2 b ≤ |a - b| := by
    intro a b
    have h1 := dist2_le a (round (b / 2))
    have h2 := abs_add_le (a - b) (b - 2 * round (b / 2))
    rw [show a - b + (b - 2 * (round (b / 2) : ℝ)) = a - 2 * round (b / 2) by ring] at h2
    unfold dist2 at h1 ⊢
    linarith
  rw [abs_le]
  have h1 := key u v
  have h2 := key v u
  rw [abs_sub_comm] at h2
  constructor <;> linarith

theorem dist2_of {u : ℝ} {z : Int} (h : |u - 2 * z| ≤ 1) : dist2 u = |u - 2 * z| := by
  refine le_antisymm (dist2_le u z) ?_
  unfold dist2
  by_cases e : round (u / 2) = z
  · rw [e]
  · have h1 : (2 : ℝ) ≤ |2 * (z : ℝ) - 2 * round (u / 2)| := by
      have : (1 : ℝ) ≤ |((z - round (u / 2) : Int) : ℝ)| := by
        have : (1 : Int) ≤ |z - round (u / 2)| := Int.one_le_abs (by omega)
        exact_mod_cast this
      rw [← mul_sub, abs_mul, abs_of_pos (by norm_num : (0 : ℝ) < 2)]
      push_cast at this
      linarith
    have h2 := abs_add_le (2 * (z : ℝ) - u) (u - 2 * round (u / 2))
    rw [show 2 * (z : ℝ) - u + (u - 2 * round (u / 2)) = 2 * z - 2 * round (u / 2) by ring, abs_sub_comm (2 * (z : ℝ)) u] at h2
    linarith

/-! ### the sectors -/

theorem clamp_one {d : ℝ} (h : d ≤ 1) : clampAt d = 1 := by
  unfold clampAt; rw [min_eq_left (by linarith), max_eq_right (by norm_num)]

theorem clamp_mid {d : ℝ} (h1 : 1 ≤ d) (h2 : d ≤ 2) : clampAt d = 2 - d := by
  unfold clampAt; rw [min_eq_right (by linarith), max_eq_right (by linarith)]

/-- strengths of the primary colours at a hue, in sixths of the circle, unwrapped -/
noncomputable def strengths (u : ℝ) : ℝ × ℝ × ℝ :=
  (clampAt |u - 6|, clampAt |u - 8|, max (clampAt |u - 4|) (clampAt |u - 10|))

theorem strengths_lip (u v : ℝ) : |(strengths u).1 - (strengths v).1| ≤ |u - v| ∧
    |(strengths u).2.1 - (strengths v).2.1| ≤ |u - v| ∧ |(strengths u).2.2 - (strengths v).2.2| ≤ |u - v| := by
  have h : ∀ k : ℝ, |clampAt (|u - k|) - clampAt (|v - k|)| ≤ |u - v| := by
    intro k
    refine (clampAt_lip _ _).trans ((abs_abs_sub_abs_le _ _).trans ?_)
    rw [sub_sub_sub_cancel_right]
  exact ⟨h _, h _, (abs_max_sub_max_le_max _ _ _ _).trans (max_le (h _) (h _))⟩

theorem dist2_even {u : ℝ} (z : Int) {k : ℝ} (hk : k = 2 * z) (h1 : k - 1 ≤ u) (h2 : u ≤ k + 1) : dist2 u = |u - k| := by
  subst hk
  exact dist2_of (abs_le.mpr ⟨by linarith, by linarith⟩)

/-- the assignment by sector, for a hue in the range of the gradient -/
theorem sector_exact {y w : ℝ} {s : Int} (h : 0 ≤ y ∧ y < 4 ∧ w = 6 ∨ 4 ≤ y ∧ y < 6 ∧ w = 0) (h1 : (s : ℝ) ≤ y) (h2 : y < s + 1) :
    bySector s 1 (dist2 (y + w)) 0 = strengths (y + w) := by
  have hs : s = 0 ∨ s = 1 ∨ s = 2 ∨ s = 3 ∨ s = 4 ∨ s = 5 := by
    have a : (s : ℝ) < 6 := by rcases h with h | h <;> linarith [h.2.1]
    have b : (-1 : ℝ) < s := by rcases h with h | h <;> linarith [h.1]
    have a' : s < 6 := by exact_mod_cast a
    have b' : -1 < s := by exact_mod_cast b
    omega
  unfold strengths
  rcases h with ⟨g1, g2, rfl⟩ | ⟨g1, g2, rfl⟩
  · rcases hs with rfl | rfl | rfl | rfl | rfl | rfl <;> norm_num at h1 h2
    · simp only [bySector, if_true]
      rw [dist2_even 3 (k := 6) (by norm_num) (by linarith) (by linarith)]
      rw [abs_of_nonneg (by linarith : 0 ≤ y + 6 - 6), abs_of_nonpos (by linarith : y + 6 - 8 ≤ 0),
        abs_of_nonneg (by linarith : 0 ≤ y + 6 - 4), abs_of_nonpos (by linarith : y + 6 - 10 ≤ 0)]
      rw [clamp_one (by linarith), clamp_mid (by linarith) (by linarith), clampAt_far (by linarith), clampAt_far (by linarith)]
      ext <;> simp
      ring
    · simp only [bySector, if_true, if_neg (by decide : ¬ (1 : Int) = 0)]
      rw [dist2_even 4 (k := 8) (by norm_num) (by linarith) (by linarith)]
      rw [abs_of_nonneg (by linarith : 0 ≤ y + 6 - 6), abs_of_nonpos (by linarith : y + 6 - 8 ≤ 0),
        abs_of_nonneg (by linarith : 0 ≤ y + 6 - 4), abs_of_nonpos (by linarith : y + 6 - 10 ≤ 0)]
      rw [clamp_mid (by linarith) (by linarith), clamp_one (by linarith), clampAt_far (by linarith), clampAt_far (by linarith)]
      ext <;> simp
      ring
    · simp only [bySector]
      norm_num
      rw [dist2_even 4 (k := 8) (by norm_num) (by linarith) (by linarith)]
      rw [abs_of_nonneg (by linarith : 0 ≤ y), abs_of_nonneg (by linarith : 0 ≤ y + 6 - 8),
        abs_of_nonneg (by linarith : 0 ≤ y + 6 - 4), abs_of_nonpos (by linarith : y + 6 - 10 ≤ 0)]
      rw [clampAt_far (by linarith), clamp_one (by linarith), clampAt_far (by linarith), clamp_mid (by linarith) (by linarith),
        max_eq_right (by linarith)]
      refine ⟨rfl, rfl, by ring⟩
    · simp only [bySector]
      norm_num
      rw [dist2_even 5 (k := 10) (by norm_num) (by linarith) (by linarith)]
      rw [abs_of_nonneg (by linarith : 0 ≤ y), abs_of_nonneg (by linarith : 0 ≤ y + 6 - 8),
        abs_of_nonneg (by linarith : 0 ≤ y + 6 - 4), abs_of_nonpos (by linarith : y + 6 - 10 ≤ 0)]
      rw [clampAt_far (by linarith), clamp_mid (by linarith) (by linarith), clampAt_far (by linarith), clamp_one (by linarith),
        max_eq_right (by linarith)]
      refine ⟨rfl, by ring, rfl⟩
    · linarith
    · linarith
  · rcases hs with rfl | rfl | rfl | rfl | rfl | rfl <;> norm_num at h1 h2
    · linarith
    · linarith
    · linarith
    · linarith
    · simp only [bySector]
      norm_num
      rw [dist2_even 2 (k := 4) (by norm_num) (by linarith) (by linarith)]
      rw [abs_of_nonpos (by linarith : y - 6 ≤ 0), abs_of_nonpos (by linarith : y - 8 ≤ 0),
        abs_of_nonneg (by linarith : 0 ≤ y - 4), abs_of_nonpos (by linarith : y - 10 ≤ 0)]
      rw [clamp_mid (by linarith) (by linarith), clampAt_far (by linarith), clamp_one (by linarith), clampAt_far (by linarith),
        max_eq_left (by linarith)]
      refine ⟨by ring, rfl, rfl⟩
    · simp only [bySector]
      norm_num
      rw [dist2_even 3 (k := 6) (by norm_num) (by linarith) (by linarith)]
      rw [abs_of_nonpos (by linarith : y - 6 ≤ 0), abs_of_nonpos (by linarith : y - 8 ≤ 0),
        abs_of_nonneg (by linarith : 0 ≤ y - 4), abs_of_nonpos (by linarith : y - 10 ≤ 0)]
      rw [clamp_one (by linarith), clampAt_far (by linarith), clamp_mid (by linarith) (by linarith), clampAt_far (by linarith),
        max_eq_left (by linarith)]
      refine ⟨rfl, rfl, by ring⟩

theorem bySector_lip (s : Int) (a b : ℝ) :
    |(bySector s 1 a 0).1 - (bySector s 1 b 0).1| ≤ |a - b| ∧ |(bySector s 1 a 0).2.1 - (bySector s 1 b 0).2.1| ≤ |a - b| ∧
    |(bySector s 1 a 0).2.2 - (bySector s 1 b 0).2.2| ≤ |a - b| := by
  unfold bySector
  split_ifs <;> simp

/-- the assignment by sector, for a hue known up to `η` -/
theorem sector_approx {U y w η : ℝ} {s : Int} (hU : 9 / 2 ≤ U ∧ U ≤ 10) (hy : 0 ≤ y ∧ y < 6) (hw : w = 6 ∨ w = 0)
    (h : |y + w - U| ≤ η) (hη : η ≤ 1 / 10) (h1 : (s : ℝ) ≤ y) (h2 : y < s + 1) :
    |(bySector s 1 (dist2 U) 0).1 - (strengths U).1| ≤ 2 * η ∧ |(bySector s 1 (dist2 U) 0).2.1 - (strengths U).2.1| ≤ 2 * η ∧
    |(bySector s 1 (dist2 U) 0).2.2 - (strengths U).2.2| ≤ 2 * η := by
  have hb := abs_le.mp h
  have hη0 : 0 ≤ η := (abs_nonneg _).trans h
  by_cases hc : w = 6 ∧ 4 ≤ y
  · obtain ⟨rfl, h4⟩ := hc
    have hs : s = 4 := by
      have a : (s : ℝ) < 5 := by linarith
      have b : (3 : ℝ) < s := by linarith
      have a' : s < 5 := by exact_mod_cast a
      have b' : 3 < s := by exact_mod_cast b
      omega
    subst hs
    unfold strengths bySector
    norm_num
    rw [dist2_even 5 (k := 10) (by norm_num) (by linarith) (by linarith), abs_of_nonpos (by linarith : U - 10 ≤ 0),
      abs_of_nonneg (by linarith : 0 ≤ U - 6), abs_of_nonneg (by linarith : 0 ≤ U - 8), abs_of_nonneg (by linarith : 0 ≤ U - 4)]
    rw [clampAt_far (by linarith : 2 ≤ U - 6), clamp_mid (by linarith : 1 ≤ U - 8) (by linarith), clampAt_far (by linarith : 2 ≤ U - 4),
      clamp_one (by linarith : -(U - 10) ≤ 1), max_eq_right (by norm_num)]
    refine ⟨?_, ?_, ?_⟩
    · rw [abs_le]; constructor <;> linarith
    · rw [abs_le]; constructor <;> linarith
    · norm_num; linarith
  · have hd : 0 ≤ y ∧ y < 4 ∧ w = 6 ∨ 4 ≤ y ∧ y < 6 ∧ w = 0 := by
      rcases hw with rfl | rfl
      · exact Or.inl ⟨hy.1, not_le.mp fun e => hc ⟨rfl, e⟩, rfl⟩
      · exact Or.inr ⟨by linarith, hy.2, rfl⟩
    have e := sector_exact hd h1 h2
    obtain ⟨a1, a2, a3⟩ := bySector_lip s (dist2 U) (dist2 (y + w))
    obtain ⟨b1, b2, b3⟩ := strengths_lip (y + w) U
    have d := dist2_lip U (y + w)
    rw [abs_sub_comm U] at d
    rw [e] at a1 a2 a3
    have fin : ∀ {a b c : ℝ}, |a - b| ≤ |dist2 U - dist2 (y + w)| → |b - c| ≤ |y + w - U| → |a - c| ≤ 2 * η := by
      intro a b c g1 g2
      have := abs_sub_le a b c
      linarith
    exact ⟨fin a1 b1, fin a2 b2, fin a3 b3⟩

/-! ### sets of intermediate results -/

theorem set_of_members {a : Inter → Prop} {r ε : ℝ} : SetAp a r ε ↔ ∀ u, a u → SetAp (fun v => v = u) r ε :=
  ⟨fun h u hu v hv => by rw [hv]; exact h u hu, fun h u hu => h u hu u rfl⟩

theorem binary_left {op : F64 → F64 → F64} {exactly : ℚ → ℚ → ℚ} {defined : ℚ → ℚ → Prop} {a b : Inter → Prop} {w : Inter}
    (h : binary op exactly defined a b w) : ∃ u, a u ∧ binary op exactly defined (fun v => v = u) b w := by
  obtain ⟨u, v, hu, hv, hw⟩ := h
  exact ⟨u, hu, u, v, rfl, hv, hw⟩

theorem abs_ap' {x : F64} {r ε : ℝ} (h : Ap x r ε) : Ap (Fl.abs x) |r| ε := by
  refine ⟨by rw [abs_isFin]; exact h.1, ?_⟩
  rw [abs_val]; push_cast
  exact (abs_abs_sub_abs_le _ _).trans h.2

theorem mk_abs_ap {q : ℚ} {r ε : ℝ} (h : ∀ b, Ap (mk f64 b q) r ε) (b : Bool) : Ap (mk f64 b |q|) |r| ε := by
  rcases le_total 0 q with hq | hq
  · rw [abs_of_nonneg hq]
    have := h b
    refine ⟨this.1, ?_⟩
    have e : (0 : ℝ) ≤ (mk f64 b q).val := by
      have := Fl.mk_isFin_iff.mp this.1
      rw [(Fl.mk_fin (b := b) this).2]
      exact_mod_cast (rnd_nonneg f64 hq)
    have h2 := this.2
    rw [← abs_of_nonneg e]
    exact (abs_abs_sub_abs_le _ _).trans h2
  · rw [abs_of_nonpos hq]
    have hb := h b
    have hf := Fl.mk_isFin_iff.mp hb.1
    have hf' : |rnd f64 (-q)| < pow2 f64.emax := by rw [rnd_neg, abs_neg]; exact hf
    obtain ⟨f1, f2⟩ := Fl.mk_fin (b := b) hf'
    refine ⟨f1, ?_⟩
    have h2 := hb.2
    rw [(Fl.mk_fin (b := b) hf).2] at h2
    rw [f2, rnd_neg]
    have h3 : (rnd f64 q : ℝ) ≤ 0 := by
      have := rnd_nonneg f64 (q := -q) (by linarith)
      rw [rnd_neg] at this
      have : rnd f64 q ≤ 0 := by linarith
      exact_mod_cast this
    push_cast
    rw [← abs_of_nonpos h3]
    exact (abs_abs_sub_abs_le _ _).trans h2

theorem absolute_ap {a : Inter → Prop} {r ε : ℝ} (h : SetAp a r ε) : SetAp (absolute a) |r| ε := by
  rintro w ⟨u, hu, ⟨x, hx, rfl⟩ | ⟨q, hq, rfl⟩⟩
  · exact abs_ap' ((h u hu).rounds hx)
  · refine ⟨?_, ?_⟩
    · push_cast
      exact (abs_abs_sub_abs_le _ _).trans ((h u hu).is hq)
    · intro b
      refine mk_abs_ap (fun b' => ?_) b
      have hu' := h u hu
      cases u with
      | exact p => rw [show q = p from hq]; exact hu'.2 b'
      | word x =>
        obtain ⟨h1, rfl⟩ := hq
        have hr : |rnd f64 x.val| < pow2 f64.emax := by rw [rnd_val]; exact (val_repr _).2
        obtain ⟨f1, f2⟩ := Fl.mk_fin (b := b') hr
        refine ⟨f1, ?_⟩
        rw [f2, rnd_val]; exact hu'.2

theorem limited_ap {a : Inter → Prop} {r ε : ℝ} (hr : r ≤ 1) (h : SetAp a r ε) : SetAp (limited a) r ε := by
  rintro w (⟨rfl, u, x, hu, hx, hl⟩ | ⟨hw, _⟩)
  · have hxa := (h u hu).rounds hx
    obtain ⟨o1, o2⟩ := Fl.one_fin
    rw [Fl.lt_fin o1 hxa.1, decide_eq_true_iff, o2] at hl
    have h' : (1 : ℝ) < x.val := by exact_mod_cast hl
    refine ⟨o1, ?_⟩
    have := abs_le.mp hxa.2
    rw [o2, abs_le]; push_cast
    have : 0 ≤ ε := (abs_nonneg _).trans hxa.2
    constructor <;> linarith
  · exact h w hw

theorem InterAp.shift {u : Inter} {a b ε δ t : ℝ} (h : InterAp u a ε) (hd : |a - b| ≤ δ) (ht : ε + δ ≤ t) : InterAp u b t := by
  have key : ∀ x : ℝ, |x - a| ≤ ε → |x - b| ≤ t := fun x hx => (abs_sub_le x a b).trans (by linarith)
  cases u with
  | word x => exact ⟨h.1, key _ h.2⟩
  | exact q => exact ⟨key _ h.1, fun n => ⟨(h.2 n).1, key _ (h.2 n).2⟩⟩

theorem num_ap {q : ℚ} (h : IsRep f64 q) : SetAp (num q) q 0 := by
  refine just_ap ⟨lit_isFin h, ?_⟩
  rw [lit_val h]; simp

theorem plus_ap {x y : Inter → Prop} {a b ε δ M t : ℝ} (hx : SetAp x a ε) (hy : SetAp y b δ) (hM : |a + b| + (ε + δ) ≤ M)
    (h1 : 1 / 10 ^ 60 ≤ M) (h2 : M ≤ 10 ^ 60) (ht : ε + δ + M * (12 / 10 ^ 17) ≤ t) : SetAp (plus x y) (a + b) t := by
  refine binary_ap hx hy (fun a b => add_ap a b hM h1 h2 ht) ?_ hM h1 h2 ht
  intro p q hp hq
  push_cast
  exact Num.near_add hp hq

theorem minus_ap {x y : Inter → Prop} {a b ε δ M t : ℝ} (hx : SetAp x a ε) (hy : SetAp y b δ) (hM : |a - b| + (ε + δ) ≤ M)
    (h1 : 1 / 10 ^ 60 ≤ M) (h2 : M ≤ 10 ^ 60) (ht : ε + δ + M * (12 / 10 ^ 17) ≤ t) : SetAp (minus x y) (a - b) t := by
  refine binary_ap hx hy (fun a b => sub_ap a b hM h1 h2 ht) ?_ hM h1 h2 ht
  intro p q hp hq
  push_cast
  exact Num.near_sub hp hq

theorem times_ap {x y : Inter → Prop} {a b ε δ B C e t : ℝ} (hx : SetAp x a ε) (hy : SetAp y b δ) (ha : |a| ≤ B) (hb : |b| ≤ C)
    (he : B * δ + C * ε + ε * δ ≤ e) (h1 : 1 / 10 ^ 60 ≤ B * C + e) (h2 : B * C + e ≤ 10 ^ 60)
    (ht : e + (B * C + e) * (12 / 10 ^ 17) ≤ t) : SetAp (times x y) (a * b) t := by
  refine binary_ap (e := _) hx hy (fun a b => mul_ap a b ha hb he h1 h2 ht) ?_ ?_ h1 h2 ht
  · intro p q hp hq
    push_cast
    exact Num.mul_bound hp hq ha hb he
  · have := Radolan.Num.abs_mul_le ha hb
    linarith

theorem over_ap {x y : Inter → Prop} {a b ε δ m q e t : ℝ} (hx : SetAp x a ε) (hy : SetAp y b δ) (hm : 0 < m) (hb : m + δ ≤ |b|)
    (hq : |a| ≤ q * |b|) (he : (ε + q * δ) / m ≤ e) (h1 : 1 / 10 ^ 60 ≤ q + e) (h2 : q + e ≤ 10 ^ 60)
    (ht : e + (q + e) * (12 / 10 ^ 17) ≤ t) : SetAp (over x y) (a / b) t := by
  intro w hw
  have hδ : 0 ≤ δ := by
    obtain ⟨_, v, _, hv, _⟩ := hw
    exact (hy v hv).nonneg
  have hb0 : 0 < |b| := by linarith
  have hab : |a / b| ≤ q := by rw [abs_div, div_le_iff₀ hb0]; exact hq
  refine binary_ap (e := e) hx hy (fun a b => div_ap a b hm hb hq he h1 h2 ht) ?_ (by linarith) h1 h2 ht w hw
  intro p q hp hq'
  push_cast
  exact (Num.near_div hp hq' hm hb hq).trans he

/-! ### conversion to a byte -/

theorem byte_of {I : Vis.Impl} {x : F64} {R z ε : ℝ} (h : Ap x R ε) (hz : 0 ≤ z ∧ z ≤ 1) (hR : |R - 255 * z| + ε < 1 / 10 ^ 8) :
    Brightness (toU8 I.u8 x) z := by
  have h1 := abs_le.mp h.2
  have h2 := abs_le.mp (le_refl |R - 255 * z|)
  have x1 : (-1 : ℝ) < x.val := by norm_num at hR; linarith
  have x2 : (x.val : ℝ) < 256 := by norm_num at hR; linarith
  have x1' : -1 < x.val := by exact_mod_cast x1
  have x2' : x.val < 256 := by exact_mod_cast x2
  unfold Brightness
  rw [toU8_eq _ h.1 x1' x2']
  by_cases hx : 0 ≤ x.val
  · obtain ⟨t1, t2⟩ := ratTrunc_nonneg_bounds hx
    have t0 : 0 ≤ ratTrunc x.val := by unfold ratTrunc; rw [if_pos hx]; exact Int.floor_nonneg.mpr hx
    have hc : ((ratTrunc x.val).toNat : ℝ) = (ratTrunc x.val : ℝ) := by exact_mod_cast Int.toNat_of_nonneg t0
    rw [hc]
    have t1' := (Rat.cast_le (K := ℝ)).mpr t1
    have t2' := (Rat.cast_lt (K := ℝ)).mpr t2
    push_cast at t1' t2'
    constructor <;> linarith
  · obtain ⟨t1, t2⟩ := ratTrunc_neg_bounds (not_le.mp hx)
    have t0 : ratTrunc x.val ≤ 0 := by
      have : (ratTrunc x.val : ℚ) < 1 := by linarith
      have : ratTrunc x.val < 1 := by exact_mod_cast this
      omega
    rw [Int.toNat_of_nonpos t0]
    have hx' : (x.val : ℝ) < 0 := by exact_mod_cast not_le.mp hx
    norm_num at hR ⊢
    constructor <;> linarith

theorem toByte_of {I : Vis.Impl} {a : Inter → Prop} {l : UInt8} {R z ε : ℝ} (h : SetAp a R ε) (hl : toByte I a l) (hz : 0 ≤ z ∧ z ≤ 1)
    (hR : |R - 255 * z| + ε < 1 / 10 ^ 8) : Brightness l z := by
  obtain ⟨u, x, hu, hx, rfl⟩ := hl
  exact byte_of ((h u hu).rounds hx) hz hR

/-! ### the hue -/

/-- the remainder by 360 -/
theorem hue_word {x : F64} {r η : ℝ} (h : Ap x (600 - 330 * r) η) (hr : 0 ≤ r ∧ r ≤ 1) (hη : η ≤ 1 / 10) :
    (fmod x (lit f64 360)).isFin = true ∧ 0 ≤ (fmod x (lit f64 360)).val ∧ (fmod x (lit f64 360)).val ≤ 360 - pow2 (-44) ∧
    ∃ j : ℝ, (j = 0 ∨ j = 360) ∧ |((fmod x (lit f64 360)).val : ℝ) + j - (600 - 330 * r)| ≤ η + 1 / 10 ^ 13 := by
  obtain ⟨v1, v2⟩ : (lit f64 360 : F64).isFin = true ∧ (lit f64 360 : F64).val = 360 := by decide +kernel
  have hb := abs_le.mp h.2
  have x1 : (269 : ℝ) ≤ x.val := by linarith
  have x2 : (x.val : ℝ) ≤ 601 := by linarith
  have x1' : 269 ≤ x.val := by exact_mod_cast x1
  have x2' : x.val ≤ 601 := by exact_mod_cast x2
  have hp : pow2 (-44) = 1 / 17592186044416 := by rw [pow2_eq]; norm_num
  rw [fmod_eq h.1 v1 (by rw [v2]; norm_num), v2]
  by_cases hx : x.val < 360
  · rw [ratTrunc_of (n := 0) (by omega) (by push_cast; apply div_nonneg <;> linarith)
      (by push_cast; rw [div_lt_iff₀ (by norm_num)]; linarith)]
    have e : x.val - ((0 : Int) : ℚ) * 360 = x.val := by push_cast; ring
    rw [e]
    have hrd : |rnd f64 x.val| < pow2 f64.emax := by rw [rnd_val]; exact (val_repr _).2
    obtain ⟨f1, f2⟩ := Fl.mk_fin (b := x.sign) hrd
    rw [f2, rnd_val]
    refine ⟨f1, by linarith, ?_, 0, Or.inl rfl, by rw [add_zero]; linarith [h.2]⟩
    obtain ⟨k, hk⟩ := multiple_of_large (x := x) (by linarith)
    rw [hk, hp] at hx ⊢
    have : (k : ℚ) < 360 * 17592186044416 := by linarith
    have : k < 360 * 17592186044416 := by exact_mod_cast this
    have : k ≤ 360 * 17592186044416 - 1 := by omega
    have : (k : ℚ) ≤ 360 * 17592186044416 - 1 := by exact_mod_cast this
    linarith
  · have hx := not_lt.mp hx
    rw [ratTrunc_of (n := 1) (by omega) (by push_cast; rw [le_div_iff₀ (by norm_num)]; linarith)
      (by push_cast; rw [div_lt_iff₀ (by norm_num)]; linarith)]
    have hin : In (mk f64 x.sign (x.val - ((1 : Int) : ℚ) * 360)) 0 256 :=
      mk_in (IsRep.zero _) (by decide +kernel) (by push_cast; linarith) (by push_cast; linarith)
    refine ⟨hin.fin, hin.lo, by linarith [hin.hi, hp ▸ (by norm_num : (1 / 17592186044416 : ℚ) ≤ 1)], 360, Or.inr rfl, ?_⟩
    have ha : Ap (mk f64 x.sign (x.val - ((1 : Int) : ℚ) * 360)) (600 - 330 * r - 360) (η + 300 * (12 / 10 ^ 17)) := by
      refine mk_ap ?_ ?_ (by norm_num) (by norm_num)
      · push_cast
        rw [show (x.val : ℝ) - 1 * 360 - (600 - 330 * r - 360) = x.val - (600 - 330 * r) by ring]; exact h.2
      · have : |600 - 330 * r - 360| ≤ 241 := abs_le.mpr ⟨by
          have : (360 : ℝ) ≤ x.val := by exact_mod_cast hx
          linarith, by linarith⟩
        linarith
    have := ha.2
    rw [show (600 - 330 * r - 360 : ℝ) = 600 - 330 * r - 360 from rfl] at this
    rw [show ∀ t : ℝ, t + 360 - (600 - 330 * r) = t - (600 - 330 * r - 360) by intro t; ring]
    refine this.trans ?_
    norm_num

/-- the division by 60 -/
theorem hue_rounds {a : Inter → Prop} {r η : ℝ} (h : SetAp a (600 - 330 * r) η) (hr : 0 ≤ r ∧ r ≤ 1) (hη : η ≤ 4 / 10 ^ 10)
    {u : Inter} {y : F64} (hu : over (remainder a (num 360)) (num 60) u) (hy : u.Rounds y) :
    y.isFin = true ∧ 0 ≤ y.val ∧ y.val < 6 ∧ ∃ w : ℝ, (w = 6 ∨ w = 0) ∧ |(y.val : ℝ) + w - turn r| ≤ 7 / 10 ^ 12 := by
  obtain ⟨v1, v2⟩ : (lit f64 60 : F64).isFin = true ∧ (lit f64 60 : F64).val = 60 := by decide +kernel
  obtain ⟨p, v, ⟨p', v', x, y', hp', rfl, hx, rfl, rfl⟩, rfl, hpm⟩ := hu
  obtain ⟨z1, z2, z3, j, hj, z4⟩ := hue_word ((h p' hp').rounds hx) hr (by norm_num at hη ⊢; linarith)
  generalize fmod x (lit f64 360) = z at *
  have hy' : ∃ b, y = mk f64 b (z.val / 60) := by
    cases hpm with
    | separate hx hy2 =>
      rw [hx, hy2] at hy
      rw [show y = _ from hy, div_fin z1 v1 (by rw [v2]; norm_num), v2]
      exact ⟨_, rfl⟩
    | kept hx hy2 _ =>
      obtain ⟨b, rfl⟩ := hy
      rw [hx.2, hy2.2, v2]; exact ⟨_, rfl⟩
    | fused neg hx hy2 _ =>
      rw [show y = _ from hy, hx.2, hy2.2, v2]; exact ⟨_, rfl⟩
  obtain ⟨b, rfl⟩ := hy'
  have hin : In (mk f64 b (z.val / 60)) 0 (6 - pow2 (-50)) := by
    refine mk_in (IsRep.zero _) (by decide +kernel) (by positivity) ?_
    have hp50 : pow2 (-50) = 1 / 1125899906842624 := by rw [pow2_eq]; norm_num
    have hp44 : pow2 (-44) = 1 / 17592186044416 := by rw [pow2_eq]; norm_num
    rw [hp44] at z3
    rw [hp50, div_le_iff₀ (by norm_num)]
    linarith
  refine ⟨hin.fin, hin.lo, by linarith [hin.hi, pow2_pos (-50)], j / 60, ?_, ?_⟩
  · rcases hj with rfl | rfl <;> norm_num
  have z2r : (0 : ℝ) ≤ z.val := by exact_mod_cast z2
  have z3r : (z.val : ℝ) ≤ 360 := by
    have : z.val ≤ 360 := by linarith [pow2_pos (-44)]
    exact_mod_cast this
  have ha : Ap (mk f64 b (z.val / 60)) ((z.val : ℝ) / 60) (0 + 6 * (12 / 10 ^ 17)) := by
    refine mk_ap (by push_cast; simp) ?_ (by norm_num) (by norm_num)
    rw [abs_of_nonneg (by positivity), add_zero, div_le_iff₀ (by norm_num)]; linarith
  have h1 := abs_le.mp ha.2
  have h2 := abs_le.mp z4
  unfold turn
  rw [abs_le]
  norm_num at hη h1 h2 ⊢
  constructor <;> linarith [h1.1, h1.2, h2.1, h2.2]

theorem dist2_shift (m : ℝ) (n : Int) : dist2 (m + 2 * n) = dist2 m := by
  unfold dist2
  rw [show (m + 2 * (n : ℝ)) / 2 = m / 2 + n by ring, round_add_intCast]
  push_cast
  congr 1; ring

theorem dist2_tri {m : ℝ} (h : 0 ≤ m ∧ m ≤ 2) : 1 - |m - 1| = dist2 m := by
  rcases le_total m 1 with h1 | h1
  · rw [dist2_even 0 (k := 0) (by norm_num) (by linarith) (by linarith), abs_of_nonpos (by linarith), abs_of_nonneg (by linarith)]
    ring
  · rw [dist2_even 1 (k := 2) (by norm_num) (by linarith) (by linarith), abs_of_nonneg (by linarith), abs_of_nonpos (by linarith)]
    ring

/-- the triangle wave -/
theorem wave_ap {a : Inter → Prop} {r η : ℝ} (h : SetAp a (600 - 330 * r) η) (hr : 0 ≤ r ∧ r ≤ 1) (hη : η ≤ 4 / 10 ^ 10) :
    SetAp (absolute (minus (remainder (over (remainder a (num 360)) (num 60)) (num 2)) (num 1))) (1 - dist2 (turn r)) (8 / 10 ^ 12) := by
  obtain ⟨v1, v2⟩ : (lit f64 2 : F64).isFin = true ∧ (lit f64 2 : F64).val = 2 := by decide +kernel
  rintro w ⟨u, hu, hw⟩
  obtain ⟨t, ⟨p, q, y, y2, hp, rfl, hy, rfl, rfl⟩, hu'⟩ := binary_left hu
  obtain ⟨y1, y2, y3, o, ho, y4⟩ := hue_rounds h hr hη hp hy
  have hk : ∃ k : Int, 0 ≤ k ∧ (k : ℚ) ≤ y.val / 2 ∧ y.val / 2 < k + 1 := by
    refine ⟨ratTrunc (y.val / 2), ?_, ratTrunc_nonneg_bounds (by positivity)⟩
    have h0 : 0 ≤ y.val / 2 := by positivity
    unfold ratTrunc; rw [if_pos h0]; exact Int.floor_nonneg.mpr h0
  obtain ⟨k, k0, k1, k2⟩ := hk
  have m1 : 0 ≤ (y.val : ℝ) - 2 * k := by
    have : 0 ≤ y.val - 2 * k := by linarith
    exact_mod_cast this
  have m2 : (y.val : ℝ) - 2 * k ≤ 2 := by
    have : y.val - 2 * k ≤ 2 := by linarith
    exact_mod_cast this
  have hz : Ap (fmod y (lit f64 2)) ((y.val : ℝ) - 2 * k) (0 + 3 * (12 / 10 ^ 17)) := by
    rw [fmod_eq y1 v1 (by rw [v2]; norm_num), v2, ratTrunc_of k0 k1 k2]
    refine mk_ap ?_ ?_ (by norm_num) (by norm_num)
    · push_cast
      rw [show (y.val : ℝ) - k * 2 - (y.val - 2 * k) = 0 by ring, abs_zero]
    · rw [abs_of_nonneg m1]; linarith
  have hs : SetAp (fun v => v = .word (fmod y (lit f64 2))) ((y.val : ℝ) - 2 * k) (0 + 3 * (12 / 10 ^ 17)) := by
    rintro _ rfl; exact hz
  have one := num_ap (q := 1) (by decide +kernel)
  have hm := minus_ap (M := 2) (t := 1 / 10 ^ 15) hs one (by
    push_cast
    have : |(y.val : ℝ) - 2 * k - 1| ≤ 1 := abs_le.mpr ⟨by linarith, by linarith⟩
    norm_num; linarith) (by norm_num) (by norm_num) (by norm_num)
  have ha := absolute_ap hm w ⟨u, hu', hw⟩
  push_cast at ha
  refine ha.shift (δ := 7 / 10 ^ 12) ?_ (by norm_num)
  have e := dist2_tri ⟨m1, m2⟩
  have e2 : dist2 ((y.val : ℝ) - 2 * k) = dist2 ((y.val : ℝ) + o) := by
    rcases ho with rfl | rfl
    · have := dist2_shift ((y.val : ℝ) - 2 * k) (k + 3)
      rw [← this]; congr 1; push_cast; ring
    · have := dist2_shift ((y.val : ℝ) - 2 * k) k
      rw [← this]; congr 1; ring
  rw [show |(y.val : ℝ) - 2 * k - 1| = 1 - dist2 ((y.val : ℝ) + o) by rw [← e2, ← e]; ring]
  rw [show 1 - dist2 ((y.val : ℝ) + o) - (1 - dist2 (turn r)) = -(dist2 ((y.val : ℝ) + o) - dist2 (turn r)) by ring, abs_neg]
  exact (dist2_lip _ _).trans y4

/-! ### the colour -/

theorem mix_range {T p : ℝ} (hp : 0 ≤ p ∧ p ≤ 1) (hT : 0 ≤ T ∧ T ≤ 1) : 0 ≤ mix T p ∧ mix T p ≤ 1 := by
  unfold mix lightness
  rcases abs_cases (2 * (1 / 4 + p / 2) - 1) with ⟨e, _⟩ | ⟨e, _⟩ <;> rw [e] <;> constructor <;> nlinarith

theorem chroma_range {r : ℝ} (hr : 0 ≤ r ∧ r ≤ 1) : 0 ≤ 1 - |2 * (1 / 2 * r + 1 / 4) - 1| ∧ 1 - |2 * (1 / 2 * r + 1 / 4) - 1| ≤ 1 := by
  have h1 := abs_nonneg (2 * (1 / 2 * r + 1 / 4) - 1)
  have h2 : |2 * (1 / 2 * r + 1 / 4) - 1| ≤ 1 := abs_le.mpr ⟨by linarith, by linarith⟩
  constructor <;> linarith

theorem bySector_ap (s : Int) {c x z : Inter → Prop} {C D ε : ℝ} (hc : SetAp c C ε) (hx : SetAp x (C * D) ε) (hz : SetAp z 0 ε) :
    SetAp (bySector s c x z).1 (C * (bySector s 1 D 0).1) ε ∧ SetAp (bySector s c x z).2.1 (C * (bySector s 1 D 0).2.1) ε ∧
    SetAp (bySector s c x z).2.2 (C * (bySector s 1 D 0).2.2) ε := by
  unfold bySector
  split_ifs <;> simp only [mul_one, mul_zero] <;> exact ⟨by assumption, by assumption, by assumption⟩

theorem bySector_range (s : Int) {D : ℝ} (hD : 0 ≤ D ∧ D ≤ 1) :
    (0 ≤ (bySector s 1 D 0).1 ∧ (bySector s 1 D 0).1 ≤ 1) ∧ (0 ≤ (bySector s 1 D 0).2.1 ∧ (bySector s 1 D 0).2.1 ≤ 1) ∧
    (0 ≤ (bySector s 1 D 0).2.2 ∧ (bySector s 1 D 0).2.2 ≤ 1) := by
  unfold bySector
  split_ifs <;> simp [hD.1, hD.2]

theorem dist2_range (u : ℝ) : 0 ≤ dist2 u ∧ dist2 u ≤ 1 := by
  refine ⟨abs_nonneg _, ?_⟩
  have := abs_sub_round (u / 2)
  unfold dist2
  rw [show u - 2 * (round (u / 2) : ℝ) = 2 * (u / 2 - round (u / 2)) by ring, abs_mul, abs_of_pos (by norm_num : (0 : ℝ) < 2)]
  linarith

theorem SetAp.mono {a : Inter → Prop} {r ε δ : ℝ} (h : SetAp a r ε) (hd : ε ≤ δ) : SetAp a r δ := by
  intro u hu
  exact (h u hu).shift (δ := 0) (by simp) (by linarith)

set_option maxHeartbeats 1000000 in
/-- every permitted colour at a position known up to 10^-12 -/
theorem heatColor_limited {p : Inter → Prop} {r : ℝ} (hr : 0 ≤ r ∧ r ≤ 1) (hP : SetAp (limited p) r (1 / 10 ^ 12)) {I : Vis.Impl}
    {col : Vis.RGBA} (h : permittedHeatColor I p col) : IsHeat col r := by
  unfold permittedHeatColor at h
  simp only at h
  generalize limited p = P at h hP
  -- hue
  have n360 := num_ap (q := 360) (by decide +kernel)
  have n330 := num_ap (q := 330) (by decide +kernel)
  have n240 := num_ap (q := 240) (by decide +kernel)
  have n255 := num_ap (q := 255) (by decide +kernel)
  have n2 := num_ap (q := 2) (by decide +kernel)
  have n1 := num_ap (q := 1) (by decide +kernel)
  have nh := num_ap (q := 1 / 2) (by decide +kernel)
  have nq := num_ap (q := 1 / 4) (by decide +kernel)
  have n0 := num_ap (q := 0) (by decide +kernel)
  push_cast at n360 n330 n240 n255 n2 n1 nh nq n0
  have r0 := hr.1
  have r1 := hr.2
  have hrr : |r| ≤ 1 := abs_le.mpr ⟨by linarith, r1⟩
  have a1 := times_ap (B := 330) (C := 1) (e := 330 / 10 ^ 12) (t := 331 / 10 ^ 12) n330 hP (by norm_num) hrr (by norm_num) (by norm_num)
    (by norm_num) (by norm_num)
  have a2 := minus_ap (M := 361) (t := 332 / 10 ^ 12) n360 a1 (by
    rw [abs_of_nonneg (by linarith)]; norm_num; linarith) (by norm_num) (by norm_num) (by norm_num)
  have a3 := plus_ap (M := 601) (t := 333 / 10 ^ 12) a2 n240 (by
    rw [abs_of_nonneg (by linarith)]; norm_num; linarith) (by norm_num) (by norm_num) (by norm_num)
  rw [show 360 - 330 * r + 240 = 600 - 330 * r by ring] at a3
  have hwave := wave_ap a3 hr (by norm_num)
  obtain ⟨u, y, hu, hy, h⟩ := h
  obtain ⟨y1, y2, y3, w, hw, y4⟩ := hue_rounds a3 hr (by norm_num) hu hy
  rw [if_neg (isFin_ne_nan y1)] at h
  have hs : ∃ s : Int, toInt I.int y = s ∧ (s : ℝ) ≤ y.val ∧ (y.val : ℝ) < s + 1 := by
    obtain ⟨k1, k2⟩ := ratTrunc_nonneg_bounds y2
    refine ⟨ratTrunc y.val, ?_, by exact_mod_cast k1, by exact_mod_cast k2⟩
    unfold toInt
    rw [if_pos y1, if_pos]
    have a : (ratTrunc y.val : ℚ) < 6 := by linarith
    have b : (-1 : ℚ) < ratTrunc y.val := by linarith
    have a' : ratTrunc y.val < 6 := by exact_mod_cast a
    have b' : -1 < ratTrunc y.val := by exact_mod_cast b
    constructor <;> omega
  obtain ⟨s, hs, s1, s2⟩ := hs
  rw [hs] at h
  clear hu hs
  generalize remainder (over (remainder (plus (minus (num 360) (times (num 330) P)) (num 240)) (num 360)) (num 60)) (num 2) = R at h hwave
  -- lightness and chroma
  have b1 := times_ap (B := 1 / 2) (C := 1) (e := 5 / 10 ^ 13) (t := 6 / 10 ^ 13) nh hP (by norm_num) hrr (by norm_num) (by norm_num)
    (by norm_num) (by norm_num)
  have b2 := plus_ap (M := 1) (t := 7 / 10 ^ 13) b1 nq (by
    rw [abs_of_nonneg (by linarith)]; norm_num; linarith) (by norm_num) (by norm_num) (by norm_num)
  generalize plus (times (num (1 / 2)) P) (num (1 / 4)) = l at h b2
  have c1 := times_ap (B := 2) (C := 1) (e := 14 / 10 ^ 13) (t := 15 / 10 ^ 13) n2 b2 (by norm_num)
    (abs_le.mpr ⟨by linarith, by linarith⟩) (by norm_num) (by norm_num) (by norm_num) (by norm_num)
  have c2 := minus_ap (M := 2) (t := 16 / 10 ^ 13) c1 n1 (by
    have : |2 * (1 / 2 * r + 1 / 4) - 1| ≤ 1 := abs_le.mpr ⟨by linarith, by linarith⟩
    norm_num at this ⊢; linarith) (by norm_num) (by norm_num) (by norm_num)
  have c3 := absolute_ap c2
  obtain ⟨q1, q2⟩ := chroma_range hr
  have c4 := minus_ap (M := 2) (t := 17 / 10 ^ 13) n1 c3 (by
    rw [abs_of_nonneg q1]; linarith [(by norm_num : (0 + 16 / 10 ^ 13 : ℝ) ≤ 1)]) (by norm_num) (by norm_num) (by norm_num)
  have c5 := times_ap (B := 1) (C := 1) (e := 17 / 10 ^ 13) (t := 18 / 10 ^ 13) c4 n1 (abs_le.mpr ⟨by linarith, q2⟩) (by norm_num)
    (by norm_num) (by norm_num) (by norm_num) (by norm_num)
  rw [mul_one] at c5
  generalize times (minus (num 1) (absolute (minus (times (num 2) l) (num 1)))) (num 1) = c at h c5
  have hCC : 1 - |2 * (1 / 2 * r + 1 / 4) - 1| = 1 - |2 * lightness r - 1| := by
    unfold lightness; congr 2; ring
  have hLL : 1 / 2 * r + 1 / 4 = lightness r := by unfold lightness; ring
  rw [hLL] at b2
  rw [hCC] at c5 q1 q2
  generalize hC : 1 - |2 * lightness r - 1| = C at c5 q1 q2
  have hL : 0 ≤ lightness r ∧ lightness r ≤ 1 := by unfold lightness; constructor <;> linarith
  obtain ⟨e1, e2⟩ := dist2_range (turn r)
  -- second component
  have d1 := minus_ap (M := 2) (t := 9 / 10 ^ 12) n1 hwave (by
    rw [sub_sub_cancel, abs_of_nonneg e1]; norm_num; linarith) (by norm_num) (by norm_num) (by norm_num)
  rw [sub_sub_cancel] at d1
  have d2 := times_ap (B := 1) (C := 1) (e := 11 / 10 ^ 12) (t := 12 / 10 ^ 12) c5 d1 (abs_le.mpr ⟨by linarith, q2⟩)
    (abs_le.mpr ⟨by linarith, e2⟩) (by norm_num) (by norm_num) (by norm_num) (by norm_num)
  generalize times c (minus (num 1) (absolute (minus R (num 1)))) = x at h d2
  -- base
  have m1 := over_ap (m := 2) (q := 1) (e := 9 / 10 ^ 13) (t := 1 / 10 ^ 12) c5 n2 (by norm_num) (by norm_num) (by
    rw [abs_of_nonneg q1]; norm_num; linarith) (by norm_num) (by norm_num) (by norm_num) (by norm_num)
  have m2 := minus_ap (M := 2) (t := 2 / 10 ^ 12) b2 m1 (by
    have : |lightness r - C / 2| ≤ 1 := abs_le.mpr ⟨by linarith, by linarith⟩
    linarith [(by norm_num : (7 / 10 ^ 13 + 1 / 10 ^ 12 : ℝ) ≤ 1)]) (by norm_num) (by norm_num) (by norm_num)
  generalize minus l (over c (num 2)) = m at h m2
  obtain ⟨k1, k2, k3⟩ := bySector_ap s (c5.mono (by norm_num : (18 / 10 ^ 13 : ℝ) ≤ 12 / 10 ^ 12)) d2 (n0.mono (by norm_num))
  obtain ⟨g1, g2, g3⟩ := bySector_range s ⟨e1, e2⟩
  have hU : 9 / 2 ≤ turn r ∧ turn r ≤ 10 := by unfold turn; constructor <;> linarith
  obtain ⟨f1, f2, f3⟩ := sector_approx hU ⟨by exact_mod_cast y2, by exact_mod_cast y3⟩ hw y4 (by norm_num) s1 s2
  generalize bySector s c x (num 0) = K at h k1 k2 k3
  generalize bySector s 1 (dist2 (turn r)) 0 = t at k1 k2 k3 g1 g2 g3 f1 f2 f3
  have chan : ∀ {k : Inter → Prop} {T S : ℝ} {b : UInt8}, SetAp k (C * T) (12 / 10 ^ 12) → (0 ≤ T ∧ T ≤ 1) → (0 ≤ S ∧ S ≤ 1) →
      |T - S| ≤ 2 * (7 / 10 ^ 12) → toByte I (times (num 255) (plus k m)) b → Brightness b (mix S r) := by
    intro k T S b hk hT hS hTS hb
    have i1 : 0 ≤ C * T := mul_nonneg q1 hT.1
    have i2 : C * T ≤ 1 := mul_le_one₀ q2 hT.1 hT.2
    have hsum : |C * T + (lightness r - C / 2)| ≤ 2 := abs_le.mpr ⟨by linarith, by linarith⟩
    have j1 := plus_ap (M := 3) (t := 15 / 10 ^ 12) hk m2 (by norm_num; linarith) (by norm_num) (by norm_num) (by norm_num)
    have j2 := times_ap (B := 255) (C := 2) (e := 3825 / 10 ^ 12) (t := 3826 / 10 ^ 12) n255 j1 (by norm_num) hsum (by norm_num)
      (by norm_num) (by norm_num) (by norm_num)
    refine toByte_of j2 hb (mix_range hr hS) ?_
    unfold mix
    rw [hC, show 255 * (C * T + (lightness r - C / 2)) - 255 * (lightness r + C * (S - 1 / 2)) = 255 * (C * (T - S)) by ring, abs_mul,
      abs_mul, abs_of_nonneg q1, abs_of_pos (by norm_num : (0 : ℝ) < 255)]
    have : C * |T - S| ≤ 2 * (7 / 10 ^ 12) := (mul_le_of_le_one_left (abs_nonneg _) q2).trans hTS
    norm_num at this ⊢
    linarith
  obtain ⟨h1, h2, h3, h4⟩ := h
  have bmax : ∀ a b : ℝ, 0 ≤ max (clampAt a) (clampAt b) ∧ max (clampAt a) (clampAt b) ≤ 1 := fun a b =>
    ⟨(clampAt_range _).1.trans (le_max_left _ _), max_le (clampAt_range _).2 (clampAt_range _).2⟩
  refine ⟨?_, ?_, ?_, h4⟩
  · unfold hsl
    rw [red_eq hr]
    exact chan k1 g1 (clampAt_range _) f1 h1
  · unfold hsl
    rw [green_eq hr]
    exact chan k2 g2 (clampAt_range _) f2 h2
  · unfold hsl
    rw [blue_eq hr]
    exact chan k3 g3 (bmax _ _) f3 h3

/-- a position beyond the end of the gradient -/
theorem limited_high {a : Inter → Prop} {R ε K : ℝ} (h : SetAp a R ε) (hR : 1 ≤ R) (hε : ε ≤ K * R) (hK : K ≤ 1 / 10 ^ 6) :
    SetAp (limited a) 1 (K + 1 / 10 ^ 14) := by
  obtain ⟨o1, o2⟩ := Fl.one_fin
  rintro w (⟨rfl, u, x, hu, hx, hl⟩ | ⟨hw, x, hx, hl⟩)
  · have he := (h u hu).nonneg
    have hK0 : 0 ≤ K := by
      by_contra hc
      have := mul_neg_of_neg_of_pos (not_le.mp hc) (by linarith : 0 < R)
      linarith
    refine ⟨o1, ?_⟩
    rw [o2]; push_cast; rw [sub_self, abs_zero]
    linarith [(by norm_num : (0 : ℝ) < 1 / 10 ^ 14)]
  · have hu := h w hw
    have he := hu.nonneg
    have hK0 : 0 ≤ K := by
      by_contra hc
      have := mul_neg_of_neg_of_pos (not_le.mp hc) (by linarith : 0 < R)
      linarith
    have hxa := hu.rounds hx
    rw [Fl.lt_fin o1 hxa.1, o2, decide_eq_false_iff_not, _root_.not_lt] at hl
    have hl' : (x.val : ℝ) ≤ 1 := by exact_mod_cast hl
    have hb := abs_le.mp hxa.2
    have hlow : 1 - K ≤ R - ε := by nlinarith
    have hKR : K * R ≤ 1 / 10 ^ 6 * R := mul_le_mul_of_nonneg_right hK (by linarith)
    have hR2 : R ≤ 3 / 2 := by norm_num at hKR; linarith
    have he2 : ε ≤ 1 / 10 := by norm_num at hKR; linarith
    cases w with
    | word y =>
      rw [show x = y from hx] at hl' hb hxa
      refine ⟨hxa.1, ?_⟩
      rw [abs_le]
      constructor <;> linarith [(by norm_num : (0 : ℝ) < 1 / 10 ^ 14)]
    | exact q =>
      obtain ⟨b, rfl⟩ := hx
      have hq := abs_le.mp hu.1
      have hm := (mk_ap (b := b) (q := q) (r := q) (ε := 0) (M := 2) (by simp) (by
        rw [abs_of_nonneg (by linarith)]; linarith) (by norm_num) (by norm_num)).2
      have hm' := abs_le.mp hm
      have hq1 : |(q : ℝ) - 1| ≤ K + 1 / 10 ^ 15 := by
        rw [abs_le]
        norm_num at hm' ⊢
        constructor <;> linarith [hm'.1]
      refine ⟨hq1.trans (by norm_num), fun n => ?_⟩
      refine (mk_ap (b := n) (M := 2) hq1 (by norm_num; norm_num at hK; linarith) (by norm_num) (by norm_num)).mono ?_
      norm_num; linarith

theorem heatColor_permitted {p : Inter → Prop} {r : ℝ} (hr : 0 ≤ r ∧ r ≤ 1) (hp : SetAp p r (1 / 10 ^ 12)) {I : Vis.Impl} {col : Vis.RGBA}
    (h : permittedHeatColor I p col) : IsHeat col r := heatColor_limited hr (limited_ap hr.2 hp) h

end Radolan.Fusion
