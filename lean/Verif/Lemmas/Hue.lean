/-
The heat map's colour at a float position, compared with exact arithmetic.
-/
import Verif.Lemmas.Heat
import Verif.Lemmas.FloatReal
import Verif.Spec.Hue

namespace Go.Fl
open Go

/-- strength of a primary colour at the hue `k`; hues in sixths of the circle, unwrapped -/
def tri (u k : ℚ) : ℚ := max 0 (min 1 (2 - |u - k|))

theorem tri_one {u k : ℚ} (h1 : u - k ≤ 1) (h2 : k - u ≤ 1) : tri u k = 1 := by
  unfold tri
  have : |u - k| ≤ 1 := abs_le.mpr ⟨by linarith, h1⟩
  rw [min_eq_left (by linarith), max_eq_right (by norm_num)]

theorem tri_zero {u k : ℚ} (h : 2 ≤ u - k ∨ 2 ≤ k - u) : tri u k = 0 := by
  unfold tri
  have : 2 ≤ |u - k| := by
    rcases h with h | h
    · exact h.trans (le_abs_self _)
    · rw [abs_sub_comm]; exact h.trans (le_abs_self _)
  rw [min_eq_right (by linarith), max_eq_left (by linarith)]

theorem tri_pos {u k : ℚ} (h1 : 1 ≤ u - k) (h2 : u - k ≤ 2) : tri u k = 2 - (u - k) := by
  unfold tri
  rw [abs_of_nonneg (by linarith), min_eq_right (by linarith), max_eq_right (by linarith)]

theorem tri_neg {u k : ℚ} (h1 : 1 ≤ k - u) (h2 : k - u ≤ 2) : tri u k = 2 - (k - u) := by
  unfold tri
  rw [abs_sub_comm, abs_of_nonneg (by linarith), min_eq_right (by linarith), max_eq_right (by linarith)]

theorem tri_range (u k : ℚ) : 0 ≤ tri u k ∧ tri u k ≤ 1 :=
  ⟨le_max_left _ _, max_le (by norm_num) (min_le_left _ _)⟩

theorem tri_lip (u w k : ℚ) : |tri u k - tri w k| ≤ |u - w| := by
  unfold tri
  refine (abs_max_sub_max_le_max _ _ _ _).trans (max_le (by simp) ?_)
  refine (abs_min_sub_min_le_max _ _ _ _).trans (max_le (by simp) ?_)
  have : 2 - |u - k| - (2 - |w - k|) = |w - k| - |u - k| := by ring
  rw [this]
  refine (abs_abs_sub_abs_le _ _).trans ?_
  rw [show w - k - (u - k) = -(u - w) by ring, abs_neg]

/-- the three channels -/
def red (u : ℚ) : ℚ := tri u 6
def green (u : ℚ) : ℚ := tri u 8
def blue (u : ℚ) : ℚ := max (tri u 4) (tri u 10)

theorem blue_lip (u w : ℚ) : |blue u - blue w| ≤ |u - w| :=
  (abs_max_sub_max_le_max _ _ _ _).trans (max_le (tri_lip _ _ _) (tri_lip _ _ _))

/-- the code's choice of channels by sector -/
theorem sector_near {hh c x : F64} {w t : ℚ} (h : 0 ≤ hh.val ∧ hh.val ≤ 4 ∧ w = 6 ∨ 9 / 2 ≤ hh.val ∧ hh.val < 6 ∧ w = 0)
    (hx : |x.val - c.val * (1 - |hh.val - 2 * ratTrunc (hh.val / 2) - 1|)| ≤ t) :
    let k := Radolan.Vis.sector (ratTrunc hh.val) c x
    |k.1.val - c.val * red (hh.val + w)| ≤ t ∧ |k.2.1.val - c.val * green (hh.val + w)| ≤ t ∧
    |k.2.2.val - c.val * blue (hh.val + w)| ≤ t := by
  have ht : 0 ≤ t := (abs_nonneg _).trans hx
  have z : (lit f64 0 : F64).val = 0 := lit_val (by decide +kernel)
  have h0 : 0 ≤ hh.val := by rcases h with h | h <;> linarith [h.1]
  have h6 : hh.val < 6 := by rcases h with h | h <;> linarith [h.2.1]
  generalize hh.val = H at *
  have hs : ∃ s : Int, (s = 0 ∨ s = 1 ∨ s = 2 ∨ s = 3 ∨ s = 4 ∨ s = 5) ∧ (s : ℚ) ≤ H ∧ H < s + 1 := by
    obtain ⟨k1, k2⟩ := ratTrunc_nonneg_bounds h0
    refine ⟨ratTrunc H, ?_, k1, k2⟩
    have a : (ratTrunc H : ℚ) < 6 := by linarith
    have b : (-1 : ℚ) < ratTrunc H := by linarith
    have a' : ratTrunc H < 6 := by exact_mod_cast a
    have b' : -1 < ratTrunc H := by exact_mod_cast b
    omega
  obtain ⟨s, hs, s1, s2⟩ := hs
  have e0 : ratTrunc H = s := ratTrunc_of (by omega) s1 s2
  intro k
  have hz : ∀ q : ℚ, q = 0 → |(lit f64 0 : F64).val - c.val * q| ≤ t := by rintro _ rfl; rw [z]; simpa using ht
  have hc : ∀ q : ℚ, q = 1 → |c.val - c.val * q| ≤ t := by rintro _ rfl; simpa using ht
  have hw : H ≤ 4 ∧ w = 6 ∨ 9 / 2 ≤ H ∧ w = 0 := by
    rcases h with h | h
    · exact Or.inl ⟨h.2.1, h.2.2⟩
    · exact Or.inr ⟨h.1, h.2.2⟩
  have hxx : ∀ (m : Int) (v q : ℚ), 0 ≤ m → (m : ℚ) ≤ H / 2 → H / 2 < m + 1 → 1 - |H - 2 * m - 1| = v → q = v →
      |x.val - c.val * q| ≤ t := by
    intro m v q h1 h2 h3 h4 h5
    rw [ratTrunc_of h1 h2 h3, h4, ← h5] at hx; exact hx
  have hup : ∀ m : Int, 1 ≤ H - 2 * m → 1 - |H - 2 * m - 1| = 2 - (H - 2 * m) := by
    intro m hm; rw [abs_of_nonneg (by linarith)]; ring
  have hdn : ∀ m : Int, H - 2 * m ≤ 1 → 1 - |H - 2 * m - 1| = H - 2 * m := by
    intro m hm; rw [abs_of_nonpos (by linarith)]; ring
  rcases hs with rfl | rfl | rfl | rfl | rfl | rfl <;> norm_num at s1 s2 <;>
    (have hk : k = Radolan.Vis.sector _ c x := rfl
     rw [e0] at hk
     simp only [Radolan.Vis.sector] at hk
     norm_num at hk
     rw [hk])
  all_goals unfold red green blue
  · obtain ⟨_, rfl⟩ : H ≤ 4 ∧ w = 6 := by rcases hw with h | h; exact h; linarith [h.1]
    exact ⟨hc _ (tri_one (by linarith) (by linarith)),
      hxx 0 _ _ (by norm_num) (by norm_num; linarith) (by norm_num; linarith) (hdn 0 (by norm_num; linarith)) (by rw [tri_neg (by linarith) (by linarith)]; push_cast; ring),
      hz _ (by rw [tri_zero (Or.inl (by linarith)), tri_zero (Or.inr (by linarith))]; simp)⟩
  · obtain ⟨_, rfl⟩ : H ≤ 4 ∧ w = 6 := by rcases hw with h | h; exact h; linarith [h.1]
    exact ⟨hxx 0 _ _ (by norm_num) (by norm_num; linarith) (by norm_num; linarith) (hup 0 (by norm_num; linarith)) (by rw [tri_pos (by linarith) (by linarith)]; push_cast; ring),
      hc _ (tri_one (by linarith) (by linarith)),
      hz _ (by rw [tri_zero (Or.inl (by linarith)), tri_zero (Or.inr (by linarith))]; simp)⟩
  · obtain ⟨_, rfl⟩ : H ≤ 4 ∧ w = 6 := by rcases hw with h | h; exact h; linarith [h.1]
    exact ⟨hz _ (tri_zero (Or.inl (by linarith))),
      hc _ (tri_one (by linarith) (by linarith)),
      hxx 1 _ _ (by norm_num) (by norm_num; linarith) (by norm_num; linarith) (hdn 1 (by norm_num; linarith)) (by rw [tri_zero (Or.inl (by linarith)), tri_neg (by linarith) (by linarith)]; rw [max_eq_right (by linarith)]; push_cast; ring)⟩
  · obtain ⟨_, rfl⟩ : H ≤ 4 ∧ w = 6 := by rcases hw with h | h; exact h; linarith [h.1]
    exact ⟨hz _ (tri_zero (Or.inl (by linarith))),
      hxx 1 _ _ (by norm_num) (by norm_num; linarith) (by norm_num; linarith) (hup 1 (by norm_num; linarith)) (by rw [tri_pos (by linarith) (by linarith)]; push_cast; ring),
      hc _ (by rw [tri_zero (Or.inl (by linarith)), tri_one (by linarith) (by linarith)]; simp)⟩
  · rcases hw with ⟨h4, rfl⟩ | ⟨h4, rfl⟩
    · have hH : H = 4 := by linarith
      subst hH
      exact ⟨hxx 2 _ _ (by norm_num) (by norm_num) (by norm_num) (hdn 2 (by norm_num)) (by rw [tri_zero (Or.inl (by norm_num))]; norm_num),
        hz _ (tri_zero (Or.inl (by norm_num))),
        hc _ (by rw [tri_zero (Or.inl (by norm_num)), tri_one (by norm_num) (by norm_num)]; norm_num)⟩
    · exact ⟨hxx 2 _ _ (by norm_num) (by norm_num; linarith) (by norm_num; linarith) (hdn 2 (by norm_num; linarith)) (by rw [tri_neg (by linarith) (by linarith)]; push_cast; ring),
      hz _ (tri_zero (Or.inr (by linarith))),
      hc _ (by rw [tri_one (by linarith) (by linarith), tri_zero (Or.inr (by linarith))]; simp)⟩
  · obtain ⟨_, rfl⟩ : 9 / 2 ≤ H ∧ w = 0 := by rcases hw with h | h; linarith [h.1]; exact h
    exact ⟨hc _ (tri_one (by linarith) (by linarith)),
      hz _ (tri_zero (Or.inr (by linarith))),
      hxx 2 _ _ (by norm_num) (by norm_num; linarith) (by norm_num; linarith) (hup 2 (by norm_num; linarith)) (by rw [tri_pos (by linarith) (by linarith), tri_zero (Or.inr (by linarith))]; rw [max_eq_left (by linarith)]; push_cast; ring)⟩

/-- the ingredients of a gradient colour, compared with exact arithmetic -/
theorem parts_near {p : F64} (hp : In p 0 1) :
    let n := fun q : ℚ => lit f64 q
    let h := fmod (add (sub (n 360) (mul (n 330) p)) (n 240)) (n 360)
    let l := add (mul (n (1 / 2)) p) (n (1 / 4))
    let c := mul (sub (n 1) (abs (sub (mul (n 2) l) (n 1)))) (n 1)
    let hh := div h (n 60)
    let x := mul c (sub (n 1) (abs (sub (fmod hh (n 2)) (n 1))))
    let m := sub l (div c (n 2))
    let L := 1 / 4 + p.val / 2
    let C := 1 - |2 * L - 1|
    (∃ w, (0 ≤ hh.val ∧ hh.val ≤ 4 ∧ w = 6 ∨ 9 / 2 ≤ hh.val ∧ hh.val < 6 ∧ w = 0) ∧
      |hh.val + w - (10 - 11 / 2 * p.val)| ≤ 10 * ε) ∧
    |x.val - c.val * (1 - |hh.val - 2 * ratTrunc (hh.val / 2) - 1|)| ≤ 10 * ε ∧
    |c.val - C| ≤ 10 * ε ∧ |m.val - (L - C / 2)| ≤ 20 * ε := by
  intro n h l c hh x m L C
  have r (q : ℚ) (hq : IsRep f64 q) : In (n q) q q := lit_in hq
  have h360 := r 360 (by decide +kernel)
  have h330 := r 330 (by decide +kernel)
  have h240 := r 240 (by decide +kernel)
  have h60 := r 60 (by decide +kernel)
  have h2 := r 2 (by decide +kernel)
  have h1 := r 1 (by decide +kernel)
  have hhalf := r (1 / 2) (by decide +kernel)
  have hq := r (1 / 4) (by decide +kernel)
  have v360 : (n 360).val = 360 := lit_val (by decide +kernel)
  have v330 : (n 330).val = 330 := lit_val (by decide +kernel)
  have v240 : (n 240).val = 240 := lit_val (by decide +kernel)
  have v60 : (n 60).val = 60 := lit_val (by decide +kernel)
  have v2 : (n 2).val = 2 := lit_val (by decide +kernel)
  have v1 : (n 1).val = 1 := lit_val (by decide +kernel)
  have vh : (n (1 / 2)).val = 1 / 2 := lit_val (by decide +kernel)
  have vq : (n (1 / 4)).val = 1 / 4 := lit_val (by decide +kernel)
  have p0 := hp.lo
  have p1 := hp.hi
  -- hue
  have a1 : In (mul (n 330) p) 0 330 := by
    rw [mul_fin h330.fin hp.fin, v330]
    exact mk_in (by decide +kernel) (by decide +kernel) (by linarith) (by linarith)
  have a2 : In (sub (n 360) (mul (n 330) p)) 30 360 := by
    rw [sub_fin h360.fin a1.fin, v360]
    exact mk_in (by decide +kernel) (by decide +kernel) (by linarith [a1.hi]) (by linarith [a1.lo])
  have a3 : In (add (sub (n 360) (mul (n 330) p)) (n 240)) 270 600 := by
    rw [add_fin a2.fin h240.fin, v240]
    exact mk_in (by decide +kernel) (by decide +kernel) (by linarith [a2.lo]) (by linarith [a2.hi])
  have a4 : In h 0 (360 - pow2 (-44)) := hue_in a3 h360
  have a5 : In hh 0 (6 - pow2 (-50)) := by
    show In (div h (n 60)) _ _
    rw [div_fin a4.fin h60.fin (by rw [v60]; norm_num), v60]
    refine mk_in (IsRep.zero _) (by decide +kernel) (by have := a4.lo; positivity) ?_
    have := a4.hi
    rw [pow2_44] at this
    have hp50 : pow2 (-50) = 1 / 1125899906842624 := by rw [pow2_eq]; norm_num
    rw [hp50, div_le_iff₀ (by norm_num)]
    linarith
  -- lightness
  have b1 : In (mul (n (1 / 2)) p) 0 (1 / 2) := by
    rw [mul_fin hhalf.fin hp.fin, vh]
    exact mk_in (by decide +kernel) (by decide +kernel) (by linarith) (by linarith)
  have b2 : In l (1 / 4) (3 / 4) := by
    show In (add _ _) _ _
    rw [add_fin b1.fin hq.fin, vq]
    exact mk_in (by decide +kernel) (by decide +kernel) (by linarith [b1.lo]) (by linarith [b1.hi])
  -- chroma
  have c1 : In (mul (n 2) l) (1 / 2) (3 / 2) := by
    rw [mul_fin h2.fin b2.fin, v2]
    exact mk_in (by decide +kernel) (by decide +kernel) (by linarith [b2.lo]) (by linarith [b2.hi])
  have c1n : Near (mul (n 2) l) (2 * l.val) := by
    have := mul_near h2.fin b2.fin (by rw [v2, abs_of_nonneg (by linarith [b2.lo])]; linarith [b2.hi])
    rwa [v2] at this
  have c2 : In (sub (mul (n 2) l) (n 1)) (-(1 / 2)) (1 / 2) := by
    rw [sub_fin c1.fin h1.fin, v1]
    exact mk_in (by decide +kernel) (by decide +kernel) (by linarith [c1.lo]) (by linarith [c1.hi])
  have c2n : Near (sub (mul (n 2) l) (n 1)) ((mul (n 2) l).val - 1) := by
    have := sub_near c1.fin h1.fin (by rw [v1, abs_le]; constructor <;> linarith [c1.lo, c1.hi])
    rwa [v1] at this
  have c3 := abs_in c2
  have c4 : In (sub (n 1) (abs (sub (mul (n 2) l) (n 1)))) (1 / 2) 1 := by
    rw [sub_fin h1.fin c3.fin, v1]
    exact mk_in (by decide +kernel) (by decide +kernel) (by linarith [c3.hi]) (by linarith [c3.lo])
  have c4n : Near (sub (n 1) (abs (sub (mul (n 2) l) (n 1)))) (1 - |(sub (mul (n 2) l) (n 1)).val|) := by
    have := sub_near h1.fin c3.fin (by
      rw [v1, abs_le]; constructor <;> linarith [c3.lo, c3.hi])
    rwa [v1, abs_val] at this
  have c5v : c.isFin = true ∧ c.val = (sub (n 1) (abs (sub (mul (n 2) l) (n 1)))).val := by
    show (mul _ _).isFin = true ∧ (mul _ _).val = _
    rw [mul_fin c4.fin h1.fin, v1, mul_one]
    have hb : |rnd f64 (sub (n 1) (abs (sub (mul (n 2) l) (n 1)))).val| < pow2 f64.emax := by
      rw [rnd_val]; exact (val_repr _).2
    obtain ⟨k1, k2⟩ := mk_fin (b := xor (sub (n 1) (abs (sub (mul (n 2) l) (n 1)))).sign (n 1).sign) hb
    exact ⟨k1, by rw [k2, rnd_val]⟩
  have c5 : In c (1 / 2) 1 := ⟨c5v.1, by rw [c5v.2]; exact c4.lo, by rw [c5v.2]; exact c4.hi⟩
  -- x
  have hcr : IsRep f64 c.val := val_repr _
  have d0 : In (fmod hh (n 2)) 0 2 := by
    rw [fmod_eq a5.fin h2.fin (by rw [v2]; norm_num), v2]
    have hnn : 0 ≤ hh.val / 2 := by have := a5.lo; positivity
    obtain ⟨k1, k2⟩ := ratTrunc_nonneg_bounds hnn
    exact mk_in (IsRep.zero _) (by decide +kernel) (by linarith) (by linarith)
  have d1 : In (sub (fmod hh (n 2)) (n 1)) (-1) 1 := by
    rw [sub_fin d0.fin h1.fin, v1]
    exact mk_in (by decide +kernel) (by decide +kernel) (by linarith [d0.lo]) (by linarith [d0.hi])
  have d2 := abs_in d1
  have d3 : In (sub (n 1) (abs (sub (fmod hh (n 2)) (n 1)))) 0 1 := by
    rw [sub_fin h1.fin d2.fin, v1]
    exact mk_in (by decide +kernel) (by decide +kernel) (by linarith [d2.hi]) (by linarith [d2.lo])
  have d4 : In x 0 c.val := by
    show In (mul _ _) _ _
    rw [mul_fin c5.fin d3.fin]
    have hc0 : 0 ≤ c.val := by linarith [c5.lo]
    exact mk_in (IsRep.zero _) hcr (mul_nonneg hc0 d3.lo) (mul_le_of_le_one_right hc0 d3.hi)
  -- m
  have e1 : In (div c (n 2)) (1 / 4) (1 / 2) := by
    rw [div_fin c5.fin h2.fin (by rw [v2]; norm_num), v2]
    exact mk_in (by decide +kernel) (by decide +kernel) (by linarith [c5.lo]) (by linarith [c5.hi])
  have e1n : Near (div c (n 2)) (c.val / 2) := by
    have := div_near c5.fin h2.fin (by rw [v2]; norm_num)
      (by rw [v2, abs_le]; constructor <;> linarith [c5.lo, c5.hi])
    rwa [v2] at this
  have e2n : Near (sub l (div c (n 2))) (l.val - (div c (n 2)).val) :=
    sub_near b2.fin e1.fin (by rw [abs_le]; constructor <;> linarith [b2.lo, b2.hi, e1.lo, e1.hi])
  have eε : 0 < ε := pow2_pos _
  have n1 := mul_near h330.fin hp.fin (by rw [v330, abs_of_nonneg (by linarith)]; linarith)
  have n2 := sub_near h360.fin a1.fin (by rw [v360, abs_of_nonneg (by linarith [a1.hi])]; linarith [a1.lo])
  have n3 := add_near a2.fin h240.fin (by rw [v240, abs_of_nonneg (by linarith [a2.lo])]; linarith [a2.hi])
  have n5 := div_near a4.fin h60.fin (by rw [v60]; norm_num) (by
    rw [v60, abs_of_nonneg (by have := a4.lo; positivity), div_le_iff₀ (by norm_num)]; linarith [a4.hi, pow2_pos (-44)])
  have m1 := abs_le.mp n1.2
  have m2 := abs_le.mp n2.2
  have m3 := abs_le.mp n3.2
  have m5 := abs_le.mp n5.2
  rw [v330] at m1
  rw [v360] at m2
  rw [v240] at m3
  rw [v60] at m5
  refine ⟨?_, ?_, ?_, ?_⟩
  · have hfm : h = mk f64 (add (sub (n 360) (mul (n 330) p)) (n 240)).sign
        ((add (sub (n 360) (mul (n 330) p)) (n 240)).val -
          (ratTrunc ((add (sub (n 360) (mul (n 330) p)) (n 240)).val / 360) : ℚ) * 360) := by
      show fmod _ _ = _
      rw [fmod_eq a3.fin h360.fin (by rw [v360]; norm_num), v360]
    generalize (add (sub (n 360) (mul (n 330) p)) (n 240)).sign = sg at hfm
    have ha5 : hh = mk f64 (h.sign ^^ (n 60).sign) (h.val / 60) := by
      show div h (n 60) = _
      rw [div_fin a4.fin h60.fin (by rw [v60]; norm_num), v60]
    by_cases hlt : (add (sub (n 360) (mul (n 330) p)) (n 240)).val < 360
    · rw [ratTrunc_of (n := 0) (by omega) (by push_cast; apply div_nonneg <;> linarith [a3.lo])
        (by push_cast; rw [div_lt_iff₀ (by norm_num)]; linarith)] at hfm
      have hn : Near h ((add (sub (n 360) (mul (n 330) p)) (n 240)).val - ((0 : Int) : ℚ) * 360) := by
        rw [hfm]; exact mk_near (by push_cast; rw [abs_of_nonneg (by linarith [a3.lo])]; linarith)
      have hin : 270 ≤ h.val := by
        have : In h 270 360 := by
          rw [hfm]
          exact mk_in (by decide +kernel) (by decide +kernel) (by push_cast; linarith [a3.lo]) (by push_cast; linarith)
        exact this.lo
      have hn := abs_le.mp hn.2
      push_cast at hn
      refine ⟨0, Or.inr ⟨?_, by linarith [a5.hi, pow2_pos (-50)], rfl⟩, ?_⟩
      · have : In hh (9 / 2) 6 := by
          rw [ha5]
          exact mk_in (by decide +kernel) (by decide +kernel) (by rw [le_div_iff₀ (by norm_num)]; linarith)
            (by rw [div_le_iff₀ (by norm_num)]; linarith [a4.hi, pow2_pos (-44)])
        exact this.lo
      · rw [abs_le]
        constructor <;> linarith [m5.1, m5.2, hn.1, hn.2, m3.1, m3.2, m2.1, m2.2, m1.1, m1.2]
    · have hge := le_of_not_gt hlt
      rw [ratTrunc_of (n := 1) (by omega) (by push_cast; rw [le_div_iff₀ (by norm_num)]; linarith)
        (by push_cast; rw [div_lt_iff₀ (by norm_num)]; linarith [a3.hi])] at hfm
      have hn : Near h ((add (sub (n 360) (mul (n 330) p)) (n 240)).val - ((1 : Int) : ℚ) * 360) := by
        rw [hfm]; exact mk_near (by push_cast; rw [abs_of_nonneg (by linarith)]; linarith [a3.hi])
      have hin : h.val ≤ 240 := by
        have : In h 0 240 := by
          rw [hfm]
          exact mk_in (IsRep.zero _) (by decide +kernel) (by push_cast; linarith) (by push_cast; linarith [a3.hi])
        exact this.hi
      have hn := abs_le.mp hn.2
      push_cast at hn
      refine ⟨6, Or.inl ⟨a5.lo, ?_, rfl⟩, ?_⟩
      · have : In hh 0 4 := by
          rw [ha5]
          exact mk_in (IsRep.zero _) (by decide +kernel) (by have := a4.lo; positivity)
            (by rw [div_le_iff₀ (by norm_num)]; linarith)
        exact this.hi
      · rw [abs_le]
        constructor <;> linarith [m5.1, m5.2, hn.1, hn.2, m3.1, m3.2, m2.1, m2.2, m1.1, m1.2]
  · have hnn : 0 ≤ hh.val / 2 := by have := a5.lo; positivity
    obtain ⟨k1, k2⟩ := ratTrunc_nonneg_bounds hnn
    have q0 : Near (fmod hh (n 2)) (hh.val - (ratTrunc (hh.val / 2) : ℚ) * 2) := by
      rw [fmod_eq a5.fin h2.fin (by rw [v2]; norm_num), v2]
      exact mk_near (by rw [abs_of_nonneg (by linarith)]; linarith)
    have q1 := sub_near d0.fin h1.fin (by rw [v1, abs_le]; constructor <;> linarith [d0.lo, d0.hi])
    rw [v1] at q1
    have q2 := sub_near h1.fin d2.fin (by rw [v1, abs_le]; constructor <;> linarith [d2.lo, d2.hi])
    rw [v1, abs_val] at q2
    have q3 := mul_near c5.fin d3.fin (by
      rw [abs_of_nonneg (mul_nonneg (by linarith [c5.lo]) d3.lo)]
      exact (mul_le_mul c5.hi d3.hi d3.lo (by norm_num)).trans (by norm_num))
    have r1 : |(sub (n 1) (abs (sub (fmod hh (n 2)) (n 1)))).val - (1 - |hh.val - 2 * ratTrunc (hh.val / 2) - 1|)| ≤ 3 * ε := by
      have t0 := abs_le.mp q0.2
      have t1 := abs_le.mp q1.2
      have t2 := abs_le.mp q2.2
      have t3 := abs_abs_sub_abs_le (sub (fmod hh (n 2)) (n 1)).val (hh.val - 2 * ratTrunc (hh.val / 2) - 1)
      have t4 : |(sub (fmod hh (n 2)) (n 1)).val - (hh.val - 2 * ratTrunc (hh.val / 2) - 1)| ≤ 2 * ε := by
        rw [abs_le]; constructor <;> linarith [t0.1, t0.2, t1.1, t1.2]
      have t5 := abs_le.mp (t3.trans t4)
      rw [abs_le]; constructor <;> linarith [t2.1, t2.2, t5.1, t5.2]
    have r2 : |c.val * (sub (n 1) (abs (sub (fmod hh (n 2)) (n 1)))).val -
        c.val * (1 - |hh.val - 2 * ratTrunc (hh.val / 2) - 1|)| ≤ 3 * ε := by
      rw [← mul_sub, abs_mul, abs_of_nonneg (by linarith [c5.lo])]
      exact (mul_le_of_le_one_left (abs_nonneg _) c5.hi).trans r1
    have r3 := abs_le.mp r2
    have r4 := abs_le.mp q3.2
    rw [abs_le]; constructor <;> linarith [r3.1, r3.2, r4.1, r4.2]
  all_goals
    have nb1 := mul_near hhalf.fin hp.fin (by rw [vh, abs_of_nonneg (by linarith)]; linarith)
    have nb2 := add_near b1.fin hq.fin (by rw [vq, abs_of_nonneg (by linarith [b1.lo])]; linarith [b1.hi])
    rw [vh] at nb1
    rw [vq] at nb2
    have g1 := abs_le.mp nb1.2
    have g2 := abs_le.mp nb2.2
    have f1 := abs_le.mp c1n.2
    have f2 := abs_le.mp c2n.2
    have f4 := abs_le.mp c4n.2
    rw [← c5v.2] at f4
    have f5 := abs_le.mp e1n.2
    have f6 := abs_le.mp e2n.2
    have hl : |l.val - L| ≤ 2 * ε := by
      rw [abs_le]; constructor <;> simp only [L] <;> linarith [g1.1, g1.2, g2.1, g2.2]
    have hl' := abs_le.mp hl
    have hcc : |c.val - C| ≤ 7 * ε := by
      have t3 := abs_abs_sub_abs_le (sub (mul (n 2) l) (n 1)).val (2 * L - 1)
      have t4 : |(sub (mul (n 2) l) (n 1)).val - (2 * L - 1)| ≤ 6 * ε := by
        rw [abs_le]; constructor <;> linarith [f1.1, f1.2, f2.1, f2.2, hl'.1, hl'.2]
      have t5 := abs_le.mp (t3.trans t4)
      rw [abs_le]; constructor <;> simp only [C] <;> linarith [f4.1, f4.2, t5.1, t5.2]
  · linarith
  · have hc' := abs_le.mp hcc
    rw [abs_le]
    constructor <;> linarith [f5.1, f5.2, f6.1, f6.2, hl'.1, hl'.2, hc'.1, hc'.2]

/-- exact colour at a position -/
def exactChannel (T : ℚ → ℚ) (p : ℚ) : ℚ :=
  let L := 1 / 4 + p / 2
  L + (1 - |2 * L - 1|) * (T (10 - 11 / 2 * p) - 1 / 2)

/-- a sum of channel and base, compared with exact arithmetic -/
theorem channel_near {T : ℚ → ℚ} (hT : ∀ u w, |T u - T w| ≤ |u - w|) (hT1 : ∀ u, 0 ≤ T u ∧ T u ≤ 1) {v c m hw P : ℚ}
    (hP : 0 ≤ P ∧ P ≤ 1) (hc : 0 ≤ c ∧ c ≤ 1)
    (h1 : |v - c * T hw| ≤ 10 * ε) (h2 : |hw - (10 - 11 / 2 * P)| ≤ 10 * ε)
    (h3 : |c - (1 - |2 * (1 / 4 + P / 2) - 1|)| ≤ 10 * ε)
    (h4 : |m - (1 / 4 + P / 2 - (1 - |2 * (1 / 4 + P / 2) - 1|) / 2)| ≤ 20 * ε) :
    |v + m - exactChannel T P| ≤ 50 * ε := by
  unfold exactChannel
  simp only
  generalize 1 - |2 * (1 / 4 + P / 2) - 1| = C at *
  generalize 1 / 4 + P / 2 = L at *
  have a1 : |c * T hw - c * T (10 - 11 / 2 * P)| ≤ 10 * ε := by
    rw [← mul_sub, abs_mul, abs_of_nonneg hc.1]
    exact (mul_le_of_le_one_left (abs_nonneg _) hc.2).trans ((hT _ _).trans h2)
  have a2 : |c * T (10 - 11 / 2 * P) - C * T (10 - 11 / 2 * P)| ≤ 10 * ε := by
    rw [← sub_mul, abs_mul, abs_of_nonneg (hT1 _).1]
    exact (mul_le_of_le_one_right (abs_nonneg _) (hT1 _).2).trans h3
  have b1 := abs_le.mp h1
  have b2 := abs_le.mp a1
  have b3 := abs_le.mp a2
  have b4 := abs_le.mp h4
  rw [abs_le]
  constructor <;> linarith [b1.1, b1.2, b2.1, b2.2, b3.1, b3.2, b4.1, b4.2]

end Go.Fl

/-! ### comparison with the specification -/

namespace Spec

/-- strength at a distance in sixths of the circle -/
noncomputable def clampAt (d : ℝ) : ℝ := max 0 (min 1 (2 - d))

theorem clampAt_far {d : ℝ} (h : 2 ≤ d) : clampAt d = 0 := by
  unfold clampAt
  rw [min_eq_right (by linarith), max_eq_left (by linarith)]

theorem clampAt_range (d : ℝ) : 0 ≤ clampAt d ∧ clampAt d ≤ 1 :=
  ⟨le_max_left _ _, max_le (by norm_num) (min_le_left _ _)⟩

theorem clampAt_lip (d e : ℝ) : |clampAt d - clampAt e| ≤ |d - e| := by
  unfold clampAt
  refine (abs_max_sub_max_le_max _ _ _ _).trans (max_le (by simp) ?_)
  refine (abs_min_sub_min_le_max _ _ _ _).trans (max_le (by simp) ?_)
  rw [show 2 - d - (2 - e) = -(d - e) by ring, abs_neg]

theorem clampAt_min (a b : ℝ) : max (clampAt a) (clampAt b) = clampAt (min a b) := by
  unfold clampAt
  rcases le_total a b with h | h
  · rw [min_eq_left h, max_eq_left]
    exact max_le_max le_rfl (min_le_min le_rfl (by linarith))
  · rw [min_eq_right h, max_eq_right]
    exact max_le_max le_rfl (min_le_min le_rfl (by linarith))

theorem strength_eq {h k d : ℝ} (hd : min |h - k| (360 - |h - k|) = 60 * d ∨
    120 ≤ min |h - k| (360 - |h - k|) ∧ 2 ≤ d) : strength h k = clampAt d := by
  rcases hd with hd | ⟨h1, h2⟩
  · unfold strength clampAt; rw [hd]; congr 3; ring
  · rw [clampAt_far h2]
    exact clampAt_far (by linarith)

/-- hue in sixths of the circle, unwrapped -/
noncomputable def turn (p : ℝ) : ℝ := 10 - 11 / 2 * p

theorem red_eq {p : ℝ} (h : 0 ≤ p ∧ p ≤ 1) : strength (hue p) 0 = clampAt |turn p - 6| := by
  unfold hue turn
  split
  · rename_i hc
    rw [abs_of_nonneg (by linarith : 0 ≤ 10 - 11 / 2 * p - 6)]
    apply strength_eq
    rw [sub_zero, abs_of_nonneg (by linarith : 0 ≤ 240 - 330 * p)]
    rcases le_total (240 - 330 * p) 180 with h1 | h1
    · left; rw [min_eq_left (by linarith)]; ring
    · right
      exact ⟨le_min (by linarith) (by linarith), by linarith⟩
  · rename_i hc
    rw [abs_of_nonpos (by linarith : 10 - 11 / 2 * p - 6 ≤ 0)]
    apply strength_eq
    rw [sub_zero, abs_of_nonneg (by linarith : 0 ≤ 600 - 330 * p), min_eq_right (by linarith)]
    left; ring

theorem green_eq {p : ℝ} (h : 0 ≤ p ∧ p ≤ 1) : strength (hue p) 120 = clampAt |turn p - 8| := by
  unfold hue turn
  split
  · rename_i hc
    apply strength_eq
    left
    have e : 240 - 330 * p - 120 = 60 * (10 - 11 / 2 * p - 8) := by ring
    rw [e, abs_mul, abs_of_pos (by norm_num : (0 : ℝ) < 60), min_eq_left]
    have : |10 - 11 / 2 * p - 8| ≤ 3 := abs_le.mpr ⟨by linarith, by linarith⟩
    linarith
  · rename_i hc
    apply strength_eq
    right
    rw [abs_of_nonneg (by linarith : 0 ≤ 600 - 330 * p - 120), abs_of_nonpos (by linarith : 10 - 11 / 2 * p - 8 ≤ 0)]
    exact ⟨le_min (by linarith) (by linarith), by linarith⟩

theorem blue_eq {p : ℝ} (h : 0 ≤ p ∧ p ≤ 1) :
    strength (hue p) 240 = max (clampAt |turn p - 4|) (clampAt |turn p - 10|) := by
  rw [clampAt_min]
  unfold hue turn
  apply strength_eq
  left
  rw [abs_of_nonneg (by linarith : 0 ≤ 10 - 11 / 2 * p - 4), abs_of_nonpos (by linarith : 10 - 11 / 2 * p - 10 ≤ 0)]
  split
  · rename_i hc
    rw [abs_of_nonpos (by linarith : 240 - 330 * p - 240 ≤ 0), min_comm, mul_min_of_nonneg _ _ (by norm_num : (0:ℝ) ≤ 60)]
    congr 1 <;> ring
  · rename_i hc
    rw [abs_of_nonneg (by linarith : 0 ≤ 600 - 330 * p - 240), min_eq_left (by linarith), min_eq_left (by linarith)]
    ring

/-- a channel as a function of the position -/
noncomputable def mix (T p : ℝ) : ℝ := lightness p + (1 - |2 * lightness p - 1|) * (T - 1 / 2)

theorem mix_lip {S T p q t : ℝ} (hp : 0 ≤ p ∧ p ≤ 1) (hT : 0 ≤ T ∧ T ≤ 1) (h : |p - q| ≤ t)
    (hST : |S - T| ≤ 11 / 2 * t) : |mix S p - mix T q| ≤ 7 * t := by
  unfold mix lightness
  have c1 : |1 - (|2 * (1 / 4 + p / 2) - 1|)| ≤ 1 := by
    have := abs_nonneg (2 * (1 / 4 + p / 2) - 1)
    have h2 : |2 * (1 / 4 + p / 2) - 1| ≤ 1 := abs_le.mpr ⟨by linarith, by linarith⟩
    exact abs_le.mpr ⟨by linarith, by linarith⟩
  have c2 : |(1 - |2 * (1 / 4 + p / 2) - 1|) - (1 - |2 * (1 / 4 + q / 2) - 1|)| ≤ t := by
    have e : (1 - |2 * (1 / 4 + p / 2) - 1|) - (1 - |2 * (1 / 4 + q / 2) - 1|) =
      |2 * (1 / 4 + q / 2) - 1| - |2 * (1 / 4 + p / 2) - 1| := by ring
    rw [e]
    refine (abs_abs_sub_abs_le _ _).trans ?_
    rw [show 2 * (1 / 4 + q / 2) - 1 - (2 * (1 / 4 + p / 2) - 1) = -(p - q) by ring, abs_neg]; exact h
  generalize 1 - |2 * (1 / 4 + p / 2) - 1| = C at *
  generalize 1 - |2 * (1 / 4 + q / 2) - 1| = D at *
  have e : 1 / 4 + p / 2 + C * (S - 1 / 2) - (1 / 4 + q / 2 + D * (T - 1 / 2)) =
    (p - q) / 2 + (C * (S - T) + (C - D) * (T - 1 / 2)) := by ring
  rw [e]
  have d1 : |C * (S - T)| ≤ 11 / 2 * t := by
    rw [abs_mul]; exact (mul_le_of_le_one_left (abs_nonneg _) c1).trans hST
  have d2 : |(C - D) * (T - 1 / 2)| ≤ t := by
    rw [abs_mul]
    refine (mul_le_of_le_one_right (abs_nonneg _) ?_).trans c2
    exact abs_le.mpr ⟨by linarith, by linarith⟩
  have a1 := abs_le.mp h
  have a2 := abs_le.mp d1
  have a3 := abs_le.mp d2
  exact abs_le.mpr ⟨by linarith [a1.1, a2.1, a3.1], by linarith [a1.2, a2.2, a3.2]⟩

theorem near_turn (p q k : ℝ) {t : ℝ} (h : |p - q| ≤ t) :
    |clampAt (|turn p - k|) - clampAt (|turn q - k|)| ≤ 11 / 2 * t := by
  refine (clampAt_lip _ _).trans ((abs_abs_sub_abs_le _ _).trans ?_)
  unfold turn
  rw [show 10 - 11 / 2 * p - k - (10 - 11 / 2 * q - k) = -(11 / 2) * (p - q) by ring, abs_mul, abs_neg,
    abs_of_pos (by norm_num : (0 : ℝ) < 11 / 2)]
  linarith

theorem hsl_near {p q t : ℝ} (hp : 0 ≤ p ∧ p ≤ 1) (hq : 0 ≤ q ∧ q ≤ 1) (h : |p - q| ≤ t) :
    |mix (clampAt |turn p - 6|) p - hsl (hue q) (lightness q) 0| ≤ 7 * t ∧
    |mix (clampAt |turn p - 8|) p - hsl (hue q) (lightness q) 120| ≤ 7 * t ∧
    |mix (max (clampAt |turn p - 4|) (clampAt |turn p - 10|)) p - hsl (hue q) (lightness q) 240| ≤ 7 * t := by
  refine ⟨?_, ?_, ?_⟩
  · unfold hsl; rw [red_eq hq]
    exact mix_lip hp (clampAt_range _) h (near_turn _ _ _ h)
  · unfold hsl; rw [green_eq hq]
    exact mix_lip hp (clampAt_range _) h (near_turn _ _ _ h)
  · unfold hsl; rw [blue_eq hq]
    refine mix_lip hp ?_ h ((abs_max_sub_max_le_max _ _ _ _).trans (max_le (near_turn _ _ _ h) (near_turn _ _ _ h)))
    exact ⟨(clampAt_range _).1.trans (le_max_left _ _), max_le (clampAt_range _).2 (clampAt_range _).2⟩

theorem cast_tri (u k : ℚ) : ((Go.Fl.tri u k : ℚ) : ℝ) = clampAt |(u : ℝ) - k| := by
  unfold Go.Fl.tri clampAt; push_cast; rfl

theorem cast_channels (p : ℚ) :
    ((Go.Fl.exactChannel Go.Fl.red p : ℚ) : ℝ) = mix (clampAt |turn p - 6|) p ∧
    ((Go.Fl.exactChannel Go.Fl.green p : ℚ) : ℝ) = mix (clampAt |turn p - 8|) p ∧
    ((Go.Fl.exactChannel Go.Fl.blue p : ℚ) : ℝ) = mix (max (clampAt |turn p - 4|) (clampAt |turn p - 10|)) p := by
  unfold Go.Fl.exactChannel mix lightness turn Go.Fl.red Go.Fl.green Go.Fl.blue
  refine ⟨?_, ?_, ?_⟩ <;> push_cast [cast_tri] <;> rfl

end Spec

namespace Radolan.Vis
open Go Go.Fl _root_.Spec

/-- conversion of a channel known up to 60ε -/
theorem byte_near (i : F64 → UInt8) {v m : F64} {q : ℚ} (hv : v.isFin = true) (hm : m.isFin = true) (h0 : 0 ≤ q) (h1 : q ≤ 1)
    (h : |v.val + m.val - q| ≤ 50 * ε) :
    ((toU8 i (mul (lit f64 255) (add v m))).toNat : ℚ) ≤ 255 * q + 1 / 10 ^ 8 / 2 ∧
    255 * q - 1 / 10 ^ 8 / 2 < (toU8 i (mul (lit f64 255) (add v m))).toNat + 1 := by
  have e := ε_eq
  have h' := abs_le.mp h
  have a := add_near hv hm (by rw [abs_le]; constructor <;> linarith)
  have ha := abs_le.mp a.2
  have b := mul_near lit_255.1 a.1 (by rw [lit_255.2, abs_le]; constructor <;> linarith)
  have hb := abs_le.mp b.2
  rw [lit_255.2] at hb
  have y1 : (mul (lit f64 255) (add v m)).val ≤ 255 * q + 2 / 10 ^ 9 := by norm_num at e ⊢; linarith
  have y2 : 255 * q - 2 / 10 ^ 9 ≤ (mul (lit f64 255) (add v m)).val := by norm_num at e ⊢; linarith
  rw [toU8_eq i b.1 (by norm_num at y2; linarith) (by norm_num at y1; linarith)]
  generalize (mul (lit f64 255) (add v m)).val = y at y1 y2
  by_cases hy : 0 ≤ y
  · obtain ⟨t1, t2⟩ := ratTrunc_nonneg_bounds hy
    have t0 : 0 ≤ ratTrunc y := by unfold ratTrunc; rw [if_pos hy]; exact Int.floor_nonneg.mpr hy
    have hc : ((ratTrunc y).toNat : ℚ) = ratTrunc y := by exact_mod_cast Int.toNat_of_nonneg t0
    rw [hc]
    norm_num at y1 y2 ⊢
    constructor <;> linarith
  · obtain ⟨t1, t2⟩ := ratTrunc_neg_bounds (not_le.mp hy)
    have t0 : ratTrunc y ≤ 0 := by
      have : (ratTrunc y : ℚ) < 1 := by linarith
      have : ratTrunc y < 1 := by exact_mod_cast this
      omega
    rw [Int.toNat_of_nonpos t0]
    norm_num at y1 y2 ⊢
    constructor <;> linarith

theorem exactChannel_range {T : ℚ → ℚ} (hT : ∀ u, 0 ≤ T u ∧ T u ≤ 1) {P : ℚ} (hP : 0 ≤ P ∧ P ≤ 1) :
    0 ≤ exactChannel T P ∧ exactChannel T P ≤ 1 := by
  unfold exactChannel
  simp only
  have h := hT (10 - 11 / 2 * P)
  generalize T (10 - 11 / 2 * P) = t at h
  rcases abs_cases (2 * (1 / 4 + P / 2) - 1) with ⟨e, _⟩ | ⟨e, _⟩ <;> rw [e] <;> constructor <;> nlinarith

/-- the colour at a position known up to 10^-12 -/
theorem heatColor_near {p : F64} (hp : In (clip p) 0 1) {r : ℝ} (hr : 0 ≤ r ∧ r ≤ 1)
    (h : |((clip p).val : ℝ) - r| ≤ 1 / 10 ^ 12) (I : Impl) : IsHeat (heatColor I p) r := by
  have hp' := parts_near hp
  have hq := parts hp
  simp only at hp' hq
  obtain ⟨⟨w, hw, hturn⟩, hx, hc, hm⟩ := hp'
  have hhn : (div (fmod (add (sub (lit f64 360) (mul (lit f64 330) (clip p))) (lit f64 240)) (lit f64 360))
      (lit f64 60)) ≠ .nan := isFin_ne_nan hq.hue.fin
  have hti : toInt I.int (div (fmod (add (sub (lit f64 360) (mul (lit f64 330) (clip p))) (lit f64 240))
      (lit f64 360)) (lit f64 60)) = ratTrunc (div (fmod (add (sub (lit f64 360) (mul (lit f64 330) (clip p)))
      (lit f64 240)) (lit f64 360)) (lit f64 60)).val := by
    have h0 := hq.hue.lo
    have h6 := hq.hue.hi
    obtain ⟨k1, k2⟩ := ratTrunc_nonneg_bounds h0
    unfold toInt
    rw [if_pos hq.hue.fin, if_pos]
    have a : (ratTrunc (div (fmod (add (sub (lit f64 360) (mul (lit f64 330) (clip p)))
      (lit f64 240)) (lit f64 360)) (lit f64 60)).val : ℚ) < 6 := by linarith [pow2_pos (-50)]
    have b : (-1 : ℚ) < ratTrunc (div (fmod (add (sub (lit f64 360) (mul (lit f64 330) (clip p)))
      (lit f64 240)) (lit f64 360)) (lit f64 60)).val := by linarith
    have a' : ratTrunc (div (fmod (add (sub (lit f64 360) (mul (lit f64 330) (clip p)))
      (lit f64 240)) (lit f64 360)) (lit f64 60)).val < 6 := by exact_mod_cast a
    have b' : -1 < ratTrunc (div (fmod (add (sub (lit f64 360) (mul (lit f64 330) (clip p)))
      (lit f64 240)) (lit f64 360)) (lit f64 60)).val := by exact_mod_cast b
    constructor <;> omega
  obtain ⟨⟨g1, g2, g3⟩, -⟩ := sector_channels hq I.int
  obtain ⟨n1, n2, n3⟩ := sector_near hw hx
  rw [← hti] at n1 n2 n3
  have hP : 0 ≤ (clip p).val ∧ (clip p).val ≤ 1 := ⟨hp.lo, hp.hi⟩
  have hPr : (0 : ℝ) ≤ (clip p).val ∧ ((clip p).val : ℝ) ≤ 1 := ⟨by exact_mod_cast hP.1, by exact_mod_cast hP.2⟩
  have hcr := hq.chroma
  have hC : 0 ≤ (mul (sub (lit f64 1) (abs (sub (mul (lit f64 2) (add (mul (lit f64 (1 / 2)) (clip p)) (lit f64 (1 / 4))))
      (lit f64 1)))) (lit f64 1)).val ∧ _ ≤ (1 : ℚ) := ⟨by linarith [hcr.lo], hcr.hi⟩
  have bl : ∀ u, 0 ≤ blue u ∧ blue u ≤ 1 := fun u =>
    ⟨(tri_range _ _).1.trans (le_max_left _ _), max_le (tri_range _ _).2 (tri_range _ _).2⟩
  have rn : ∀ u, 0 ≤ red u ∧ red u ≤ 1 := fun u => tri_range _ _
  have gn : ∀ u, 0 ≤ green u ∧ green u ≤ 1 := fun u => tri_range _ _
  have c1 := channel_near (T := red) (fun u w => tri_lip u w 6) rn hP hC n1 hturn hc hm
  have c2 := channel_near (T := green) (fun u w => tri_lip u w 8) gn hP hC n2 hturn hc hm
  have c3 := channel_near (T := blue) blue_lip bl hP hC n3 hturn hc hm
  have b1 := byte_near I.u8 g1.1 hq.m_fin (exactChannel_range rn hP).1 (exactChannel_range rn hP).2 c1
  have b2 := byte_near I.u8 g2.1 hq.m_fin (exactChannel_range gn hP).1 (exactChannel_range gn hP).2 c2
  have b3 := byte_near I.u8 g3.1 hq.m_fin (exactChannel_range bl hP).1 (exactChannel_range bl hP).2 c3
  obtain ⟨s1, s2, s3⟩ := hsl_near hPr hr h
  obtain ⟨t1, t2, t3⟩ := cast_channels (clip p).val
  rw [← t1] at s1
  rw [← t2] at s2
  rw [← t3] at s3
  have fin : ∀ {l : UInt8} {q : ℚ} {z : ℝ}, ((l.toNat : ℚ) ≤ 255 * q + 1 / 10 ^ 8 / 2 ∧ 255 * q - 1 / 10 ^ 8 / 2 < l.toNat + 1) →
      |(q : ℝ) - z| ≤ 7 * (1 / 10 ^ 12) → Brightness l z := by
    intro l q z hl hz
    have k1 := (Rat.cast_le (K := ℝ)).mpr hl.1
    have k2 := (Rat.cast_lt (K := ℝ)).mpr hl.2
    push_cast at k1 k2
    have hz := abs_le.mp hz
    unfold Brightness
    norm_num at k1 k2 hz ⊢
    constructor <;> linarith
  unfold IsHeat heatColor
  simp only
  rw [show (if lt (lit f64 1) p = true then lit f64 1 else p) = clip p from rfl, if_neg hhn]
  exact ⟨fin b1 s1, fin b2 s2, fin b3 s3, trivial⟩

end Radolan.Vis
