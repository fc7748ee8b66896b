/- The colour of a position in the heat map gradient. -/
import Verif.Lemmas.Colors

namespace Go.Fl

/-- a finite float64 between two numbers -/
structure In (x : F64) (a b : ℚ) : Prop where
  fin : x.isFin = true
  lo : a ≤ x.val
  hi : x.val ≤ b

theorem mk_in {s : Bool} {q a b : ℚ} (ha : IsRep f64 a) (hb : IsRep f64 b) (h1 : a ≤ q) (h2 : q ≤ b) :
    In (mk f64 s q) a b := by
  have l1 : a ≤ rnd f64 q := by have := rnd_mono f64 h1; rwa [ha.1] at this
  have l2 : rnd f64 q ≤ b := by have := rnd_mono f64 h2; rwa [hb.1] at this
  have hb : |rnd f64 q| < pow2 f64.emax := by
    have a2 := abs_lt.mp ha.2
    have b2 := abs_lt.mp hb.2
    exact abs_lt.mpr ⟨by linarith, by linarith⟩
  obtain ⟨k1, k2⟩ := mk_fin (b := s) hb
  exact ⟨k1, by rw [k2]; exact l1, by rw [k2]; exact l2⟩

theorem lit_in {q : ℚ} (h : IsRep f64 q) : In (lit f64 q) q q := by
  rw [lit_of_repr h]; exact ⟨rfl, le_rfl, le_rfl⟩

theorem lit_val {q : ℚ} (h : IsRep f64 q) : (lit f64 q : F64).val = q := by
  rw [lit_of_repr h]; rfl

theorem lit_isFin {q : ℚ} (h : IsRep f64 q) : (lit f64 q : F64).isFin = true := by
  rw [lit_of_repr h]; rfl

theorem abs_in {x : F64} {b : ℚ} (h : In x (-b) b) : In (abs x) 0 b :=
  ⟨by rw [abs_isFin]; exact h.fin, by rw [abs_val]; exact abs_nonneg _,
   by rw [abs_val]; exact abs_le.mpr ⟨h.lo, h.hi⟩⟩

/-- a float64 of magnitude 257 or more is a multiple of 2^-44 -/
theorem multiple_of_large {x : F64} (h : 257 ≤ x.val) : ∃ k : Int, x.val = k * pow2 (-44) := by
  obtain ⟨n, e, _, hn, hr⟩ := rnd_form f64 x.val
  rw [rnd_val] at hr
  have he : -44 ≤ e := by
    by_contra hc
    have hc : e ≤ -45 := by omega
    have h1 : pow2 e ≤ pow2 (-45) := pow2_le.mpr hc
    have h2 : (n : ℚ) ≤ 2 ^ 53 := by
      have := (abs_le.mp hn).2
      exact_mod_cast this
    have h0 := pow2_pos e
    have h3 : x.val ≤ 2 ^ 53 * pow2 e := by rw [hr]; exact mul_le_mul_of_nonneg_right h2 h0.le
    have h4 : (2 : ℚ) ^ 53 * pow2 e ≤ 2 ^ 53 * pow2 (-45) := mul_le_mul_of_nonneg_left h1 (by norm_num)
    have h5 : (2 : ℚ) ^ 53 * pow2 (-45) = 256 := by rw [pow2_eq]; norm_num
    linarith
  refine ⟨n * 2 ^ (e + 44).toNat, ?_⟩
  rw [hr]
  have : pow2 e = pow2 (e + 44) * pow2 (-44) := by rw [← pow2_add]; congr 1; ring
  rw [this, pow2_toNat (by omega)]
  push_cast; ring

theorem fmod_eq {x y : F64} (hx : x.isFin = true) (hy : y.isFin = true) (h0 : y.val ≠ 0) :
    fmod x y = mk f64 x.sign (x.val - (ratTrunc (x.val / y.val) : ℚ) * y.val) := by
  cases x <;> cases y <;> simp_all [isFin, fmod]

theorem ratTrunc_of {a : ℚ} {n : Int} (hn : 0 ≤ n) (h1 : (n : ℚ) ≤ a) (h2 : a < n + 1) : ratTrunc a = n := by
  unfold ratTrunc
  rw [if_pos (_root_.le_trans (by exact_mod_cast hn) h1)]
  exact Int.floor_eq_iff.mpr ⟨h1, h2⟩

/-- the hue of a number between 270 and 600: below 360 even after rounding -/
theorem hue_in {x y : F64} (hx : In x 270 600) (hy : In y 360 360) : In (fmod x y) 0 (360 - pow2 (-44)) := by
  have hyv : y.val = 360 := _root_.le_antisymm hy.hi hy.lo
  obtain ⟨k, hk⟩ := multiple_of_large (x := x) (by linarith [hx.lo])
  have hp : pow2 (-44) = 1 / 17592186044416 := by rw [pow2_eq]; norm_num
  have ha : IsRep f64 (360 - pow2 (-44)) := by decide +kernel
  rw [fmod_eq hx.fin hy.fin (by rw [hyv]; norm_num), hyv]
  have h1 := hx.lo
  have h2 := hx.hi
  by_cases hlt : x.val < 360
  · rw [ratTrunc_of (n := 0) (by omega) (by push_cast; apply div_nonneg <;> linarith)
      (by push_cast; rw [div_lt_iff₀ (by norm_num)]; linarith)]
    have : x.val ≤ 360 - pow2 (-44) := by
      rw [hk, hp] at hlt ⊢
      have : (k : ℚ) < 360 * 17592186044416 := by linarith
      have : k < 360 * 17592186044416 := by exact_mod_cast this
      have : k ≤ 360 * 17592186044416 - 1 := by omega
      have : (k : ℚ) ≤ 360 * 17592186044416 - 1 := by exact_mod_cast this
      linarith
    exact mk_in (IsRep.zero _) ha (by push_cast; linarith) (by push_cast; linarith)
  · have hge := le_of_not_gt hlt
    rw [ratTrunc_of (n := 1) (by omega) (by push_cast; rw [le_div_iff₀ (by norm_num)]; linarith)
      (by push_cast; rw [div_lt_iff₀ (by norm_num)]; linarith)]
    exact mk_in (IsRep.zero _) ha (by push_cast; linarith) (by push_cast; rw [hp]; linarith)

theorem pow2_44 : pow2 (-44) = 1 / 17592186044416 := by rw [pow2_eq]; norm_num

/-- what the channels of a gradient colour are made of -/
structure Parts (hh c x m : F64) : Prop where
  hue : In hh 0 (6 - pow2 (-50))
  chroma : In c (1 / 2) 1
  x : In x 0 c.val
  m_fin : m.isFin = true
  m_lo : -(4 * ε) ≤ m.val
  cm_lo : 1 / 2 - 8 * ε ≤ c.val + m.val
  cm_hi : c.val + m.val ≤ 1 + 8 * ε

theorem parts {p : F64} (hp : In p 0 1) :
    let n := fun q : ℚ => lit f64 q
    let h := fmod (add (sub (n 360) (mul (n 330) p)) (n 240)) (n 360)
    let l := add (mul (n (1 / 2)) p) (n (1 / 4))
    let c := mul (sub (n 1) (abs (sub (mul (n 2) l) (n 1)))) (n 1)
    let hh := div h (n 60)
    let x := mul c (sub (n 1) (abs (sub (fmod hh (n 2)) (n 1))))
    Parts hh c x (sub l (div c (n 2))) := by
  intro n h l c hh x
  have r (q : ℚ) (hq : IsRep f64 q) : In (n q) q q := lit_in hq
  have h360 := r 360 (by decide +kernel)
  have h330 := r 330 (by decide +kernel)
  have h240 := r 240 (by decide +kernel)
  have h60 := r 60 (by decide +kernel)
  have h2 := r 2 (by decide +kernel)
  have h1 := r 1 (by decide +kernel)
  have hhalf := r (1 / 2) (by decide +kernel)
  have hq := r (1 / 4) (by decide +kernel)
  have v360 : (n 360).val = 360 := lit_val (by decide +kernel)
  have v330 : (n 330).val = 330 := lit_val (by decide +kernel)
  have v240 : (n 240).val = 240 := lit_val (by decide +kernel)
  have v60 : (n 60).val = 60 := lit_val (by decide +kernel)
  have v2 : (n 2).val = 2 := lit_val (by decide +kernel)
  have v1 : (n 1).val = 1 := lit_val (by decide +kernel)
  have vh : (n (1 / 2)).val = 1 / 2 := lit_val (by decide +kernel)
  have vq : (n (1 / 4)).val = 1 / 4 := lit_val (by decide +kernel)
  have p0 := hp.lo
  have p1 := hp.hi
  -- hue
  have a1 : In (mul (n 330) p) 0 330 := by
    rw [mul_fin h330.fin hp.fin, v330]
    exact mk_in (by decide +kernel) (by decide +kernel) (by linarith) (by linarith)
  have a2 : In (sub (n 360) (mul (n 330) p)) 30 360 := by
    rw [sub_fin h360.fin a1.fin, v360]
    exact mk_in (by decide +kernel) (by decide +kernel) (by linarith [a1.hi]) (by linarith [a1.lo])
  have a3 : In (add (sub (n 360) (mul (n 330) p)) (n 240)) 270 600 := by
    rw [add_fin a2.fin h240.fin, v240]
    exact mk_in (by decide +kernel) (by decide +kernel) (by linarith [a2.lo]) (by linarith [a2.hi])
  have a4 : In h 0 (360 - pow2 (-44)) := hue_in a3 h360
  have a5 : In hh 0 (6 - pow2 (-50)) := by
    show In (div h (n 60)) _ _
    rw [div_fin a4.fin h60.fin (by rw [v60]; norm_num), v60]
    refine mk_in (IsRep.zero _) (by decide +kernel) (by have := a4.lo; positivity) ?_
    have := a4.hi
    rw [pow2_44] at this
    have hp50 : pow2 (-50) = 1 / 1125899906842624 := by rw [pow2_eq]; norm_num
    rw [hp50, div_le_iff₀ (by norm_num)]
    linarith
  -- lightness
  have b1 : In (mul (n (1 / 2)) p) 0 (1 / 2) := by
    rw [mul_fin hhalf.fin hp.fin, vh]
    exact mk_in (by decide +kernel) (by decide +kernel) (by linarith) (by linarith)
  have b2 : In l (1 / 4) (3 / 4) := by
    show In (add _ _) _ _
    rw [add_fin b1.fin hq.fin, vq]
    exact mk_in (by decide +kernel) (by decide +kernel) (by linarith [b1.lo]) (by linarith [b1.hi])
  -- chroma
  have c1 : In (mul (n 2) l) (1 / 2) (3 / 2) := by
    rw [mul_fin h2.fin b2.fin, v2]
    exact mk_in (by decide +kernel) (by decide +kernel) (by linarith [b2.lo]) (by linarith [b2.hi])
  have c1n : Near (mul (n 2) l) (2 * l.val) := by
    have := mul_near h2.fin b2.fin (by rw [v2, abs_of_nonneg (by linarith [b2.lo])]; linarith [b2.hi])
    rwa [v2] at this
  have c2 : In (sub (mul (n 2) l) (n 1)) (-(1 / 2)) (1 / 2) := by
    rw [sub_fin c1.fin h1.fin, v1]
    exact mk_in (by decide +kernel) (by decide +kernel) (by linarith [c1.lo]) (by linarith [c1.hi])
  have c2n : Near (sub (mul (n 2) l) (n 1)) ((mul (n 2) l).val - 1) := by
    have := sub_near c1.fin h1.fin (by rw [v1, abs_le]; constructor <;> linarith [c1.lo, c1.hi])
    rwa [v1] at this
  have c3 := abs_in c2
  have c4 : In (sub (n 1) (abs (sub (mul (n 2) l) (n 1)))) (1 / 2) 1 := by
    rw [sub_fin h1.fin c3.fin, v1]
    exact mk_in (by decide +kernel) (by decide +kernel) (by linarith [c3.hi]) (by linarith [c3.lo])
  have c4n : Near (sub (n 1) (abs (sub (mul (n 2) l) (n 1)))) (1 - |(sub (mul (n 2) l) (n 1)).val|) := by
    have := sub_near h1.fin c3.fin (by
      rw [v1, abs_le]; constructor <;> linarith [c3.lo, c3.hi])
    rwa [v1, abs_val] at this
  have c5v : c.isFin = true ∧ c.val = (sub (n 1) (abs (sub (mul (n 2) l) (n 1)))).val := by
    show (mul _ _).isFin = true ∧ (mul _ _).val = _
    rw [mul_fin c4.fin h1.fin, v1, mul_one]
    have hb : |rnd f64 (sub (n 1) (abs (sub (mul (n 2) l) (n 1)))).val| < pow2 f64.emax := by
      rw [rnd_val]; exact (val_repr _).2
    obtain ⟨k1, k2⟩ := mk_fin (b := xor (sub (n 1) (abs (sub (mul (n 2) l) (n 1)))).sign (n 1).sign) hb
    exact ⟨k1, by rw [k2, rnd_val]⟩
  have c5 : In c (1 / 2) 1 := ⟨c5v.1, by rw [c5v.2]; exact c4.lo, by rw [c5v.2]; exact c4.hi⟩
  -- x
  have hcr : IsRep f64 c.val := val_repr _
  have d0 : In (fmod hh (n 2)) 0 2 := by
    rw [fmod_eq a5.fin h2.fin (by rw [v2]; norm_num), v2]
    have hnn : 0 ≤ hh.val / 2 := by have := a5.lo; positivity
    obtain ⟨k1, k2⟩ := ratTrunc_nonneg_bounds hnn
    exact mk_in (IsRep.zero _) (by decide +kernel) (by linarith) (by linarith)
  have d1 : In (sub (fmod hh (n 2)) (n 1)) (-1) 1 := by
    rw [sub_fin d0.fin h1.fin, v1]
    exact mk_in (by decide +kernel) (by decide +kernel) (by linarith [d0.lo]) (by linarith [d0.hi])
  have d2 := abs_in d1
  have d3 : In (sub (n 1) (abs (sub (fmod hh (n 2)) (n 1)))) 0 1 := by
    rw [sub_fin h1.fin d2.fin, v1]
    exact mk_in (by decide +kernel) (by decide +kernel) (by linarith [d2.hi]) (by linarith [d2.lo])
  have d4 : In x 0 c.val := by
    show In (mul _ _) _ _
    rw [mul_fin c5.fin d3.fin]
    have hc0 : 0 ≤ c.val := by linarith [c5.lo]
    exact mk_in (IsRep.zero _) hcr (mul_nonneg hc0 d3.lo) (mul_le_of_le_one_right hc0 d3.hi)
  -- m
  have e1 : In (div c (n 2)) (1 / 4) (1 / 2) := by
    rw [div_fin c5.fin h2.fin (by rw [v2]; norm_num), v2]
    exact mk_in (by decide +kernel) (by decide +kernel) (by linarith [c5.lo]) (by linarith [c5.hi])
  have e1n : Near (div c (n 2)) (c.val / 2) := by
    have := div_near c5.fin h2.fin (by rw [v2]; norm_num)
      (by rw [v2, abs_le]; constructor <;> linarith [c5.lo, c5.hi])
    rwa [v2] at this
  have e2n : Near (sub l (div c (n 2))) (l.val - (div c (n 2)).val) :=
    sub_near b2.fin e1.fin (by rw [abs_le]; constructor <;> linarith [b2.lo, b2.hi, e1.lo, e1.hi])
  have f1 := abs_le.mp c1n.2
  have f2 := abs_le.mp c2n.2
  have f4 := abs_le.mp c4n.2
  rw [← c5v.2] at f4
  have f5 := abs_le.mp e1n.2
  have f6 := abs_le.mp e2n.2
  have g1 := b2.lo
  have g2 := b2.hi
  have eε : 0 < ε := pow2_pos _
  refine ⟨a5, c5, d4, e2n.1, ?_, ?_, ?_⟩
  all_goals
    rcases abs_cases (sub (mul (n 2) l) (n 1)).val with ⟨q1, q2⟩ | ⟨q1, q2⟩
    all_goals rw [q1] at f4
    all_goals linarith [f1.1, f1.2, f2.1, f2.2, f4.1, f4.2, f5.1, f5.2, f6.1, f6.2]

/-- a channel: 255 times a number between -8ε and 1+8ε, converted -/
theorem channel {v m : F64} (hv : v.isFin = true) (hm : m.isFin = true) (h0 : -(8 * ε) ≤ v.val + m.val)
    (h1 : v.val + m.val ≤ 1 + 8 * ε) :
    (∀ i j, toU8 i (mul (lit f64 255) (add v m)) = toU8 j (mul (lit f64 255) (add v m))) ∧
    (∀ i, 1 / 2 - 8 * ε ≤ v.val + m.val → 127 ≤ (toU8 i (mul (lit f64 255) (add v m))).toNat) := by
  have e := ε_eq
  have a := add_near hv hm (by rw [abs_le]; constructor <;> linarith)
  have ha := abs_le.mp a.2
  have b := mul_near lit_255.1 a.1 (by rw [lit_255.2, abs_le]; constructor <;> linarith)
  have hb := abs_le.mp b.2
  rw [lit_255.2] at hb
  constructor
  · intro i j
    exact toU8_indep i j b.1 (by linarith) (by linarith)
  · intro i h
    rw [toU8_eq i b.1 (by linarith) (by linarith)]
    have : (127 : Int) ≤ ratTrunc (mul (lit f64 255) (add v m)).val := by
      have h127 : (127 : ℚ) ≤ (mul (lit f64 255) (add v m)).val := by linarith
      unfold ratTrunc
      rw [if_pos (by linarith)]
      exact Int.le_floor.mpr (by exact_mod_cast h127)
    omega

end Go.Fl

namespace Radolan.Vis
open Go Go.Fl

theorem sector_channels {hh c x m : F64} (h : Parts hh c x m) (i : F64 → Int) :
    let k := sector (toInt i hh) c x
    let good := fun v : F64 => v.isFin = true ∧ -(8 * ε) ≤ v.val + m.val ∧ v.val + m.val ≤ 1 + 8 * ε
    (good k.1 ∧ good k.2.1 ∧ good k.2.2) ∧ (k.1 = c ∨ k.2.1 = c ∨ k.2.2 = c) := by
  intro k good
  have e := ε_eq
  have gc : good c := ⟨h.chroma.fin, by linarith [h.cm_lo], h.cm_hi⟩
  have gx : good x := ⟨h.x.fin, by linarith [h.m_lo, h.x.lo], by linarith [h.cm_hi, h.x.hi]⟩
  have gz : good (lit f64 0) := by
    have hv : (lit f64 0 : F64).val = 0 := lit_val (by decide +kernel)
    refine ⟨lit_isFin (by decide +kernel), ?_, ?_⟩
    · rw [hv]; linarith [h.m_lo]
    · rw [hv]; linarith [h.cm_hi, h.chroma.lo]
  have hh0 := h.hue.lo
  have hh6 := h.hue.hi
  have hp50 : pow2 (-50) = 1 / 1125899906842624 := by rw [pow2_eq]; norm_num
  obtain ⟨k1, k2⟩ := ratTrunc_nonneg_bounds hh0
  have r6 : ratTrunc hh.val < 6 := by
    have : (ratTrunc hh.val : ℚ) < 6 := by rw [hp50] at hh6; linarith
    exact_mod_cast this
  have r0 : 0 ≤ ratTrunc hh.val := by
    have : (-1 : ℚ) < ratTrunc hh.val := by linarith
    have : -1 < ratTrunc hh.val := by exact_mod_cast this
    omega
  have ht : toInt i hh = ratTrunc hh.val := by
    unfold toInt
    rw [if_pos h.hue.fin, if_pos (by constructor <;> omega)]
  have hk : k = sector (ratTrunc hh.val) c x := by show sector _ _ _ = _; rw [ht]
  rw [hk]
  generalize ratTrunc hh.val = s at r0 r6
  have hs : s = 0 ∨ s = 1 ∨ s = 2 ∨ s = 3 ∨ s = 4 ∨ s = 5 := by omega
  rcases hs with rfl | rfl | rfl | rfl | rfl | rfl <;> simp [sector, gc, gx, gz]

/-- The colour of a position in [0, 1]: conversions stay in range, and one channel is at least 127. -/
theorem heatColor_spec {p : F64} (hp : In (clip p) 0 1) (I : Impl) :
    (∀ J : Impl, heatColor I p = heatColor J p) ∧
    (127 ≤ (heatColor I p).r.toNat ∨ 127 ≤ (heatColor I p).g.toNat ∨ 127 ≤ (heatColor I p).b.toNat) := by
  have h := parts hp
  simp only at h
  have hnn : ∀ n : F64, (div (fmod (add (sub (lit f64 360) (mul (lit f64 330) (clip p))) (lit f64 240)) (lit f64 360))
      (lit f64 60)) ≠ .nan := fun _ => isFin_ne_nan h.hue.fin
  have hti : ∀ J : Impl, toInt J.int (div (fmod (add (sub (lit f64 360) (mul (lit f64 330) (clip p))) (lit f64 240))
      (lit f64 360)) (lit f64 60)) = toInt I.int (div (fmod (add (sub (lit f64 360) (mul (lit f64 330) (clip p)))
      (lit f64 240)) (lit f64 360)) (lit f64 60)) := by
    intro J
    apply toInt_indep _ _ h.hue.fin
    have hp50 : 0 < pow2 (-50) := pow2_pos _
    rw [abs_of_nonneg h.hue.lo]; linarith [h.hue.hi]
  obtain ⟨⟨g1, g2, g3⟩, hc⟩ := sector_channels h I.int
  have k1 := channel g1.1 h.m_fin g1.2.1 g1.2.2
  have k2 := channel g2.1 h.m_fin g2.2.1 g2.2.2
  have k3 := channel g3.1 h.m_fin g3.2.1 g3.2.2
  constructor
  · intro J
    unfold heatColor
    simp only
    rw [show (if lt (lit f64 1) p = true then lit f64 1 else p) = clip p from rfl]
    rw [if_neg (hnn .nan), hti J, k1.1 J.u8 I.u8, k2.1 J.u8 I.u8, k3.1 J.u8 I.u8]
  · unfold heatColor
    simp only
    rw [show (if lt (lit f64 1) p = true then lit f64 1 else p) = clip p from rfl]
    rw [if_neg (hnn .nan)]
    rcases hc with hc | hc | hc
    · exact Or.inl (k1.2 _ (by rw [hc]; exact h.cm_lo))
    · exact Or.inr (Or.inl (k2.2 _ (by rw [hc]; exact h.cm_lo)))
    · exact Or.inr (Or.inr (k3.2 _ (by rw [hc]; exact h.cm_lo)))

end Radolan.Vis
