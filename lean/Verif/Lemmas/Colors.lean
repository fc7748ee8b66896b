/- The position of a value in a gradient. -/
import Verif.Lemmas.FloatSmall
import Verif.Lemmas.Calib
import Verif.Model.Vis

namespace Go.Fl

instance (f : Fmt) (q : ℚ) : Decidable (IsRep f q) := inferInstanceAs (Decidable (_ ∧ _))

theorem le_fin_of {x y : F64} (hx : x.isFin = true) (hy : y.isFin = true) (h : x.val ≤ y.val) : le x y = true :=
  (le_fin hx hy).mpr h

theorem one_fin : (lit f64 1 : F64).isFin = true ∧ (lit f64 1 : F64).val = 1 := by rw [lit_one]; exact ⟨rfl, rfl⟩

/-- the limiting step `if p > 1 { p = 1 }` -/
def clip (p : F64) : F64 := if lt (lit f64 1) p then lit f64 1 else p

theorem clip_cases {p : F64} (hp : p ≠ .nan) (h0 : le zero p = true) :
    (clip p).isFin = true ∧ 0 ≤ (clip p).val ∧ (clip p).val ≤ 1 ∧ (le (lit f64 1) p = true → clip p = lit f64 1) := by
  have h1n : (lit f64 1 : F64) ≠ .nan := isFin_ne_nan one_fin.1
  unfold clip
  split
  · refine ⟨one_fin.1, by rw [one_fin.2]; norm_num, by rw [one_fin.2], fun _ => rfl⟩
  · rename_i h
    have h : lt (lit f64 1) p = false := by simpa using h
    have hle := (not_lt h1n hp).mp h
    have hfin : p.isFin = true := by
      rcases le_iff.mp hle with ⟨_, _, e | e | ⟨h3, _, _⟩⟩
      · rw [e] at h0; simp [le, lt, beq, zero] at h0
      · rw [lit_one] at e; simp at e
      · exact h3
    have hz : (zero : F64).isFin = true := rfl
    refine ⟨hfin, (le_fin hz hfin).mp h0, ?_, ?_⟩
    · have := (le_fin hfin one_fin.1).mp hle; rwa [one_fin.2] at this
    · intro hge
      have a := (le_fin hfin one_fin.1).mp hle
      have b := (le_fin one_fin.1 hfin).mp hge
      have e : p.val = (lit f64 1 : F64).val := _root_.le_antisymm a b
      exact eq_of_val hfin one_fin.1 e (by rw [e, one_fin.2]; norm_num)

theorem clip_mono {p q : F64} (h : le p q = true) : le (clip p) (clip q) = true := by
  have h1n : (lit f64 1 : F64) ≠ .nan := isFin_ne_nan one_fin.1
  have hp := (le_iff.mp h).1
  have hq := (le_iff.mp h).2.1
  unfold clip
  split
  · split
    · exact le_refl h1n
    · rename_i h1 h2
      have h2 : le q (lit f64 1) = true := (not_lt h1n hq).mp (by simpa using h2)
      have := le_trans h h2
      have := (not_lt h1n hp).mpr this
      rw [this] at h1; simp at h1
  · split
    · rename_i h1 h2
      exact (not_lt h1n hp).mp (by simpa using h1)
    · exact h

section
variable {mn mx : F64} (hmn : mn.isFin = true) (hmx : mx.isFin = true) (hlt : lt mn mx = true)
  (hd : (sub mx mn).isFin = true)
include hmn hmx hlt hd

theorem width_pos : 0 < (sub mx mn).val := sub_pos hmn hmx (by rwa [lt_fin hmn hmx, decide_eq_true_iff] at hlt) hd

theorem pos_mono {v w : F64} (h : le v w = true) :
    le (div (sub v mn) (sub mx mn)) (div (sub w mn) (sub mx mn)) = true :=
  div_mono hd (width_pos hmn hmx hlt hd) (sub_mono hmn h)

theorem pos_ne_nan {v : F64} (hv : v ≠ .nan) : div (sub v mn) (sub mx mn) ≠ .nan :=
  div_ne_nan (sub_ne_nan hv hmn) hd (width_pos hmn hmx hlt hd)

theorem pos_min : div (sub mn mn) (sub mx mn) = zero := by
  have h0 := width_pos hmn hmx hlt hd
  rw [sub_self_fin hmn, div_fin rfl hd h0.ne', sign_of_pos hd h0]
  simp [mk, zero, val, sign]

theorem pos_max : div (sub mx mn) (sub mx mn) = lit f64 1 := by
  have h0 := width_pos hmn hmx hlt hd
  rw [div_fin hd hd h0.ne', div_self h0.ne']
  have := sign_of_pos hd h0
  rw [this]; rfl

/-- a number at or above the lower bound gets a position in [0, 1] -/
theorem pos_spec {v : F64} (h : le mn v = true) :
    (clip (div (sub v mn) (sub mx mn))).isFin = true ∧ 0 ≤ (clip (div (sub v mn) (sub mx mn))).val ∧
    (clip (div (sub v mn) (sub mx mn))).val ≤ 1 ∧
    (le mx v = true → clip (div (sub v mn) (sub mx mn)) = lit f64 1) := by
  have hv := (le_iff.mp h).2.1
  have h0 : le zero (div (sub v mn) (sub mx mn)) = true := by
    rw [← pos_min hmn hmx hlt hd]; exact pos_mono hmn hmx hlt hd h
  obtain ⟨a, b, c, d⟩ := clip_cases (pos_ne_nan hmn hmx hlt hd hv) h0
  refine ⟨a, b, c, fun hm => d ?_⟩
  rw [← pos_max hmn hmx hlt hd]; exact pos_mono hmn hmx hlt hd hm

end

theorem lit_255 : (lit f64 255 : F64).isFin = true ∧ (lit f64 255 : F64).val = 255 := by
  have h : IsRep f64 255 := by decide +kernel
  rw [lit_of_repr h]; exact ⟨rfl, rfl⟩

/-- scaling a position to a byte -/
theorem byte_spec (i : F64 → UInt8) {p : F64} (hp : p.isFin = true) (h0 : 0 ≤ p.val) (h1 : p.val ≤ 1) :
    (toU8 i (mul (lit f64 255) p)).toNat = (ratTrunc (rnd f64 (255 * p.val))).toNat ∧
    0 ≤ rnd f64 (255 * p.val) ∧ ∀ j, toU8 i (mul (lit f64 255) p) = toU8 j (mul (lit f64 255) p) := by
  have hb : |255 * p.val| ≤ 1024 := by rw [abs_of_nonneg (by linarith)]; linarith
  have hm : (mul (lit f64 255) p).isFin = true ∧ (mul (lit f64 255) p).val = rnd f64 (255 * p.val) := by
    rw [mul_fin lit_255.1 hp, lit_255.2]
    exact ⟨(mk_near hb).1, mk_val_of_isFin (mk_near hb).1⟩
  have hn : 0 ≤ rnd f64 (255 * p.val) := rnd_nonneg _ (by linarith)
  have hle : rnd f64 (255 * p.val) ≤ 255 := by
    have h2 : rnd f64 (255 * p.val) ≤ rnd f64 255 := rnd_mono _ (by linarith)
    have h3 : rnd f64 255 = 255 := (show IsRep f64 255 by decide +kernel).1
    linarith
  refine ⟨?_, hn, ?_⟩
  · rw [toU8_eq i hm.1 (by rw [hm.2]; linarith) (by rw [hm.2]; linarith), hm.2]
  · intro j
    exact toU8_indep i j hm.1 (by rw [hm.2]; linarith) (by rw [hm.2]; linarith)

theorem byte_mono (i j : F64 → UInt8) {p q : F64} (hp : p.isFin = true) (h0 : 0 ≤ p.val) (hq : q.isFin = true)
    (h1 : q.val ≤ 1) (h : p.val ≤ q.val) :
    (toU8 i (mul (lit f64 255) p)).toNat ≤ (toU8 j (mul (lit f64 255) q)).toNat := by
  obtain ⟨a, b, _⟩ := byte_spec i hp h0 (h.trans h1)
  obtain ⟨c, d, _⟩ := byte_spec j hq (h0.trans h) h1
  rw [a, c]
  have : rnd f64 (255 * p.val) ≤ rnd f64 (255 * q.val) := rnd_mono _ (by linarith)
  exact Int.toNat_le_toNat (ratTrunc_mono b this)

theorem byte_one (i : F64 → UInt8) : toU8 i (mul (lit f64 255) (lit f64 1)) = 255 := by
  have := (byte_spec i one_fin.1 (by rw [one_fin.2]; norm_num) (by rw [one_fin.2])).1
  rw [one_fin.2, mul_one, (show IsRep f64 255 by decide +kernel).1] at this
  apply UInt8.toNat_inj.mp
  rw [this]; decide +kernel

theorem byte_zero (i : F64 → UInt8) : toU8 i (mul (lit f64 255) zero) = 0 := by
  have := (byte_spec i (p := zero) rfl (_root_.le_refl _) (by simp [val, zero])).1
  apply UInt8.toNat_inj.mp
  rw [this]; decide +kernel

end Go.Fl
