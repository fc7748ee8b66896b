/- Every permitted evaluation of an operation is within one rounding error of the exact result. -/
import Verif.Spec.Fusion
import Verif.Lemmas.FloatPlane

namespace Radolan.Fusion
open Go Go.Fl Real _root_.Spec.Fusion

/-- an intermediate result stands for a real number if it does so before and after rounding -/
def InterAp : Inter → ℝ → ℝ → Prop
  | .word x, r, ε => Ap x r ε
  | .exact q, r, ε => |(q : ℝ) - r| ≤ ε ∧ ∀ neg, Ap (mk f64 neg q) r ε

/-- all members of a set stand for the number -/
def SetAp (a : Inter → Prop) (r ε : ℝ) : Prop := ∀ u, a u → InterAp u r ε

theorem InterAp.rounds {u : Inter} {r ε : ℝ} (h : InterAp u r ε) {x : F64} (hx : u.Rounds x) : Ap x r ε := by
  cases u with
  | word y => rw [show x = y from hx]; exact h
  | exact q => obtain ⟨b, rfl⟩ := hx; exact h.2 b

theorem InterAp.is {u : Inter} {r ε : ℝ} (h : InterAp u r ε) {q : ℚ} (hq : u.Is q) : |(q : ℝ) - r| ≤ ε := by
  cases u with
  | word y => rw [hq.2]; exact h.2
  | exact p => rw [show q = p from hq]; exact h.1

theorem InterAp.nonneg {u : Inter} {r ε : ℝ} (h : InterAp u r ε) : 0 ≤ ε := by
  cases u with
  | word y => exact (abs_nonneg _).trans h.2
  | exact p => exact (abs_nonneg _).trans h.1

theorem just_ap {x : F64} {r ε : ℝ} (h : Ap x r ε) : SetAp (just x) r ε := by
  rintro u rfl
  exact h

/-- a permitted result is near the exact one if the rounded operation is and the exact one is -/
theorem binary_ap {op : F64 → F64 → F64} {exactly : ℚ → ℚ → ℚ} {defined : ℚ → ℚ → Prop} {a b : Inter → Prop}
    {r s res ε δ M t e : ℝ} (ha : SetAp a r ε) (hb : SetAp b s δ)
    (hop : ∀ {x y : F64}, Ap x r ε → Ap y s δ → Ap (op x y) res t)
    (hex : ∀ {p q : ℚ}, |(p : ℝ) - r| ≤ ε → |(q : ℝ) - s| ≤ δ → |((exactly p q : ℚ) : ℝ) - res| ≤ e)
    (hM : |res| + e ≤ M) (h1 : 1 / 10 ^ 60 ≤ M) (h2 : M ≤ 10 ^ 60) (ht : e + M * (12 / 10 ^ 17) ≤ t) :
    SetAp (binary op exactly defined a b) res t := by
  rintro w ⟨u, v, hu, hv, hw⟩
  have au := ha u hu
  have av := hb v hv
  have h60 : (0 : ℝ) ≤ 1 / 10 ^ 60 := by norm_num
  cases hw with
  | separate hx hy => exact hop (au.rounds hx) (av.rounds hy)
  | @kept p q hp hq hd =>
    have k := hex (au.is hp) (av.is hq)
    refine ⟨k.trans ?_, fun neg => (mk_ap k hM h1 h2).mono ht⟩
    linarith
  | @fused p q neg hp hq hd =>
    exact (mk_ap (hex (au.is hp) (av.is hq)) hM h1 h2).mono ht

theorem call_ap {f : F64 → F64} {a : Inter → Prop} {r res ε t : ℝ} (ha : SetAp a r ε)
    (hf : ∀ {x : F64}, Ap x r ε → Ap (f x) res t) : SetAp (call f a) res t := by
  rintro w ⟨u, x, hu, hx, rfl⟩
  exact hf ((ha u hu).rounds hx)

theorem tracks_permitted {L : MathLib} (hL : _root_.Spec.AccurateMath L) : Tracks (permittedArith L) SetAp where
  mono h hd u hu := by
    have := h u hu
    cases u with
    | word x => exact Ap.mono this hd
    | exact q => exact ⟨this.1.trans hd, fun b => (this.2 b).mono hd⟩
  lit h1 h2 h3 h4 h5 := just_ap (lit_ap h1 h2 h3 h4 h5)
  lit_zero := just_ap (tracks_f64 hL).lit_zero
  lit_one := just_ap (tracks_f64 hL).lit_one
  piMul _ := rfl
  ofInt h0 h1 h2 := just_ap ((tracks_f64 hL).ofInt h0 h1 h2)
  add hx hy hM h1 h2 ht := by
    refine binary_ap hx hy (fun a b => add_ap a b hM h1 h2 ht) ?_ hM h1 h2 ht
    intro p q hp hq
    push_cast
    exact Num.near_add hp hq
  sub hx hy hM h1 h2 ht := by
    refine binary_ap hx hy (fun a b => sub_ap a b hM h1 h2 ht) ?_ hM h1 h2 ht
    intro p q hp hq
    push_cast
    exact Num.near_sub hp hq
  mul hx hy ha hb he h1 h2 ht := by
    refine binary_ap (e := _) hx hy (fun a b => mul_ap a b ha hb he h1 h2 ht) ?_ ?_ h1 h2 ht
    · intro p q hp hq
      push_cast
      exact Num.mul_bound hp hq ha hb he
    · have := Radolan.Num.abs_mul_le ha hb
      linarith
  div := by
    intro x y a b ε δ m q e t hx hy hm hb hq he h1 h2 ht w hw
    have hδ : 0 ≤ δ := by
      obtain ⟨_, v, _, hv, _⟩ := hw
      exact (hy v hv).nonneg
    have hb0 : 0 < |b| := by linarith
    have hab : |a / b| ≤ q := by rw [abs_div, div_le_iff₀ hb0]; exact hq
    refine binary_ap (e := e) hx hy (fun a b => div_ap a b hm hb hq he h1 h2 ht) ?_ (by linarith) h1 h2 ht w hw
    intro p q hp hq'
    push_cast
    exact (Num.near_div hp hq' hm hb hq).trans he
  neg h w hw := by
    obtain ⟨u, hu, hw⟩ := hw
    have := h u hu
    cases u with
    | word x => simp only at hw; rw [hw]; exact neg_ap this
    | exact q =>
      simp only at hw
      rw [hw]
      refine ⟨?_, ?_⟩
      · push_cast
        rw [← neg_sub', abs_neg]; exact this.1
      · intro b
        have hb := this.2 b
        have hf := Fl.mk_isFin_iff.mp hb.1
        have hf' : |rnd f64 (-q)| < pow2 f64.emax := by rw [rnd_neg, abs_neg]; exact hf
        obtain ⟨f1, f2⟩ := Fl.mk_fin (b := b) hf'
        refine ⟨f1, ?_⟩
        have h2 := hb.2
        rw [(Fl.mk_fin (b := b) hf).2] at h2
        rw [f2, rnd_neg]
        push_cast
        rw [← neg_sub', abs_neg]; exact h2
  sin h h1 h2 := call_ap h fun a => sin_ap hL a h1 h2
  cos h h1 h2 := call_ap h fun a => cos_ap hL a h1 h2
  tan h h1 h2 := call_ap h fun a => tan_ap hL a h1 h2
  pow hx hy h1 h2 h3 := by
    rintro w ⟨u, v, x, y, hu, hv, hux, hvy, rfl⟩
    exact pow_ap hL ((hx u hu).rounds hux) ((hy v hv).rounds hvy) h1 h2 h3

end Radolan.Fusion
