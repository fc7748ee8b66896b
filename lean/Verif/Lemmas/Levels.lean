/- fmt.Sscanf("%f") on Fortran F5.1 fields, and the level table. -/
import Verif.Lemmas.Numbers
import Verif.Lemmas.Header
import Verif.Lemmas.Nearest
import Verif.Lemmas.LevelText

namespace Radolan
open Go

theorem decimal_append (ds : List Nat) (d : Nat) : Spec.decimal (ds ++ [d]) = 10 * Spec.decimal ds + d := by
  induction ds with
  | nil => simp [Spec.decimal]
  | cons a ds ih =>
    simp only [List.cons_append, Spec.decimal, ih, List.length_append, List.length_singleton, Nat.pow_succ]
    ring

theorem decimal_bound {ds : List Nat} (hd : ∀ d ∈ ds, d < 10) : Spec.decimal ds < 10 ^ ds.length := by
  rw [← digitsVal_decimal]
  have := digitsVal_lt (l := ds.map (48 + ·)) (by
    intro x hx; rw [List.mem_map] at hx; obtain ⟨d, h, rfl⟩ := hx; exact isDigit_code (hd d h))
  simpa using this

theorem rnd_small {q : ℚ} (h : |q| ≤ 65536) : |rnd f32 q| < pow2 f32.emax := by
  have hp : pow2 16 = 65536 := by rw [pow2_eq]; norm_num
  have h1 : rnd f32 (pow2 16) = pow2 16 := by
    have := rnd_exact f32 (n := 1) (e := 16) (by decide) (by decide)
    simpa using this
  rw [abs_le] at h
  have h2 : rnd f32 q ≤ pow2 16 := by rw [← h1]; exact rnd_mono f32 (by rw [hp]; exact h.2)
  have h3 : -pow2 16 ≤ rnd f32 q := by
    rw [← h1, ← rnd_neg]; exact rnd_mono f32 (by rw [hp]; exact h.1)
  have h4 : pow2 16 < pow2 f32.emax := pow2_lt.mpr (by decide)
  rw [abs_lt]; constructor <;> linarith

/-- digits as in `asciiDigits` -/
theorem digits_plain {ds : List Nat} (hne : ds ≠ []) (hd : ∀ d ∈ ds, d < 10) :
    Spec.Digits 10 (ds.map (48 + ·)) (Spec.decimal ds) ds.length := by
  induction ds using List.reverseRecOn with
  | nil => exact absurd rfl hne
  | append_singleton ds d ih =>
    have h10 := hd d (by simp)
    rw [List.map_append, decimal_append, List.length_append]
    by_cases h0 : ds = []
    · subst h0
      simpa [Spec.decimal] using Spec.Digits.one (.decimal (base := 10) h10)
    · have := Spec.Digits.next (ih h0 fun x hx => hd x (by simp [hx])) (.decimal h10)
      rwa [Nat.mul_comm] at this

/-- an F5.1 field is a level -/
theorem levelText_F51 {text : Bytes} {q : ℚ} (h : Spec.IsF51 text q) :
    ∃ v : F32, Spec.LevelText text v ∧ v.isFin = true ∧ v.val = rnd f32 q := by
  obtain ⟨b, s, ip, d, rfl, hlen, hi, hd, hq⟩ := h
  have hd1 : ∀ x ∈ [d], x < 10 := by simpa using hd
  have hip : ip.length ≤ 3 := by
    simp [Spec.asciiDigits] at hlen; omega
  have hb : |q| ≤ 65536 := by
    have hdec : Spec.decimal (ip ++ [d]) < 10 ^ 4 := by
      refine lt_of_lt_of_le (decimal_bound (ds := ip ++ [d]) ?_) ?_
      · intro x hx; rcases List.mem_append.mp hx with h | h
        exacts [hi x h, hd1 x h]
      · exact Nat.pow_le_pow_right (by omega) (by simp; omega)
    have hdec' : (Spec.decimal (ip ++ [d]) : ℚ) ≤ 10 ^ 4 := by exact_mod_cast hdec.le
    have h0 : (0 : ℚ) ≤ (Spec.decimal (ip ++ [d]) : ℚ) := by positivity
    rw [hq, abs_div]
    have : |((s.apply (Spec.decimal (ip ++ [d])) : Int) : ℚ)| = (Spec.decimal (ip ++ [d]) : ℚ) := by
      cases s <;> simp [Spec.Sign.apply]
    rw [this]
    rw [abs_of_pos (by norm_num), div_le_iff₀ (by norm_num)]
    refine le_trans hdec' (by norm_num)
  have hmk : (Fl.mk f32 (decide (s = .minus)) q).isFin = true ∧ (Fl.mk f32 (decide (s = .minus)) q).val = rnd f32 q :=
    Fl.mk_fin (rnd_small hb)
  have hpt : Spec.Pointed 10 (ip.map (48 + ·) ++ [46, 48 + d]) ((Spec.decimal (ip ++ [d]) : ℚ) / 10) := by
    have h1 : Spec.Digits 10 [48 + d] d 1 := .one (.decimal hd)
    by_cases h0 : ip = []
    · subst h0
      simpa [Spec.decimal] using Spec.Pointed.before h1
    · have := Spec.Pointed.between (digits_plain h0 hi) h1
      rw [decimal_append]
      have e : ((10 * Spec.decimal ip + d : ℕ) : ℚ) / 10 = (Spec.decimal ip : ℚ) + (d : ℚ) / ((10 : ℕ) : ℚ) ^ 1 := by
        push_cast; ring
      rw [e]; exact this
  have hr : Spec.Rounded s ((Spec.decimal (ip ++ [d]) : ℚ) / 10) (Fl.mk f32 (decide (s = .minus)) q) := by
    refine ⟨?_, hmk.1⟩
    congr 1
    rw [hq]
    cases s <;> simp [Spec.Sign.apply]
    ring
  refine ⟨_, ⟨List.replicate b 32, s.chars ++ (ip.map (48 + ·) ++ [46, 48 + d]), [], _, ?_, blank_replicate b,
    .pointed s hpt hr, by simp, by rw [hlen]⟩, hmk⟩
  have e1 : s.chars.map UInt8.ofNat = s.text := by cases s <;> rfl
  simp [Spec.asciiDigits, e1]

/-- `%f` on an F5.1 field yields the rounded decimal -/
theorem sscanfF_F51 {text : Bytes} {q : ℚ} (h : Spec.IsF51 text q) :
    ∃ v : F32, sscanfF text = some v ∧ v.isFin = true ∧ v.val = rnd f32 q := by
  obtain ⟨v, h1, h2⟩ := levelText_F51 h
  have hlen : text.length ≤ 5 := by obtain ⟨_, _, _, _, _, _, _, _, h⟩ := h1; exact h
  exact ⟨v, (sscanfF_iff hlen v).mpr h1, h2⟩

end Radolan
