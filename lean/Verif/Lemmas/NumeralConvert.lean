/- `convertFloat` of package fmt on the tokens of `floatToken`. -/
import Verif.Lemmas.NumeralToken
import Verif.Lemmas.Nearest

namespace Radolan
open Go
open _root_.Spec (Digit Digits Pointed Sign Rounded Numeral)

theorem f32_in_f64 {q : ℚ} (h : rnd f32 q = q) : rnd f64 q = q := by
  obtain ⟨n, e, he, hn, hq⟩ := rnd_form f32 q
  rw [h] at hq
  rw [hq]
  have h1 : f32.emin = -149 := by decide
  have h2 : f64.emin = -1074 := by decide
  have h3 : |n| ≤ 2 ^ 24 := hn
  exact rnd_exact f64 (by omega) (h3.trans (by decide))

/-- multiplication by a power of two is exact before rounding -/
theorem ldexp_conv {w : F32} (hw : w.isFin = true) (m : Int) :
    ldexp (w.conv f64) m = Fl.mk f64 w.sign (w.val * (2 : ℚ) ^ m) := by
  cases w with
  | nan => simp [Fl.isFin] at hw
  | inf b => simp [Fl.isFin] at hw
  | nzero => simp [Fl.conv, ldexp, Fl.sign, Fl.val, Fl.mk, rnd_zero]
  | fin q h =>
    have hr : rnd f64 q = q := f32_in_f64 h.1
    have hb : |q| < pow2 f64.emax := lt_of_lt_of_le h.2 (pow2_le.mpr (by decide))
    simp only [Fl.conv, Fl.sign, Fl.val]
    unfold Fl.mk
    by_cases h0 : rnd f64 q = 0
    · have hq : q = 0 := by rw [← hr]; exact h0
      subst hq
      rw [if_pos h0]
      simp [ldexp, Fl.zero, Fl.mk, Fl.sign, rnd_zero]
    · rw [if_neg h0, dif_pos (by rw [hr]; exact hb)]
      simp only [ldexp, Fl.sign]
      rw [hr]; rfl

theorem atoi_iff (s : Sign) {D : List Nat} (hD : ∀ c ∈ D, isDec c = true) (m : Int) :
    atoi (s.chars ++ D) = some m ↔ ∃ ds : List Nat, D = ds.map (48 + ·) ∧ ds ≠ [] ∧ (∀ d ∈ ds, d < 10) ∧
      m = s.apply (Spec.decimal ds) ∧ -(2 ^ 63) ≤ m ∧ m < 2 ^ 63 := by
  unfold atoi
  rw [signSplit_chars s (fun _ => unsigned_dec (head_mem hD))]
  simp only
  have hv : ∀ ds : List Nat, (if decide (s = .minus) = true then -(digitsVal (ds.map (48 + ·)) : Int)
      else digitsVal (ds.map (48 + ·))) = s.apply (Spec.decimal ds) := by
    intro ds
    rw [digitsVal_decimal]
    cases s <;> simp [Sign.apply]
  constructor
  · intro h
    split at h
    · rename_i hd
      obtain ⟨ds, rfl, h10⟩ := digits_of (l := D) (by simpa using hd.2)
      rw [hv ds] at h
      split at h
      · simp only [Option.some.injEq] at h
        subst h
        exact ⟨ds, rfl, by simpa using hd.1, h10, rfl, by assumption⟩
      · simp at h
    · simp at h
  · rintro ⟨ds, rfl, hne, h10, rfl, h63⟩
    rw [if_pos, hv ds, if_pos h63]
    refine ⟨by simpa using hne, ?_⟩
    rw [List.all_eq_true]
    intro c hc
    rw [List.mem_map] at hc
    obtain ⟨d, hd, rfl⟩ := hc
    exact isDigit_code (h10 d hd)

theorem wordless_dec {B D X : List Nat} (hB : Body false B D) (hX : Tail decExp X) : Wordless (B ++ X) := by
  have tail : Wordless X := by
    cases hX with
    | none => intro c hc; simp at hc
    | @exp c s E hc hE =>
      intro x hx; simp at hx; subst hx
      simp only [decExp, List.mem_cons, List.not_mem_nil, or_false] at hc
      omega
  have dec : ∀ c, isDec c = true → c ≠ 43 ∧ c ≠ 45 ∧ c ≠ 105 ∧ c ≠ 73 ∧ c ≠ 110 ∧ c ≠ 78 := by
    intro c hc
    unfold isDec isDigit at hc
    simp only [Bool.or_eq_true, Bool.and_eq_true, decide_eq_true_eq, beq_iff_eq] at hc
    omega
  cases hB with
  | whole h =>
    cases B with
    | nil => exact tail
    | cons d D => intro c hc; simp at hc; subst hc; exact dec _ (h _ (by simp))
  | @pointed D D' h h' =>
    cases D with
    | nil => intro c hc; simp at hc; omega
    | cons d D => intro c hc; simp at hc; subst hc; exact dec _ (h _ (by simp))

theorem rounded_iff (s : Sign) (q : ℚ) (v : F32) : Rounded s q v ↔
    v = Fl.mk f32 (decide (s = .minus)) (if decide (s = .minus) = true then -q else q) ∧ v.isFin = true := by
  unfold Rounded
  simp only [decide_eq_true_eq]

/-- `ParseFloat` on a decimal token -/
theorem parse_dec (s : Sign) {B D X : List Nat} (hB : Body false B D) (hX : Tail decExp X) (hlen : X.length ≤ 5) (v : F32) :
    parseFloat32 (s.chars ++ (B ++ X)) = some v ↔
      ∃ q e, Spec.Mantissa 10 B q ∧ Power false X e ∧ Rounded s (q * (10 : ℚ) ^ e) v := by
  have hw := wordless_dec hB hX
  rw [parse_wordless s hw]
  constructor
  · rintro ⟨neg, q, h1, h2, h3⟩
    obtain ⟨rfl, q0, e, a1, a2, rfl⟩ := (readFloat_dec s hw.unsigned hB hX hlen neg q).mp h1
    exact ⟨q0, e, a1, a2, (rounded_iff ..).mpr ⟨h2, h3⟩⟩
  · rintro ⟨q0, e, a1, a2, h⟩
    obtain ⟨h2, h3⟩ := (rounded_iff ..).mp h
    exact ⟨_, _, (readFloat_dec s hw.unsigned hB hX hlen _ _).mpr ⟨rfl, q0, e, a1, a2, rfl⟩, h2, h3⟩

theorem power_dec {X : List Nat} {e : Int} : Power false X e ↔ (X = [] ∧ e = 0) ∨ ∃ c x, X = c :: x ∧ (c = 101 ∨ c = 69) ∧
    Spec.Exponent x e := by
  constructor
  · intro h
    cases h with
    | none _ => exact Or.inl ⟨rfl, rfl⟩
    | @some c x _ hc hx =>
      have := (lower_eq (by simp)).mp hc
      simp only [Bool.false_eq_true, if_false] at this
      exact Or.inr ⟨c, x, rfl, by omega, hx⟩
  · rintro (⟨rfl, rfl⟩ | ⟨c, x, rfl, hc, hx⟩)
    · exact .none rfl
    · refine .some ?_ hx
      rcases hc with rfl | rfl <;> rfl

theorem power_hex {X : List Nat} {e : Int} : Power true X e ↔ ∃ c x, X = c :: x ∧ (c = 112 ∨ c = 80) ∧ Spec.Exponent x e := by
  constructor
  · intro h
    cases h with
    | none h => simp at h
    | @some c x _ hc hx =>
      have := (lower_eq (by simp)).mp hc
      simp only [if_true] at this
      exact ⟨c, x, rfl, by omega, hx⟩
  · rintro ⟨c, x, rfl, hc, hx⟩
    refine .some ?_ hx
    rcases hc with rfl | rfl <;> rfl

/-- the three kinds of decimal tokens -/
theorem convert_dec (s : Sign) {B D X : List Nat} (hB : Body false B D) (hX : Tail decExp X) (hlen : X.length ≤ 5) (v : F32) :
    convertFloat32 (s.chars ++ (B ++ X)) = some v ↔ ∃ q, Spec.Mantissa 10 B q ∧
      ((X = [] ∧ Rounded s q v) ∨
       (∃ c x e, X = c :: x ∧ (c = 101 ∨ c = 69) ∧ Spec.Exponent x e ∧ Rounded s (q * (10 : ℚ) ^ e) v) ∨
       (∃ (w : F32) (s' : Sign) (ds : List Nat) (e : Int), X = 112 :: (s'.chars ++ ds.map (48 + ·)) ∧ Rounded s q w ∧ ds ≠ [] ∧
         (∀ d ∈ ds, d < 10) ∧ e = s'.apply (Spec.decimal ds) ∧ (-(2 ^ 63) ≤ e ∧ e < 2 ^ 63) ∧
         v = (Fl.mk f64 w.sign (w.val * (2 : ℚ) ^ e)).conv f32)) := by
  have hch : ∀ c ∈ s.chars ++ (B ++ X), DecChar c := by
    intro c hc
    rcases List.mem_append.mp hc with hc | hc
    · have := sign_chars s c hc; unfold DecChar; tauto
    · rcases List.mem_append.mp hc with hc | hc
      · exact body_chars hB c hc
      · exact tail_chars hX c hc
  have hx : ((s.chars ++ (B ++ X)).contains 120 || (s.chars ++ (B ++ X)).contains 88) = false := by
    rw [Bool.or_eq_false_iff]
    constructor
    · rw [← Bool.not_eq_true, List.contains_iff_mem]; intro h; have := decChar_range (hch _ h); omega
    · rw [← Bool.not_eq_true, List.contains_iff_mem]; intro h; have := decChar_range (hch _ h); omega
  have hBp : ∀ c ∈ s.chars ++ B, c ≠ 112 := by
    intro c hc
    rcases List.mem_append.mp hc with hc | hc
    · have := sign_chars s c hc; omega
    · have dec : ∀ c, isDec c = true → c ≠ 112 := by rintro c h rfl; simp [isDec, isDigit] at h
      cases hB with
      | whole h => exact dec c (h c hc)
      | pointed h h' =>
        simp only [List.mem_append, List.mem_cons] at hc
        rcases hc with hc | rfl | hc
        · exact dec c (h c hc)
        · omega
        · exact dec c (h' c hc)
  unfold convertFloat32
  rw [hx, Bool.not_false, Bool.and_true]
  have none_p : ∀ x, X = 112 :: x → ∃ (s' : Sign) (E : List Nat), x = s'.chars ++ E ∧ ∀ c ∈ E, isDec c = true := by
    rintro x rfl
    generalize h : (112 :: x) = X at hX
    cases hX with
    | none => simp at h
    | exp s' hc hE => simp only [List.cons.injEq] at h; exact ⟨s', _, h.2, hE⟩
  by_cases hp : ∃ x, X = 112 :: x
  · obtain ⟨x, rfl⟩ := hp
    obtain ⟨s', E, rfl, hE⟩ := none_p x rfl
    rw [if_pos (by simp)]
    obtain ⟨t1, t2⟩ := takeWhile_split (p := fun c => c != 112) (D := s.chars ++ B) (r := 112 :: (s'.chars ++ E))
      (by intro c hc; simpa using hBp c hc) (by intro c hc; simp at hc; subst hc; rfl)
    rw [← List.append_assoc, t1, t2]
    have hparse := parse_dec s hB .none (by simp)
    simp only [List.append_nil] at hparse
    constructor
    · intro h
      simp only [Option.bind_eq_bind, Option.bind_eq_some_iff, Option.some.injEq] at h
      obtain ⟨w, hw, m, hm, rfl⟩ := h
      obtain ⟨q, e, hq, he, hr⟩ := (hparse w).mp hw
      rcases power_dec.mp he with ⟨_, rfl⟩ | ⟨_, _, h, _⟩
      · rw [zpow_zero, mul_one] at hr
        obtain ⟨ds, rfl, a1, a2, a3, a4⟩ := (atoi_iff s' hE m).mp hm
        exact ⟨q, hq, Or.inr (Or.inr ⟨w, s', ds, m, rfl, hr, a1, a2, a3, a4, by rw [ldexp_conv hr.2]⟩)⟩
      · simp at h
    · rintro ⟨q, hq, ⟨h, _⟩ | ⟨c, x, e, h, hc, _⟩ | ⟨w, s'', ds, e, h, hw, a1, a2, a3, a4, rfl⟩⟩
      · simp at h
      · simp only [List.cons.injEq] at h; omega
      · have hE' : E = ds.map (48 + ·) ∧ s'.chars = s''.chars := by
          simp only [List.cons.injEq, true_and] at h
          have hu : ∀ d, d ∈ ds.map (48 + ·) → isDec d = true := by
            intro d hd
            rw [List.mem_map] at hd
            obtain ⟨d', hd', rfl⟩ := hd
            unfold isDec; rw [isDigit_code (a2 d' hd')]; rfl
          have e1 := signToken_chars s' (fun _ => unsigned_dec (head_mem hE))
          have e2 := signToken_chars s'' (fun _ => unsigned_dec (head_mem hu))
          rw [h, e2] at e1
          simp only [Prod.mk.injEq] at e1
          exact ⟨e1.2.symm, e1.1.symm⟩
        rw [hE'.1, hE'.2]
        have hw' : parseFloat32 (s.chars ++ B) = some w :=
          (hparse w).mpr ⟨q, 0, hq, .none rfl, by rwa [zpow_zero, mul_one]⟩
        rw [hw']
        have hm : atoi (s''.chars ++ ds.map (48 + ·)) = some e :=
          (atoi_iff s'' (by rw [← hE'.1]; exact hE) e).mpr ⟨ds, rfl, a1, a2, a3, a4⟩
        simp only [List.drop_succ_cons, List.drop_zero, Option.bind_eq_bind, Option.bind_some]
        rw [hm, Option.bind_some, ldexp_conv hw.2]
  · have hXp : ∀ c ∈ X, c ≠ 112 := by
      cases hX with
      | none => simp
      | @exp c s' E hc hE =>
        intro x hx
        simp only [List.mem_cons, List.mem_append] at hx
        rcases hx with rfl | hx | hx
        · rintro rfl; exact hp ⟨_, rfl⟩
        · have := sign_chars s' x hx; omega
        · rintro rfl; have := hE _ hx; simp [isDec, isDigit] at this
    rw [if_neg (by
      rw [List.contains_iff_mem, ← List.append_assoc]
      intro h
      rcases List.mem_append.mp h with h | h
      · exact hBp _ h rfl
      · exact hXp _ h rfl), parse_dec s hB hX hlen]
    constructor
    · rintro ⟨q, e, hq, he, hr⟩
      refine ⟨q, hq, ?_⟩
      rcases power_dec.mp he with ⟨rfl, rfl⟩ | ⟨c, x, rfl, hc, hx⟩
      · rw [zpow_zero, mul_one] at hr; exact Or.inl ⟨rfl, hr⟩
      · exact Or.inr (Or.inl ⟨c, x, e, rfl, hc, hx, hr⟩)
    · rintro ⟨q, hq, ⟨rfl, hr⟩ | ⟨c, x, e, rfl, hc, hx, hr⟩ | ⟨w, s'', ds, e, rfl, _⟩⟩
      · exact ⟨q, 0, hq, .none rfl, by rwa [zpow_zero, mul_one]⟩
      · exact ⟨q, e, hq, power_dec.mpr (Or.inr ⟨c, x, rfl, hc, hx⟩), hr⟩
      · exact absurd ⟨_, rfl⟩ hp

theorem convert_hex (s : Sign) {B D X : List Nat} {p : Nat} (hp : p = 120 ∨ p = 88) (hB : Body true B D)
    (hX : Tail hexExp X) (hlen : X.length ≤ 5) (v : F32) :
    convertFloat32 (s.chars ++ 48 :: p :: (B ++ X)) = some v ↔
      ∃ q t c x e, Spec.Mantissa 16 t q ∧ (B = t ∨ (B = 95 :: t ∧ t.head? ≠ some 46)) ∧ X = c :: x ∧ (c = 112 ∨ c = 80) ∧
        Spec.Exponent x e ∧ Rounded s (q * (2 : ℚ) ^ e) v := by
  unfold convertFloat32
  have hx : ((s.chars ++ 48 :: p :: (B ++ X)).contains 120 || (s.chars ++ 48 :: p :: (B ++ X)).contains 88) = true := by
    rcases hp with rfl | rfl <;> simp
  rw [hx, Bool.not_true, Bool.and_false, if_neg (by simp)]
  have hw : Wordless (48 :: p :: (B ++ X)) := by intro c hc; simp at hc; omega
  rw [parse_wordless s hw]
  constructor
  · rintro ⟨neg, q, h1, h2, h3⟩
    obtain ⟨rfl, q0, t, e, a1, a2, a3, rfl⟩ := (readFloat_hex s hp hB hX hlen neg q).mp h1
    obtain ⟨c, x, rfl, hc, hx⟩ := power_hex.mp a3
    exact ⟨q0, t, c, x, e, a1, a2, rfl, hc, hx, (rounded_iff ..).mpr ⟨h2, h3⟩⟩
  · rintro ⟨q0, t, c, x, e, a1, a2, rfl, hc, hx, h⟩
    obtain ⟨h2, h3⟩ := (rounded_iff ..).mp h
    exact ⟨_, _, (readFloat_hex s hp hB hX hlen _ _).mpr ⟨rfl, q0, t, e, a1, a2, power_hex.mpr ⟨c, x, rfl, hc, hx⟩, rfl⟩, h2, h3⟩

end Radolan
