/-
C83: from the bytes of a run-length coded picture to the colours radolan2png draws.
-/
import Verif.Spec.PictureColors
import Verif.Props.Picture
import Verif.Props.Drawing

namespace Props
open Go Radolan Spec Radolan.Vis

/-! ### the nearest float32 -/

theorem near_le {v g : F32} {q : ℚ} (h : Nearest32 v q) (hg : g.isFin = true) (hq : q ≤ g.val) : v.val ≤ g.val := by
  by_contra hc
  have hc : g.val < v.val := by linarith
  have := h.2 g hg
  rw [abs_of_nonneg (by linarith : 0 ≤ v.val - q), abs_of_nonneg (by linarith : 0 ≤ g.val - q)] at this
  linarith

theorem near_ge {v g : F32} {q : ℚ} (h : Nearest32 v q) (hg : g.isFin = true) (hq : g.val ≤ q) : g.val ≤ v.val := by
  by_contra hc
  have hc : v.val < g.val := by linarith
  have := h.2 g hg
  rw [abs_of_nonpos (by linarith : v.val - q ≤ 0), abs_of_nonpos (by linarith : g.val - q ≤ 0)] at this
  linarith

/-- a level of at most four digits in tenths -/
theorem near_err {v : F32} {t : Int} (h : Nearest32 v ((t : ℚ) / 10)) (ht : |t| ≤ 9999) :
    |v.val - t / 10| ≤ |(t : ℚ) / 10| / 2 ^ 24 := by
  have htq : |(t : ℚ)| ≤ 9999 := by exact_mod_cast ht
  by_cases h0 : t = 0
  · subst h0
    have := h.2 (Fl.zero : F32) rfl
    have hz : (Fl.zero : F32).val = 0 := rfl
    rw [hz] at this
    simpa using this
  have h1 : (1 : ℚ) ≤ |(t : ℚ)| := by
    have : 1 ≤ |t| := Int.one_le_abs h0
    exact_mod_cast this
  have ha : |(t : ℚ) / 10| = |(t : ℚ)| / 10 := by rw [abs_div]; norm_num
  have e1 : pow2 (f32.emin + f32.prec - 1) ≤ 1 / 10 := by rw [pow2_eq]; decide +kernel
  have hr := rnd_rel_err f32 (q := (t : ℚ) / 10) (by rw [ha]; linarith)
  have e2 : pow2 (-(f32.prec : Int)) = 1 / 2 ^ 24 := by rw [pow2_eq]; decide +kernel
  rw [e2] at hr
  have hlt : |rnd f32 ((t : ℚ) / 10)| < pow2 f32.emax := by
    have b1 : |rnd f32 ((t : ℚ) / 10)| ≤ |rnd f32 ((t : ℚ) / 10) - t / 10| + |(t : ℚ) / 10| := by
      have := abs_add_le (rnd f32 ((t : ℚ) / 10) - t / 10) ((t : ℚ) / 10)
      rwa [sub_add_cancel] at this
    have b2 : (2000 : ℚ) < pow2 f32.emax := by rw [pow2_eq]; decide +kernel
    have b3 : |(t : ℚ) / 10| * (1 / 2 ^ 24) ≤ 1000 := by rw [ha]; linarith
    have b4 : |(t : ℚ) / 10| ≤ 1000 := by rw [ha]; linarith
    linarith
  obtain ⟨g1, g2⟩ := Fl.mk_fin (b := false) hlt
  have := h.2 _ g1
  rw [g2] at this
  linarith

theorem near_tenth {v : F32} {t : Int} (h : Nearest32 v ((t : ℚ) / 10)) (ht : |t| ≤ 9999) : Tenth (v.val : ℝ) t := by
  have := (Rat.cast_le (K := ℝ)).mpr (near_err h ht)
  unfold Tenth
  push_cast at this
  exact this

/-- one tenth is rounded up -/
theorem near_one {v : F32} (h : Nearest32 v (1 / 10)) : 1 / 10 ≤ v.val := by
  by_contra hc
  have h1 := f32_tenth_lt (not_le.mp hc)
  obtain ⟨g1, g2⟩ : (Fl.lit f32 (1 / 10)).isFin = true ∧ (Fl.lit f32 (1 / 10)).val = 13421773 / 134217728 := by decide +kernel
  have := h.2 _ g1
  rw [g2, abs_of_nonpos (by linarith : v.val - 1 / 10 ≤ 0), abs_of_nonneg (by norm_num)] at this
  linarith

/-- the value of a pixel -/
theorem classValue_tenths {levels : List F32} {ts : List Int}
    (h : List.Forall₂ Nearest32 levels (ts.map fun t : Int => (t : ℚ) / 10)) (k : Nat) :
    (classValue levels k = .nan ∧ (if k = 0 then none else ts[k - 1]?) = none) ∨
    ∃ t v, classValue levels k = v ∧ (if k = 0 then none else ts[k - 1]?) = some t ∧ Nearest32 v ((t : ℚ) / 10) := by
  unfold classValue
  by_cases h0 : k = 0
  · left; simp [h0]
  rw [if_neg h0, if_neg h0]
  have hl := h.length_eq
  rw [List.length_map] at hl
  rcases lt_or_ge (k - 1) ts.length with hk | hk
  · right
    have hk' : k - 1 < levels.length := by omega
    refine ⟨ts[k - 1], levels[k - 1], by rw [List.getElem?_eq_getElem hk']; rfl, List.getElem?_eq_getElem hk, ?_⟩
    have := h.get (i := k - 1) hk' (by rw [List.length_map]; exact hk)
    simpa using this
  · left
    rw [List.getElem?_eq_none (by omega), List.getElem?_eq_none hk]
    exact ⟨rfl, rfl⟩

/-! ### drawing -/

/-- the colour of every pixel is the colour of its level, except where the mesh or the borders are drawn -/
def Painted (E : Env) (I : Impl) (border : List (F64 × F64)) (p : Picture) (Color : Option Int → RGBA → Prop) : Prop :=
  ∃ img c, Cli.convert E I border p.serialise = .image img ∧ NewComposite E p.serialise = .ret c none ∧
    img.w = p.cols ∧ img.h = p.height ∧
    ∀ x y : Nat, x < p.cols → y < p.height → ∃ color, img.at x y = some color ∧
      (Overlaid E I c border x y → color = ⟨0x33, 0xFF, 0x22, 0xFF⟩ ∨ color = ⟨0xFF, 0xFF, 0x00, 0xFF⟩) ∧
      (¬ Overlaid E I c border x y → Color (p.tenths x y) color)

theorem pictured (E : Env) (I : Impl) (border : List (F64 × F64)) (p : Picture) (h : p.WF) {u : Spec.Unit}
    (hu : p.label ∈ productsIn u) (Color : Option Int → RGBA → Prop)
    (H : ∀ c fn, NewComposite E p.serialise = .ret c none → c.product ∈ productsIn u → c.interval = 0 →
      Cli.colorFunc I E.math c = some fn → Color none (pixelColor fn .nan) ∧
        ∀ (t : Int) v, |t| ≤ 9999 → Nearest32 v ((t : ℚ) / 10) → Color (some t) (pixelColor fn v)) :
    Painted E I border p Color := by
  obtain ⟨c, levels, hS, h1, _, _, _, hn, h3, h4, h4', _, _, h5, h6⟩ := C68_picture_round_trip E p h
  have hok := h6.mpr ⟨u, hu⟩
  have hw : ∀ g ∈ p.fields, g.WF := by
    obtain ⟨hh1, hh2⟩ := pictureHeader_length h
    have hdl := pictureData_length h
    obtain ⟨z1, z2, z3, z4⟩ := pictureSize h
    have hBYn := justified_numText 20 (p.headerLength + p.data.length) (by omega)
    exact pictureFields_wf h (plain_numText hBYn).1 (plain_numText hBYn).2
  have v5 : value p.fields (str "INT") = none :=
    (pictureFields_value h (justified 20 (p.headerLength + p.data.length))).2.2.2.2 _ (by simp)
  have hint := (C23_interval hw hS).1 v5
  have hsz : p.cols ≤ 999 ∧ p.height ≤ 999 := by
    have hz := h.size
    unfold Picture.height
    split at hz
    · rename_i hs; rw [hs]; simp; omega
    · split at hz
      · rename_i hs; rw [hs]; simp; omega
      · rename_i h1 h2
        simp only [Bool.not_eq_true] at h1 h2
        rw [h1, h2]; simp; omega
  have hsize : 4 * (c.dx * c.dy) ≤ 2 ^ 48 := by
    rw [h3, h4]
    have : p.cols * p.height ≤ 999 * 999 := Nat.mul_le_mul hsz.1 hsz.2
    exact_mod_cast (by omega : 4 * (p.cols * p.height) ≤ 2 ^ 48)
  obtain ⟨img, fn, mesh, g1, g2, g3, g4, g5, g6⟩ := (C50_drawing E I border p.serialise).2 c hok hsize
  obtain ⟨q1, q2⟩ := H c fn hok (by rw [h1]; exact hu) hint g2
  refine ⟨img, c, g1, hok, by rw [h3] at g4; exact_mod_cast g4, by rw [h4] at g5; exact_mod_cast g5, ?_⟩
  intro x y hx hy
  have hlay : 0 < p.layers := by unfold Picture.layers; split <;> decide
  obtain ⟨k, a1, a2⟩ := h5 x y 0 hx hy hlay
  obtain ⟨w, b1, b2, b3⟩ := g6 x y (by rw [h3]; exact_mod_cast hx) (by rw [h4]; exact_mod_cast hy)
  have a2 : c.At x y = some (classValue levels k) := a2
  rw [a2] at b1
  simp only [Option.some.injEq] at b1
  by_cases ho : Overlaid E I c border x y
  · obtain ⟨hp, ho'⟩ := ho
    obtain ⟨c1, c2, c3⟩ := b3 hp
    by_cases hm : Hits E I c mesh x y
    · exact ⟨_, c1 hm, fun _ => Or.inl rfl, fun hn => absurd ⟨hp, ho'⟩ hn⟩
    · rcases ho' with ⟨mesh', hm', hh⟩ | hh
      · rw [g3] at hm'
        simp only [Option.some.injEq] at hm'
        exact absurd (hm' ▸ hh) hm
      · exact ⟨_, c2 hm hh, fun _ => Or.inr rfl, fun hn => absurd ⟨hp, Or.inr hh⟩ hn⟩
  · have himg : img.at x y = some (pixelColor fn w) := by
      cases hp : c.hasProjection
      · exact b2 hp
      · obtain ⟨c1, c2, c3⟩ := b3 hp
        exact c3 (fun hm => ho ⟨hp, Or.inl ⟨mesh, g3, hm⟩⟩) (fun hm => ho ⟨hp, Or.inr hm⟩)
    refine ⟨_, himg, fun hn => absurd hn ho, fun _ => ?_⟩
    unfold Picture.tenths
    rw [a1, Option.bind_some, ← b1]
    rcases classValue_tenths hn k with ⟨e1, e2⟩ | ⟨t, v, e1, e2, e3⟩
    · rw [e1, e2]; exact q1
    · rw [e1, e2]
      refine q2 t v ?_ e3
      have hmem : t ∈ p.levels := by
        split at e2
        · simp at e2
        · exact List.mem_of_getElem? e2
      have := h.levels.2 t hmem
      rw [abs_le]; omega

theorem at_least {v g : F32} {q : ℚ} (h : Nearest32 v q) (hg : g.isFin = true) (hq : g.val ≤ q) : AtLeast v g.val :=
  Or.inr ⟨h.1, near_ge h hg hq⟩

theorem tenth_le_of {t n : Int} (h : t ≤ n) : (t : ℚ) / 10 ≤ n / 10 := by
  have : (t : ℚ) ≤ n := by exact_mod_cast h
  linarith

theorem whole (n : Int) (hn : n ∈ [(-315 : Int), -10, 0, 10, 150, 315, 750, 1000]) :
    (Fl.lit f32 ((n : ℚ) / 10)).isFin = true ∧ (Fl.lit f32 ((n : ℚ) / 10)).val = n / 10 := by
  simp only [List.mem_cons, List.not_mem_nil, or_false] at hn
  rcases hn with rfl | rfl | rfl | rfl | rfl | rfl | rfl | rfl <;> decide +kernel

theorem up_to {v : F32} {t : Int} (h : Nearest32 v ((t : ℚ) / 10)) (n : Int)
    (hn : n ∈ [(-315 : Int), -10, 0, 10, 150, 315, 750, 1000]) (ht : t ≤ n) : v.val ≤ n / 10 := by
  obtain ⟨g1, g2⟩ := whole n hn
  have := near_le h g1 (by rw [g2]; exact tenth_le_of ht)
  rwa [g2] at this

theorem from_on {v : F32} {t : Int} (h : Nearest32 v ((t : ℚ) / 10)) (n : Int)
    (hn : n ∈ [(-315 : Int), -10, 0, 10, 150, 315, 750, 1000]) (ht : n ≤ t) : n / 10 ≤ v.val := by
  obtain ⟨g1, g2⟩ := whole n hn
  have := near_ge h g1 (by rw [g2]; exact tenth_le_of ht)
  rwa [g2] at this

/-- strictly below: the error is less than a tenth of a tenth -/
theorem below {v : F32} {t : Int} (h : Nearest32 v ((t : ℚ) / 10)) (ht : |t| ≤ 9999) (n : Int) (hn : t < n) :
    v.val < n / 10 := by
  have he := (abs_le.mp (near_err h ht)).2
  have h1 : |(t : ℚ)| ≤ 9999 := by exact_mod_cast ht
  have h2 : |(t : ℚ) / 10| = |(t : ℚ)| / 10 := by rw [abs_div]; norm_num
  rw [h2] at he
  have h3 : (t : ℚ) + 1 ≤ n := by exact_mod_cast hn
  have h4 : |(t : ℚ)| / 10 / 2 ^ 24 ≤ 9999 / 10 / 2 ^ 24 := by linarith
  have h5 : (9999 / 10 / 2 ^ 24 : ℚ) < 1 / 10 := by norm_num
  linarith

theorem above {v : F32} {t : Int} (h : Nearest32 v ((t : ℚ) / 10)) (ht : |t| ≤ 9999) (n : Int) (hn : n < t) :
    n / 10 < v.val := by
  have he := (abs_le.mp (near_err h ht)).1
  have h1 : |(t : ℚ)| ≤ 9999 := by exact_mod_cast ht
  have h2 : |(t : ℚ) / 10| = |(t : ℚ)| / 10 := by rw [abs_div]; norm_num
  rw [h2] at he
  have h3 : (n : ℚ) + 1 ≤ t := by exact_mod_cast hn
  have h4 : |(t : ℚ)| / 10 / 2 ^ 24 ≤ 9999 / 10 / 2 ^ 24 := by linarith
  have h5 : (9999 / 10 / 2 ^ 24 : ℚ) < 1 / 10 := by norm_num
  linarith

/-- C83 (a). Reflectivity. -/
theorem C83_reflectivity (E : Env) (I : Impl) (border : List (F64 × F64)) (p : Picture) (h : p.WF)
    (hu : p.label ∈ productsIn .dBZ) :
    Painted E I border p (DbzColor ⟨I.u8 .nan, I.u8 .nan, I.u8 .nan, 255⟩) := by
  refine pictured E I border p h hu _ (fun c fn hok hc _ hfn => ?_)
  obtain ⟨f1, e1, c1⟩ := C64_reflectivity hok hc E.math
  obtain ⟨f2, e2, c2⟩ := C65_reflectivity hok hc E.math I
  have q1 := e1 I
  rw [hfn] at q1 e2
  simp only [Option.some.injEq] at q1 e2
  subst q1
  subst e2
  refine ⟨(c1 I .nan).2.2.2 rfl, fun t v ht hn => ?_⟩
  obtain ⟨k1, k2, k3, k4⟩ := c1 I v
  refine ⟨fun h1 => k1 (Or.inr ⟨hn.1, ?_⟩), fun h1 h2 => ⟨_, near_tenth hn ht, c2 v hn.1 ?_ ?_⟩,
    fun h1 => k3 (Or.inr ⟨hn.1, ?_⟩)⟩
  · have := below hn ht 10 h1; norm_num at this; exact this
  · have := from_on hn 10 (by simp) h1; norm_num at this; exact this
  · have := up_to hn 750 (by simp) h2; norm_num at this; exact this
  · have := from_on hn 750 (by simp) h1; norm_num at this; exact this

/-- C83 (b). Echo tops. -/
theorem C83_echo_tops (E : Env) (I : Impl) (border : List (F64 × F64)) (p : Picture) (h : p.WF)
    (hu : p.label ∈ productsIn .km) :
    Painted E I border p (KmColor ⟨I.u8 .nan, I.u8 .nan, I.u8 .nan, 255⟩) := by
  refine pictured E I border p h hu _ (fun c fn hok hc _ hfn => ?_)
  obtain ⟨f1, e1, c1⟩ := C64_echo_tops hok hc E.math
  have q1 := e1 I
  rw [hfn] at q1
  simp only [Option.some.injEq] at q1
  subst q1
  refine ⟨(c1 I .nan).2.2.2.2.2.2 rfl, fun t v ht hn => ?_⟩
  obtain ⟨⟨l, k0⟩, k1, k2, k3, -, -, -⟩ := c1 I v
  refine ⟨fun h1 => k1 ?_, fun h1 h2 => ⟨_, l, near_tenth hn ht, k0, ?_⟩, fun h1 => k2 (Or.inr ⟨hn.1, ?_⟩)⟩
  · have := up_to hn 0 (by simp) h1
    norm_num at this
    rcases this.lt_or_eq with hlt | heq
    · exact Or.inl (Or.inr ⟨hn.1, hlt⟩)
    · exact Or.inr ⟨hn.1, heq⟩
  · have a1 := from_on hn 0 (by simp) h1
    have a2 := up_to hn 150 (by simp) h2
    norm_num at a1 a2
    have := k3 hn.1 a1 a2
    rw [k0] at this
    exact this
  · have := from_on hn 150 (by simp) h1; norm_num at this; exact this

/-- C83 (c). Velocities. -/
theorem C83_velocity {E : Env} (hL : AccurateLog E.math) (I : Impl) (border : List (F64 × F64)) (p : Picture) (h : p.WF)
    (hu : p.label ∈ productsIn .mps) : Painted E I border p VelocityColor := by
  refine pictured E I border p h hu _ (fun c fn hok hc _ hfn => ?_)
  obtain ⟨f1, e1, c1⟩ := C64_velocity hL hok hc
  have q1 := e1 I
  rw [hfn] at q1
  simp only [Option.some.injEq] at q1
  subst q1
  refine ⟨(c1 I .nan).2.1 rfl, fun t v ht hn => ?_⟩
  obtain ⟨-, -, k1, k2, k3, k4, k5, k6, -, -⟩ := c1 I v
  refine ⟨fun h1 h2 => k1 hn.1 ?_ ?_, fun h1 h2 => k2 hn.1 ?_ ?_, fun h1 h2 => ?_, fun h1 h2 => ?_,
    fun h1 => k5 (Or.inr ⟨hn.1, ?_⟩), fun h1 => k6 (Or.inr ⟨hn.1, ?_⟩)⟩
  · have := from_on hn 0 (by simp) h1; norm_num at this; exact this
  · have := up_to hn 10 (by simp) h2; norm_num at this; exact this
  · have := below hn ht 0 h2; norm_num at this; exact this
  · have := from_on hn (-10) (by simp) h1; norm_num at this; exact this
  · have a1 := above hn ht 10 h1
    have a2 := up_to hn 315 (by simp) h2
    norm_num at a1 a2
    obtain ⟨l, b1, b2⟩ := k3 hn.1 a1
    exact ⟨_, l, near_tenth hn ht, b1, b2 (by linarith)⟩
  · have a1 := below hn ht (-10) h2
    have a2 := from_on hn (-315) (by simp) h1
    norm_num at a1 a2
    obtain ⟨l, b1, b2⟩ := k4 hn.1 (by linarith)
    exact ⟨_, l, near_tenth hn ht, b1, b2 (by linarith)⟩
  · have := from_on hn 315 (by simp) h1; norm_num at this; linarith
  · have := up_to hn (-315) (by simp) h1; norm_num at this; linarith

/-- C83 (d). Precipitation; the format declares no interval, so 100 mm is the end of the gradient. -/
theorem C83_rain {E : Env} (hL : AccurateLog E.math) (I : Impl) (border : List (F64 × F64)) (p : Picture) (h : p.WF)
    (hu : p.label ∈ productsIn .mm) :
    Painted E I border p (MmColor ⟨I.u8 .nan, I.u8 .nan, I.u8 .nan, 255⟩) := by
  refine pictured E I border p h hu _ (fun c fn hok hc hint hfn => ?_)
  obtain ⟨f1, e1, c1⟩ := C64_rain hL hok hc
  obtain ⟨f2, e2, c2⟩ := C65_rain hL hok hc I
  have q1 := e1 I
  rw [hfn] at q1 e2
  simp only [Option.some.injEq] at q1 e2
  subst q1
  subst e2
  have hmax : rainMax c.interval = 100 := by rw [hint]; rfl
  rw [hmax] at c1 c2
  refine ⟨(c1 I .nan).2.2.2 (Or.inl rfl), fun t v ht hn => ?_⟩
  obtain ⟨k1, k2, k3, k4⟩ := c1 I v
  have first : 1 ≤ t → 1 / 10 ≤ v.val := by
    intro h1
    rcases h1.eq_or_lt with rfl | h1
    · norm_num at hn; exact near_one (by norm_num; exact hn)
    · have := above hn ht 1 h1; norm_num at this; linarith
  refine ⟨fun h1 => k4 (Or.inr (Or.inr ⟨hn.1, ?_⟩)), fun h1 => k1 (Or.inr ⟨hn.1, ?_⟩) (Or.inr ⟨hn.1, ?_⟩),
    fun h1 => (k2 (Or.inr ⟨hn.1, first h1⟩)).1, fun h1 h2 => ⟨_, near_tenth hn ht, ?_⟩, fun h1 => k3 (Or.inr ⟨hn.1, ?_⟩)⟩
  · have := below hn ht 0 h1; norm_num at this; exact this
  · have := from_on hn 0 (by simp) h1.ge; norm_num at this; exact this
  · have := up_to hn 0 (by simp) h1.le; norm_num at this; linarith
  · have a2 := up_to hn 1000 (by simp) h2
    norm_num at a2
    have := c2 v hn.1 (first h1) a2
    have e : ∀ t : ℝ, t / (1 / 10) = 10 * t := by intro t; ring
    rw [e, e] at this
    have e3 : (10 : ℝ) * ((100 : ℚ) : ℝ) = 1000 := by norm_num
    rw [e3] at this
    exact this
  · have := from_on hn 1000 (by simp) h1; norm_num at this; exact this

/-! ### examples -/

/-- a picture of velocities: an empty side view above a map with 1 m/s away from the radar in the first column, missing
pixels in the second, and the highest velocity towards the radar in the others -/
def velocityPicture : Picture := { samplePicture with
  label := str "PV"
  cols := 200
  rows := List.replicate 24 (List.replicate 200 0) ++ List.replicate 200 ([1, 5] ++ List.replicate 198 2) }

theorem velocityPicture_wf : velocityPicture.WF where
  label := ⟨80, 86, by decide, by decide, by decide⟩
  letters := by decide
  wmo := samplePicture_wf.wmo
  time := samplePicture_wf.time
  levels := samplePicture_wf.levels
  stations := samplePicture_wf.stations
  size := by
    have : velocityPicture.strip = true := by decide
    rw [this, if_pos rfl]
    exact ⟨by unfold velocityPicture; simp only [List.length_append, List.length_replicate], rfl⟩
  rows := by
    intro r hr
    rcases List.mem_append.mp hr with hr | hr
    · rw [List.eq_of_mem_replicate hr]
      exact ⟨List.length_replicate, fun k hk => by rw [List.eq_of_mem_replicate hk]; decide⟩
    · rw [List.eq_of_mem_replicate hr]
      refine ⟨by rw [List.length_append, List.length_replicate]; rfl, fun k hk => ?_⟩
      rcases List.mem_append.mp hk with hk | hk
      · simp only [List.mem_cons, List.not_mem_nil, or_false] at hk
        omega
      · rw [List.eq_of_mem_replicate hk]; decide
  lineNumber := samplePicture_wf.lineNumber

example (I : Impl) : ∃ img c, Cli.convert { env0 with math := logMath } I [] velocityPicture.serialise = .image img ∧
    img.w = 200 ∧ img.h = 200 ∧ ∀ color, img.at 2 150 = some color →
      ¬ Overlaid { env0 with math := logMath } I c [] 2 150 → color = ⟨0, 255, 255, 255⟩ := by
  obtain ⟨img, c, h, _, h1, h2, h3⟩ := C83_velocity (E := { env0 with math := logMath }) logMath_accurate I []
    velocityPicture velocityPicture_wf (by decide)
  have hh : velocityPicture.height = 200 := by
    unfold Picture.height
    rw [show velocityPicture.strip = true by decide]
    rfl
  refine ⟨img, c, h, h1, by rw [h2, hh], fun color hc ho => ?_⟩
  obtain ⟨color', e1, _, e2⟩ := h3 2 150 (by decide) (by rw [hh]; decide)
  rw [hc] at e1
  simp only [Option.some.injEq] at e1
  subst e1
  have ht : velocityPicture.tenths 2 150 = some (-315) := by
    have hs : velocityPicture.strip = true := by decide
    unfold Picture.tenths Picture.code
    rw [hs]
    simp only [velocityPicture, if_true]
    rw [List.getElem?_append_right (by rw [List.length_replicate]; decide), List.length_replicate, List.getElem?_replicate,
      if_pos (by decide), Option.bind_some, List.getElem?_append_right (by decide), List.getElem?_replicate,
      if_pos (by decide), Option.bind_some]
    rfl
  have := e2 ho
  rw [ht] at this
  exact this.2.2.2.2.2 (by decide)

example (E : Env) (I : Impl) : Painted E I [] samplePicture (DbzColor ⟨I.u8 .nan, I.u8 .nan, I.u8 .nan, 255⟩) ∧
    samplePicture.tenths 2 0 = some 10 ∧ samplePicture.tenths 2 1 = none ∧ samplePicture.tenths 3 1 = none :=
  ⟨C83_reflectivity E I [] _ samplePicture_wf (by decide), by decide, by decide, by decide⟩

end Props
