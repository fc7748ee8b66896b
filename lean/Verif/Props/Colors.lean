/-
C43 - C46: colour gradients.

`I : Impl` is what a Go implementation does where the language leaves a float to integer conversion open (NaN, out
of range). A result that is the same for all `I` involves in-range conversions only.
-/
import Verif.Lemmas.Heat
import Verif.Props.Header
import Verif.Model.Cli

namespace Props
open Go Radolan Spec Radolan.Vis

/-- bounds of a gradient: after compression finite, different, and not so far apart that float64 overflows -/
structure Bounds (comp : F64 → F64) (min max : F64) : Prop where
  lo : (comp min).isFin = true
  hi : (comp max).isFin = true
  lt : Fl.lt (comp min) (comp max) = true
  width : (Fl.sub (comp max) (comp min)).isFin = true

/-- a compression is monotone where it is defined (a logarithm is NaN for negative numbers) -/
def MonotoneComp (comp : F64 → F64) : Prop :=
  ∀ v w, Fl.le v w = true → comp v ≠ .nan → Fl.le (comp v) (comp w) = true

theorem in_of_pos {p : F64} (h : p.isFin = true ∧ 0 ≤ p.val ∧ p.val ≤ 1) : Fl.In p 0 1 := ⟨h.1, h.2.1, h.2.2⟩

section
variable {comp : F64 → F64} {min max : F64}

theorem le_or_lt (hb : Bounds comp min max) {v : F64} (hv : comp v ≠ .nan) :
    Fl.lt (comp v) (comp min) = true ∨ Fl.lt (comp v) (comp min) = false ∧ Fl.le (comp min) (comp v) = true := by
  cases h : Fl.lt (comp v) (comp min)
  · exact Or.inr ⟨rfl, (Fl.not_lt hv (Fl.isFin_ne_nan hb.lo)).mp h⟩
  · exact Or.inl rfl

theorem graymap_above {I : Impl} {v : F64} (h : Fl.lt (comp v) (comp min) = false) :
    Graymap I min max comp v =
      let l := Fl.toU8 I.u8 (Fl.mul (Fl.lit f64 255) (Fl.clip (Fl.div (Fl.sub (comp v) (comp min))
        (Fl.sub (comp max) (comp min)))))
      ⟨l, l, l, 255⟩ := by
  unfold Graymap
  simp only
  rw [if_neg (by rw [h]; simp)]
  rfl

theorem graymap_below {I : Impl} {v : F64} (h : Fl.lt (comp v) (comp min) = true) :
    Graymap I min max comp v = black := by
  unfold Graymap; simp only; rw [if_pos h]

theorem not_lt_of_le {x y : F64} (h : Fl.le x y = true) : Fl.lt y x = false :=
  (Fl.not_lt (Fl.le_iff.mp h).2.1 (Fl.le_iff.mp h).1).mpr h

/-- C43. Graymap: every colour is opaque gray; for a monotone compression values up to min are black, values from max
on are white, and brightness never decreases with the value; no conversion is out of range unless the compressed
value is NaN. -/
theorem C43_graymap (hb : Bounds comp min max) (hm : MonotoneComp comp) (I : Impl) :
    (∀ v, ∃ l, Graymap I min max comp v = ⟨l, l, l, 255⟩) ∧
    (∀ v, comp v ≠ .nan → Fl.le v min = true → Graymap I min max comp v = ⟨0, 0, 0, 255⟩) ∧
    (∀ v, Fl.le max v = true → Graymap I min max comp v = ⟨255, 255, 255, 255⟩) ∧
    (∀ v w, comp v ≠ .nan → Fl.le v w = true →
      (Graymap I min max comp v).r ≤ (Graymap I min max comp w).r) ∧
    (∀ (J : Impl) v, comp v ≠ .nan → Graymap I min max comp v = Graymap J min max comp v) := by
  refine ⟨?_, ?_, ?_, ?_, ?_⟩
  · intro v
    cases h : Fl.lt (comp v) (comp min)
    · exact ⟨_, graymap_above h⟩
    · exact ⟨0, graymap_below h⟩
  · intro v hv hle
    rcases le_or_lt hb hv with h | ⟨h, hge⟩
    · exact graymap_below h
    · rw [graymap_above h]
      have hle' := hm _ _ hle hv
      obtain ⟨p1, p2, p3, _⟩ := Fl.pos_spec hb.lo hb.hi hb.lt hb.width hge
      have h0 := Fl.clip_mono (Fl.pos_mono hb.lo hb.hi hb.lt hb.width hle')
      rw [Fl.pos_min hb.lo hb.hi hb.lt hb.width] at h0
      have hc0 : Fl.clip Fl.zero = Fl.zero := by decide +kernel
      rw [hc0] at h0
      have h0 := (Fl.le_fin p1 rfl).mp h0
      have hbyte := Fl.byte_mono I.u8 I.u8 p1 p2 (q := Fl.zero) rfl (by simp [Fl.val, Fl.zero]) h0
      rw [Fl.byte_zero] at hbyte
      have : Fl.toU8 I.u8 (Fl.mul (Fl.lit f64 255) (Fl.clip (Fl.div (Fl.sub (comp v) (comp min))
        (Fl.sub (comp max) (comp min))))) = 0 := by
        apply UInt8.toNat_inj.mp
        simpa using hbyte
      simp only [this]
  · intro v hle
    have hle' := hm _ _ hle (Fl.isFin_ne_nan hb.hi)
    have hminmax : Fl.le (comp min) (comp max) = true := by
      rw [Fl.le_fin hb.lo hb.hi]
      have := hb.lt
      rw [Fl.lt_fin hb.lo hb.hi, decide_eq_true_iff] at this
      exact this.le
    have hge := Fl.le_trans hminmax hle'
    obtain ⟨p1, p2, p3, p4⟩ := Fl.pos_spec hb.lo hb.hi hb.lt hb.width hge
    rw [graymap_above (not_lt_of_le hge)]
    simp only [p4 hle', Fl.byte_one]
  · intro v w hv hvw
    have hle := hm _ _ hvw hv
    rcases le_or_lt hb hv with h | ⟨h, hge⟩
    · rw [graymap_below h]
      exact UInt8.le_iff_toNat_le.mpr (Nat.zero_le _)
    · have hge' := Fl.le_trans hge hle
      rw [graymap_above h, graymap_above (not_lt_of_le hge')]
      obtain ⟨p1, p2, p3, _⟩ := Fl.pos_spec hb.lo hb.hi hb.lt hb.width hge
      obtain ⟨q1, q2, q3, _⟩ := Fl.pos_spec hb.lo hb.hi hb.lt hb.width hge'
      exact UInt8.le_iff_toNat_le.mpr (Fl.byte_mono I.u8 I.u8 p1 p2 q1 q3
        ((Fl.le_fin p1 q1).mp (Fl.clip_mono (Fl.pos_mono hb.lo hb.hi hb.lt hb.width hle))))
  · intro J v hv
    rcases le_or_lt hb hv with h | ⟨h, hge⟩
    · rw [graymap_below h, graymap_below h]
    · rw [graymap_above h, graymap_above h]
      obtain ⟨p1, p2, p3, _⟩ := Fl.pos_spec hb.lo hb.hi hb.lt hb.width hge
      rw [(Fl.byte_spec I.u8 p1 p2 p3).2.2 J.u8]

theorem id_bounds {a b : ℚ} (ha : IsRep f64 a) (hb : IsRep f64 b) (h : a < b)
    (hw : (Fl.sub (Fl.lit f64 b) (Fl.lit f64 a) : F64).isFin = true) : Bounds Id (Fl.lit f64 a) (Fl.lit f64 b) :=
  ⟨Fl.lit_isFin ha, Fl.lit_isFin hb,
   by show Fl.lt (Fl.lit f64 a : F64) (Fl.lit f64 b) = true
      rw [Fl.lt_fin (Fl.lit_isFin ha) (Fl.lit_isFin hb), decide_eq_true_iff, Fl.lit_val ha, Fl.lit_val hb]
      exact h,
   hw⟩

theorem id_mono : MonotoneComp Id := fun _ _ h _ => h

/-- C43 applies to the predefined gray maps and to the one radolan2png uses for echo tops -/
example : Bounds Id (Fl.lit f64 0) (Fl.lit f64 (819 / 2)) ∧ Bounds Id (Fl.lit f64 0) (Fl.lit f64 4095) ∧
    Bounds Id (Fl.lit f64 0) (Fl.lit f64 15) ∧ MonotoneComp Id :=
  ⟨id_bounds (by decide +kernel) (by decide +kernel) (by norm_num) (by decide +kernel),
   id_bounds (by decide +kernel) (by decide +kernel) (by norm_num) (by decide +kernel),
   id_bounds (by decide +kernel) (by decide +kernel) (by norm_num) (by decide +kernel), id_mono⟩

/-! ### heat map -/

theorem heatmap_below {I : Impl} {v : F64} (h : Fl.lt (comp v) (comp min) = true) :
    Heatmap I min max comp v = black := by
  unfold Heatmap; simp only; rw [if_pos h]

theorem heatmap_above {I : Impl} {v : F64} (h : Fl.lt (comp v) (comp min) = false) :
    Heatmap I min max comp v = heatColor I (Fl.div (Fl.sub (comp v) (comp min)) (Fl.sub (comp max) (comp min))) := by
  unfold Heatmap; simp only; rw [if_neg (by rw [h]; simp)]

theorem heatColor_clip (I : Impl) (p : F64) : heatColor I p = heatColor I (Fl.clip p) := by
  have h : Fl.clip (Fl.clip p) = Fl.clip p := by
    unfold Fl.clip
    by_cases h : Fl.lt (Fl.lit f64 1) p = true
    · rw [if_pos h]; simp
    · rw [if_neg h, if_neg h]
  unfold heatColor
  simp only
  rw [show (if Fl.lt (Fl.lit f64 1) p = true then Fl.lit f64 1 else p) = Fl.clip p from rfl,
    show (if Fl.lt (Fl.lit f64 1) (Fl.clip p) = true then Fl.lit f64 1 else Fl.clip p) = Fl.clip (Fl.clip p) from rfl, h]

/-- an implementation converting everything unspecified to zero -/
def impl0 : Impl := ⟨fun _ => 0, fun _ => 0⟩

/-- C44. Heatmap: every colour is opaque; values below min are black; for every other number (compressed value not
NaN) the colour is the same for all implementations, that is, every conversion is in range, and it is clearly visible:
some channel is at least 127. The gradient begins with dark blue and ends, for every value from max on, with light
violet. -/
theorem C44_heatmap (hb : Bounds comp min max) (I : Impl) :
    (∀ v, (Heatmap I min max comp v).a = 255) ∧
    (∀ v, Fl.lt (comp v) (comp min) = true → Heatmap I min max comp v = ⟨0, 0, 0, 255⟩) ∧
    (∀ v, Fl.le (comp min) (comp v) = true →
      (∀ J, Heatmap I min max comp v = Heatmap J min max comp v) ∧
      (127 ≤ (Heatmap I min max comp v).r ∨ 127 ≤ (Heatmap I min max comp v).g ∨
        127 ≤ (Heatmap I min max comp v).b)) ∧
    Heatmap I min max comp min = ⟨0, 0, 127, 255⟩ ∧
    (∀ v, Fl.le (comp max) (comp v) = true → Heatmap I min max comp v = ⟨191, 127, 255, 255⟩) := by
  have hminmax : Fl.le (comp min) (comp max) = true := by
    rw [Fl.le_fin hb.lo hb.hi]
    have := hb.lt
    rw [Fl.lt_fin hb.lo hb.hi, decide_eq_true_iff] at this
    exact this.le
  refine ⟨?_, fun v h => heatmap_below h, ?_, ?_, ?_⟩
  · intro v
    unfold Heatmap
    simp only
    split
    · rfl
    · rfl
  · intro v h
    obtain ⟨p1, p2, p3, _⟩ := Fl.pos_spec hb.lo hb.hi hb.lt hb.width h
    obtain ⟨k1, k2⟩ := heatColor_spec ⟨p1, p2, p3⟩ I
    have hn := not_lt_of_le h
    constructor
    · intro J
      rw [heatmap_above hn, heatmap_above hn]
      exact k1 J
    · rw [heatmap_above hn]
      simp only [UInt8.le_iff_toNat_le]; exact k2
  · have hr := Fl.le_refl (Fl.isFin_ne_nan hb.lo)
    rw [heatmap_above (not_lt_of_le hr), Fl.pos_min hb.lo hb.hi hb.lt hb.width]
    have := (heatColor_spec (p := Fl.zero) ⟨by decide +kernel, by decide +kernel, by decide +kernel⟩ I).1 impl0
    rw [this]; decide +kernel
  · intro v h
    have hge := Fl.le_trans hminmax h
    obtain ⟨p1, p2, p3, p4⟩ := Fl.pos_spec hb.lo hb.hi hb.lt hb.width hge
    rw [heatmap_above (not_lt_of_le hge), heatColor_clip, p4 h]
    have := (heatColor_spec (p := Fl.lit f64 1) ⟨by decide +kernel, by decide +kernel, by decide +kernel⟩ I).1 impl0
    rw [this]; decide +kernel

/-- C44 applies to the predefined reflectivity maps -/
example : Bounds Id (Fl.lit f64 5) (Fl.lit f64 75) ∧ Bounds Id (Fl.lit f64 1) (Fl.lit f64 75) ∧
    Bounds Id (Fl.lit f64 (-65 / 2)) (Fl.lit f64 75) :=
  ⟨id_bounds (by decide +kernel) (by decide +kernel) (by norm_num) (by decide +kernel),
   id_bounds (by decide +kernel) (by decide +kernel) (by norm_num) (by decide +kernel),
   id_bounds (by decide +kernel) (by decide +kernel) (by norm_num) (by decide +kernel)⟩

end

/-! ### radial velocities -/

section
variable {comp : F64 → F64} {min max : F64}

theorem not_beq_self {v : F64} (h : v ≠ .nan) : (!(Fl.beq v v)) = false := by
  rw [(Fl.beq_self v).mpr h]; rfl

/-- the saturated level of a velocity -/
def level (I : Impl) (comp : F64 → F64) (min max v : F64) : UInt8 :=
  Fl.toU8 I.u8 (Fl.mul (Fl.lit f64 255) (Fl.clip (Fl.div (comp (Fl.abs v)) (comp (fmax (Fl.abs min) (Fl.abs max))))))

theorem radial_eq (I : Impl) {v : F64} (h : v ≠ .nan) :
    Radialmap I min max comp v =
      if Fl.le (Fl.abs v) (Fl.lit f64 1) then
        (if Fl.lt v (Fl.lit f64 0) then ⟨0xCC, 255, 255, 255⟩ else ⟨255, 0xCC, 0xCC, 255⟩)
      else
        (if Fl.lt v (Fl.lit f64 0) then ⟨0, level I comp min max v, level I comp min max v, 255⟩
         else ⟨level I comp min max v, 0, 0, 255⟩) := by
  unfold Radialmap
  rw [not_beq_self h]
  simp only [Bool.false_eq_true, if_false]
  split <;> split <;> rfl

/-- C45. Radialmap: NaN is black; a non-negative value gives a colour with red at least green = blue, a negative one
with red at most green = blue, all opaque - for every compression and all bounds. -/
theorem C45_radialmap (I : Impl) (v : F64) :
    (v = .nan → Radialmap I min max comp v = ⟨0, 0, 0, 255⟩) ∧
    (Radialmap I min max comp v).a = 255 ∧
    (Radialmap I min max comp v).g = (Radialmap I min max comp v).b ∧
    (Fl.le (Fl.lit f64 0) v = true → (Radialmap I min max comp v).g ≤ (Radialmap I min max comp v).r) ∧
    (Fl.lt v (Fl.lit f64 0) = true → (Radialmap I min max comp v).r ≤ (Radialmap I min max comp v).g) ∧
    (Fl.le (Fl.abs v) (Fl.lit f64 1) = true → Radialmap I min max comp v =
      if Fl.lt v (Fl.lit f64 0) then ⟨0xCC, 255, 255, 255⟩ else ⟨255, 0xCC, 0xCC, 255⟩) := by
  by_cases h : v = .nan
  · subst h
    refine ⟨fun _ => rfl, rfl, rfl, ?_, ?_, ?_⟩
    · intro h; exact absurd rfl (Fl.le_iff.mp h).2.1
    · intro h; simp [Fl.lt] at h
    · intro h; exact absurd rfl (Fl.le_iff.mp h).1
  · rw [radial_eq I h]
    refine ⟨fun e => absurd e h, ?_, ?_, ?_, ?_, ?_⟩
    · split <;> split <;> rfl
    · split <;> split <;> rfl
    · intro h0
      have := not_lt_of_le h0
      simp only [this, Bool.false_eq_true, if_false]
      split
      · exact (by decide : (0xCC : UInt8) ≤ 255)
      · exact UInt8.le_iff_toNat_le.mpr (Nat.zero_le _)
    · intro h0
      rw [if_pos h0, if_pos h0]
      split
      · exact (by decide : (0xCC : UInt8) ≤ 255)
      · exact UInt8.le_iff_toNat_le.mpr (Nat.zero_le _)
    · intro h1
      rw [if_pos h1]

/-- the position of a velocity relative to the base -/
theorem level_pos {v : F64} {d : F64} (hd : d.isFin = true) (h0 : 0 < d.val) (hv : Fl.le Fl.zero (comp v) = true) :
    Fl.In (Fl.clip (Fl.div (comp v) d)) 0 1 := by
  have hz : Fl.div Fl.zero d = Fl.zero := by
    rw [Fl.div_fin rfl hd h0.ne', Fl.sign_of_pos hd h0]; simp [Fl.mk, Fl.zero, Fl.val, Fl.sign]
  have h := Fl.div_mono hd h0 hv
  rw [hz] at h
  obtain ⟨a, b, c, _⟩ := Fl.clip_cases (Fl.div_ne_nan (Fl.le_iff.mp hv).2.1 hd h0) h
  exact ⟨a, b, c⟩

/-- the statement of C45_in_range in terms of `fmax` -/
theorem in_range_fmax (I : Impl) (hb : (comp (fmax (Fl.abs min) (Fl.abs max))).isFin = true)
    (hb0 : 0 < (comp (fmax (Fl.abs min) (Fl.abs max))).val) :
    (∀ (J : Impl) v, (v ≠ .nan → Fl.lt (Fl.lit f64 1) (Fl.abs v) = true → Fl.le Fl.zero (comp (Fl.abs v)) = true) →
      Radialmap I min max comp v = Radialmap J min max comp v) ∧
    (∀ v w, Fl.lt (Fl.lit f64 1) (Fl.abs v) = true → Fl.le (Fl.abs v) (Fl.abs w) = true →
      Fl.le Fl.zero (comp (Fl.abs v)) = true → Fl.le (comp (Fl.abs v)) (comp (Fl.abs w)) = true →
      (Fl.lt v (Fl.lit f64 0) = true → Fl.lt w (Fl.lit f64 0) = true →
        (Radialmap I min max comp v).g ≤ (Radialmap I min max comp w).g) ∧
      (Fl.le (Fl.lit f64 0) v = true → Fl.le (Fl.lit f64 0) w = true →
        (Radialmap I min max comp v).r ≤ (Radialmap I min max comp w).r)) ∧
    (∀ v, Fl.lt (Fl.lit f64 1) (Fl.abs v) = true →
      Fl.le (comp (fmax (Fl.abs min) (Fl.abs max))) (comp (Fl.abs v)) = true →
      Radialmap I min max comp v = if Fl.lt v (Fl.lit f64 0) then ⟨0, 255, 255, 255⟩ else ⟨255, 0, 0, 255⟩) := by
  have habs : ∀ v : F64, Fl.abs v = .nan ↔ v = .nan := by intro v; cases v <;> simp [Fl.abs, Fl.zero]; split <;> simp
  have hone : (Fl.lit f64 1 : F64) ≠ .nan := Fl.isFin_ne_nan Fl.one_fin.1
  have hgt : ∀ v : F64, Fl.lt (Fl.lit f64 1) (Fl.abs v) = true → v ≠ .nan ∧ Fl.le (Fl.abs v) (Fl.lit f64 1) = false := by
    intro v h
    have hv : v ≠ .nan := by
      rintro rfl; rw [show Fl.abs (.nan : F64) = .nan from rfl, Fl.lit_one] at h; simp [Fl.lt] at h
    refine ⟨hv, ?_⟩
    cases hle : Fl.le (Fl.abs v) (Fl.lit f64 1)
    · rfl
    · rw [not_lt_of_le hle] at h; simp at h
  refine ⟨?_, ?_, ?_⟩
  · intro J v hv
    by_cases h : v = .nan
    · subst h; rfl
    · rw [radial_eq I h, radial_eq J h]
      by_cases h1 : Fl.le (Fl.abs v) (Fl.lit f64 1) = true
      · rw [if_pos h1, if_pos h1]
      · have hlt : Fl.lt (Fl.lit f64 1) (Fl.abs v) = true := by
          cases hl : Fl.lt (Fl.lit f64 1) (Fl.abs v)
          · exact absurd ((Fl.not_lt hone (by rw [Ne, habs]; exact h)).mp hl) h1
          · rfl
        have hp := level_pos (comp := comp) hb hb0 (hv h hlt)
        have : level I comp min max v = level J comp min max v := (Fl.byte_spec I.u8 hp.fin hp.lo hp.hi).2.2 J.u8
        rw [this]
  · intro v w h1 hvw h0 hc
    have h0w := Fl.le_trans h0 hc
    obtain ⟨nv, lv⟩ := hgt v h1
    have h1w : Fl.lt (Fl.lit f64 1) (Fl.abs w) = true := by
      cases hl : Fl.lt (Fl.lit f64 1) (Fl.abs w)
      · have := Fl.le_trans hvw ((Fl.not_lt hone (Fl.le_iff.mp hvw).2.1).mp hl)
        rw [this] at lv; simp at lv
      · rfl
    obtain ⟨nw, lw⟩ := hgt w h1w
    have pv := level_pos (comp := comp) hb hb0 h0
    have pw := level_pos (comp := comp) hb hb0 h0w
    have hmono : level I comp min max v ≤ level I comp min max w :=
      UInt8.le_iff_toNat_le.mpr (Fl.byte_mono I.u8 I.u8 pv.fin pv.lo pw.fin pw.hi
        ((Fl.le_fin pv.fin pw.fin).mp (Fl.clip_mono (Fl.div_mono hb hb0 hc))))
    rw [radial_eq I nv, radial_eq I nw]
    simp only [lv, lw, Bool.false_eq_true, if_false]
    constructor
    · intro a b
      simp only [a, b, if_true]; exact hmono
    · intro a b
      simp only [not_lt_of_le a, not_lt_of_le b, Bool.false_eq_true, if_false]; exact hmono
  · intro v h1 hc
    obtain ⟨nv, lv⟩ := hgt v h1
    rw [radial_eq I nv, if_neg (by rw [lv]; simp)]
    have hself : Fl.div (comp (fmax (Fl.abs min) (Fl.abs max))) (comp (fmax (Fl.abs min) (Fl.abs max))) = Fl.lit f64 1 := by
      rw [Fl.div_fin hb hb hb0.ne', div_self hb0.ne', Fl.sign_of_pos hb hb0]; rfl
    have hge := Fl.div_mono hb hb0 hc
    rw [hself] at hge
    have hnn := Fl.div_ne_nan (Fl.le_iff.mp hc).2.1 hb hb0
    have h01 : Fl.le Fl.zero (Fl.lit f64 1 : F64) = true := by decide +kernel
    have : Fl.clip (Fl.div (comp (Fl.abs v)) (comp (fmax (Fl.abs min) (Fl.abs max)))) = Fl.lit f64 1 :=
      (Fl.clip_cases hnn (Fl.le_trans h01 hge)).2.2.2 hge
    have : level I comp min max v = 255 := by unfold level; rw [this]; exact Fl.byte_one _
    rw [this]

/-- math.Max of two absolute values is the larger one -/
theorem fmax_abs {x y : F64} (hx : x.isFin = true) (hy : y.isFin = true) :
    fmax (Fl.abs x) (Fl.abs y) = Fl.lit f64 (|x.val| ⊔ |y.val|) := by
  have ax : (Fl.abs x).isFin = true := by rw [Fl.abs_isFin]; exact hx
  have ay : (Fl.abs y).isFin = true := by rw [Fl.abs_isFin]; exact hy
  have vx : (Fl.abs x).val = |x.val| := Fl.abs_val x
  have vy : (Fl.abs y).val = |y.val| := Fl.abs_val y
  have hi : ∀ z : F64, z.isFin = true → z ≠ .inf false ∧ z ≠ .nan := by intro z hz; cases z <;> simp_all [Fl.isFin]
  have hrep : ∀ z : F64, z.isFin = true → IsRep f64 z.val := fun z _ => z.val_repr
  have hl : ∀ z : F64, z.isFin = true → Fl.abs z = Fl.lit f64 |z.val| := by
    intro z hz
    by_cases h0 : z.val = 0
    · cases z with
      | nan => simp [Fl.isFin] at hz
      | inf b => simp [Fl.isFin] at hz
      | nzero => simp [Fl.abs, Fl.val, Fl.lit, Fl.mk]
      | fin q hq =>
        have : q = 0 := h0
        subst this
        simp [Fl.abs, Fl.val, Fl.lit, Fl.mk, Fl.zero]
    · have hr : IsRep f64 |z.val| := by rw [← Fl.abs_val]; exact (Fl.abs z).val_repr
      exact Fl.eq_of_val (by rw [Fl.abs_isFin]; exact hz) (Fl.lit_isFin hr) (by rw [Fl.abs_val, Fl.lit_val hr])
        (by rw [Fl.abs_val]; simpa using h0)
  unfold fmax
  rw [if_neg (by rintro (h | h); exacts [(hi _ ax).1 h, (hi _ ay).1 h]),
    if_neg (by rintro (h | h); exacts [(hi _ ax).2 h, (hi _ ay).2 h])]
  split
  · rename_i h
    rw [vx, vy] at h
    have e1 : |x.val| ⊔ |y.val| = |x.val| := by rw [h.1, h.2.2.1]; simp
    have e2 : |x.val| ⊔ |y.val| = |y.val| := by rw [h.1, h.2.2.1]; simp
    split
    · rw [e2]; exact hl y hy
    · rw [e1]; exact hl x hx
  · rw [Fl.lt_fin ay ax, vx, vy]
    split
    · rename_i h
      rw [decide_eq_true_iff] at h
      rw [sup_eq_left.mpr h.le]; exact hl x hx
    · rename_i h
      rw [decide_eq_true_iff] at h
      rw [sup_eq_right.mpr (not_lt.mp h)]; exact hl y hy

/-- C45. If the compression of the base - the larger of |min| and |max| - is a positive number, and that of |v| is not
negative, every conversion is in range (the colour is the same for all implementations); the colour grows with |v|,
and is saturated if |v| is compressed to at least the compressed base. -/
theorem C45_in_range (I : Impl) (hmin : min.isFin = true) (hmax : max.isFin = true) {base : F64}
    (hbase : base = Fl.lit f64 (|min.val| ⊔ |max.val|)) (hb : (comp base).isFin = true) (hb0 : 0 < (comp base).val) :
    (∀ (J : Impl) v, (v ≠ .nan → Fl.lt (Fl.lit f64 1) (Fl.abs v) = true → Fl.le Fl.zero (comp (Fl.abs v)) = true) →
      Radialmap I min max comp v = Radialmap J min max comp v) ∧
    (∀ v w, Fl.lt (Fl.lit f64 1) (Fl.abs v) = true → Fl.le (Fl.abs v) (Fl.abs w) = true →
      Fl.le Fl.zero (comp (Fl.abs v)) = true → Fl.le (comp (Fl.abs v)) (comp (Fl.abs w)) = true →
      (Fl.lt v (Fl.lit f64 0) = true → Fl.lt w (Fl.lit f64 0) = true →
        (Radialmap I min max comp v).g ≤ (Radialmap I min max comp w).g) ∧
      (Fl.le (Fl.lit f64 0) v = true → Fl.le (Fl.lit f64 0) w = true →
        (Radialmap I min max comp v).r ≤ (Radialmap I min max comp w).r)) ∧
    (∀ v, Fl.lt (Fl.lit f64 1) (Fl.abs v) = true → Fl.le (comp base) (comp (Fl.abs v)) = true →
      Radialmap I min max comp v = if Fl.lt v (Fl.lit f64 0) then ⟨0, 255, 255, 255⟩ else ⟨255, 0, 0, 255⟩) := by
  rw [← fmax_abs hmin hmax] at hbase
  subst hbase
  exact in_range_fmax I hb hb0

/-- the base of the predefined velocity map is 31.5 -/
example : fmax (Fl.abs (Fl.lit f64 (-63 / 2))) (Fl.abs (Fl.lit f64 (63 / 2))) = Fl.lit f64 (63 / 2) := by decide +kernel

/-- with the identity as compression and the bounds -10 and 30, -15 m/s meets the hypotheses -/
example : Fl.lit f64 30 = Fl.lit f64 (|(Fl.lit f64 (-10)).val| ⊔ |(Fl.lit f64 30).val|) ∧
    (Id (Fl.lit f64 30)).isFin = true ∧ 0 < (Id (Fl.lit f64 30)).val ∧
    Fl.lt (Fl.lit f64 1) (Fl.abs (Fl.lit f64 (-15))) = true ∧
    Radialmap impl0 (Fl.lit f64 (-10)) (Fl.lit f64 30) Id (Fl.lit f64 (-15)) = ⟨0, 127, 127, 255⟩ := by
  decide +kernel

end

/-! ### radolan2png -/

/-- C46. For every input NewComposite accepts, radolan2png has a colour map: precipitation between 0.1 mm and 100 mm
(intervals up to one hour), 400 mm (from one week on) or 200 mm; reflectivity, echo top and velocity maps for the
other units. -/
theorem C46_color_map {E : Env} {input : Bytes} {c : Composite} (h : NewComposite E input = .ret c none) (I : Impl)
    (L : MathLib) :
    (c.product ∈ productsIn .mm → Cli.colorFunc I L c = some (Heatmap I (Fl.lit f64 (1 / 10))
      (Fl.lit f64 (if c.interval ≤ 3600 * 10 ^ 9 then 100
        else if 7 * 24 * 3600 * 10 ^ 9 ≤ c.interval then 400 else 200)) L.log)) ∧
    (c.product ∈ productsIn .dBZ → Cli.colorFunc I L c = some (Heatmap I (Fl.lit f64 1) (Fl.lit f64 75) Id)) ∧
    (c.product ∈ productsIn .km → Cli.colorFunc I L c = some (Graymap I (Fl.lit f64 0) (Fl.lit f64 15) Id)) ∧
    (c.product ∈ productsIn .mps →
      Cli.colorFunc I L c = some (Radialmap I (Fl.lit f64 (-63 / 2)) (Fl.lit f64 (63 / 2)) L.log)) ∧
    (Cli.colorFunc I L c).isSome = true := by
  have hS : Success E input c := Or.inl h
  obtain ⟨_, h1, h2, h3, h4, _⟩ := (C25_product_unit E input c).1 hS
  have hcat : ∃ u, c.product ∈ productsIn u := by
    by_contra hc
    have hn : ∀ u, c.product ∉ productsIn u := fun u hu => hc ⟨u, hu⟩
    have := (C25_product_unit E input c).2.mpr ⟨hS, hn⟩
    rw [h] at this; simp at this
  have k1 : c.product ∈ productsIn .mm → Cli.colorFunc I L c = some (Heatmap I (Fl.lit f64 (1 / 10))
      (Fl.lit f64 (if c.interval ≤ 3600 * 10 ^ 9 then 100
        else if 7 * 24 * 3600 * 10 ^ 9 ≤ c.interval then 400 else 200)) L.log) := by
    intro hp
    unfold Cli.colorFunc
    rw [if_pos (h1 _ hp rfl)]
    have hh : Cli.hour = 3600 * 10 ^ 9 := rfl
    by_cases ha : c.interval ≤ 3600 * 10 ^ 9
    · have ha' : c.interval ≤ Cli.hour := by rw [hh]; exact ha
      have hb : ¬ (Cli.hour * 24 * 7 ≤ c.interval) := by rw [hh]; omega
      simp only [if_neg hb, if_pos ha', if_pos ha]; rfl
    · have ha' : ¬ c.interval ≤ Cli.hour := by rw [hh]; exact ha
      by_cases hb : 7 * 24 * 3600 * 10 ^ 9 ≤ c.interval
      · have hb' : Cli.hour * 24 * 7 ≤ c.interval := by rw [hh]; omega
        simp only [if_neg ha, if_pos hb', if_pos hb]; rfl
      · have hb' : ¬ Cli.hour * 24 * 7 ≤ c.interval := by rw [hh]; omega
        simp only [if_neg ha, if_neg hb', if_neg hb, if_neg ha']; rfl
  have k2 : c.product ∈ productsIn .dBZ → Cli.colorFunc I L c = some (Heatmap I (Fl.lit f64 1) (Fl.lit f64 75) Id) := by
    intro hp
    unfold Cli.colorFunc
    rw [h2 _ hp rfl]; rfl
  have k3 : c.product ∈ productsIn .km → Cli.colorFunc I L c = some (Graymap I (Fl.lit f64 0) (Fl.lit f64 15) Id) := by
    intro hp
    unfold Cli.colorFunc
    rw [h3 _ hp rfl]; rfl
  have k4 : c.product ∈ productsIn .mps →
      Cli.colorFunc I L c = some (Radialmap I (Fl.lit f64 (-63 / 2)) (Fl.lit f64 (63 / 2)) L.log) := by
    intro hp
    unfold Cli.colorFunc
    rw [h4 _ hp rfl]; rfl
  refine ⟨k1, k2, k3, k4, ?_⟩
  obtain ⟨u, hu⟩ := hcat
  cases u
  · rw [k1 hu]; rfl
  · rw [k2 hu]; rfl
  · rw [k3 hu]; rfl
  · rw [k4 hu]; rfl

end Props
