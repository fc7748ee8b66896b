/-
C85 and C88 for run-length coded pictures: looking up a place, and the printed text.
-/
import Verif.Props.PictureColors
import Verif.Props.Lookup
import Verif.Props.Printout

namespace Props
open Go Radolan Spec Radolan.Vis Radolan.CliIO Spec.Fusion

/-- a picture has no format version and no interval -/
theorem picture_defaults {E : Env} {p : Picture} (h : p.WF) {c : Composite} (hS : Success E p.serialise c) :
    c.format = 0 ∧ c.interval = 0 := by
  have hdl := pictureData_length h
  obtain ⟨_, hh2⟩ := pictureHeader_length h
  have hBYn := justified_numText 20 (p.headerLength + p.data.length) (by omega)
  have hw : ∀ g ∈ p.fields, g.WF := pictureFields_wf h (plain_numText hBYn).1 (plain_numText hBYn).2
  obtain ⟨_, _, _, _, v5⟩ := pictureFields_value h (justified 20 (p.headerLength + p.data.length))
  have v5 : ∀ k ∈ [str "VV", str "INT", str "E", str "VS"], value p.fields k = none := v5
  have hS : Success E (file p.fields p.data) c := hS
  refine ⟨?_, (C23_interval hw hS).1 (v5 _ (by simp))⟩
  obtain ⟨hx, rows, rest', _, _, _, rfl, hf, _⟩ := success_fields hw hS
  have h1 := hf.format
  unfold formatOf at h1
  rw [find_pairs, v5 _ (by simp)] at h1
  simp only [Option.some.injEq] at h1
  exact h1.symm

/-- `v` stands for the level `t`, in tenths; missing is NaN -/
def IsLevel (v : F32) : Option Int → Prop
  | none => v = .nan
  | some t => Nearest32 v ((t : ℚ) / 10)

theorem level_value {p : Picture} {levels : List F32} (hl : List.Forall₂ Nearest32 levels (p.levels.map fun t : Int => (t : ℚ) / 10))
    {x y k : Nat} (hk : p.code x y 0 = some k) : IsLevel (classValue levels k) (p.tenths x y) := by
  unfold Picture.tenths
  rw [hk, Option.bind_some]
  unfold classValue
  by_cases h0 : k = 0
  · simp only [if_pos h0]; rfl
  · simp only [if_neg h0]
    have hlen := hl.length_eq
    rw [List.length_map] at hlen
    cases hp : p.levels[k - 1]? with
    | none =>
      have : levels[k - 1]? = none := by rw [List.getElem?_eq_none_iff] at hp ⊢; omega
      rw [this]; rfl
    | some t =>
      obtain ⟨hi, ht⟩ := List.getElem?_eq_some_iff.mp hp
      have hi' : k - 1 < levels.length := by omega
      have := (List.forall₂_iff_get.mp hl).2 (k - 1) hi' (by rw [List.length_map]; exact hi)
      simp only [List.get_eq_getElem, List.getElem_map] at this
      rw [List.getElem?_eq_getElem hi']
      show Nearest32 levels[k - 1] _
      rw [← ht]; exact this

/-- C85. For every run-length coded picture on a grid with a projection, looking up a place gives the level the file has
for the pixel in which the place lies, and NaN for missing pixels and outside the grid. -/
theorem C85_picture {E : Env} (hM : AccurateMath E.math) {p : Picture} (hw : p.WF) {b : Int × Int}
    (hg : HasGrid 0 p.cols p.height b) :
    ∃ c, Success E p.serialise c ∧
      ∀ (north east : F64), OnMap north east → ∀ (impl : F64 → Int) (x y : F64),
        Observable (permittedProject E c north east).1 x → Observable (permittedProject E c north east).2 y →
        let r := realProject 0 p.cols p.height north.val east.val
        ∀ k l, Pos (p.cols / 10 ^ 9) p.cols r.1 k → Pos (p.height / 10 ^ 9) p.height r.2 l →
          ∃ v, c.At (Fl.toInt impl x) (Fl.toInt impl y) = some v ∧
            match k, l with
            | some i, some j => IsLevel v (p.tenths i j)
            | _, _ => v = .nan := by
  obtain ⟨c, levels, hs, _, _, _, _, hl, h2, h3, _, _, _, hpix, _⟩ := C68_picture_round_trip E p hw
  have h1 := (picture_defaults hw hs).1
  obtain ⟨z1, z2, z3, z4⟩ := pictureSize hw
  have hH : 1 ≤ p.height ∧ p.height ≤ 2400 := by
    unfold Picture.height; split <;> omega
  have hL : 1 ≤ p.layers := by unfold Picture.layers; split <;> omega
  refine ⟨c, hs, ?_⟩
  intro north east hp impl x y hx hy r k l hk hl'
  have := C85_index hM (c := c) (b := b) (by rw [h1, h2, h3]; exact hg) (by rw [h2]; omega) (by rw [h3]; omega) hp impl hx hy
    (k := k) (l := l)
  rw [h1, h2, h3] at this
  rw [this (by push_cast; exact hk) (by push_cast; exact hl')]
  cases k with
  | none => exact ⟨_, rfl, rfl⟩
  | some i =>
    cases l with
    | none => exact ⟨_, rfl, rfl⟩
    | some j =>
      have hi : (i : Int) < p.cols := by
        cases hk with
        | inside h _ _ => exact h
        | strip _ _ => push_cast; omega
      have hj : (j : Int) < p.height := by
        cases hl' with
        | inside h _ _ => exact h
        | strip _ _ => push_cast; omega
      obtain ⟨k, e1, e2⟩ := hpix i j 0 (by exact_mod_cast hi) (by exact_mod_cast hj) (by omega)
      exact ⟨_, e2, level_value hl e1⟩

/-- C85. Every pixel of a picture can be looked up: there is a place, the same on all machines, for which this gives its
level. -/
theorem C85_picture_reachable {p : Picture} (hw : p.WF) {b : Int × Int} (hg : HasGrid 0 p.cols p.height b) {i j : Nat}
    (hi : i < p.cols) (hj : j < p.height) :
    ∃ north east : F64, OnMap north east ∧ ∀ E : Env, AccurateMath E.math →
      ∃ c, Success E p.serialise c ∧ ∀ (impl : F64 → Int) (x y : F64),
        Observable (permittedProject E c north east).1 x → Observable (permittedProject E c north east).2 y →
        ∃ v, c.At (Fl.toInt impl x) (Fl.toInt impl y) = some v ∧ IsLevel v (p.tenths i j) := by
  obtain ⟨z1, z2, z3, z4⟩ := pictureSize hw
  have hH : 1 ≤ p.height ∧ p.height ≤ 2400 := by
    unfold Picture.height; split <;> omega
  obtain ⟨north, east, ho, h1, h2⟩ := place_of (NewDummy envExact [] 0 p.cols p.height) (b := b) hg
    (show (p.cols : Int) ≤ _ by omega) (show (p.height : Int) ≤ _ by omega) (i := i) (j := j) (show (i : Int) < p.cols by omega)
    (show (j : Int) < p.height by omega)
  refine ⟨north, east, ho, fun E hM => ?_⟩
  obtain ⟨c, hs, H⟩ := C85_picture hM hw hg
  exact ⟨c, hs, fun impl x y hx hy => H north east ho impl x y hx hy (some i) (some j) h1 h2⟩

/-- C88. radolan2png prints one line with the product, its unit and the time of a well-formed picture, and for a picture
on a known grid a second line with the edges of the grid in whole kilometres. -/
theorem C88_picture {E : Env} {I : Impl} {border : List (F64 × F64)} {os : Os} {fs : Files} {inp out : Path} {p : Picture}
    {u : Spec.Unit} (hp : p.WF) (hu : p.label ∈ productsIn u) (hf : fs inp = some p.serialise) (ho : os.openOK inp = true)
    (hd : p.serialise.length ≤ os.delivers inp) :
    ((∀ b, ¬ HasGrid 0 p.cols p.height b) →
      stdout (CliIO.convert E I border os fs inp out).1 = summaryLine p.label u p.time) ∧
    (∀ b, HasGrid 0 p.cols p.height b → AccurateMath E.math → ∃ w h : Nat, extentKm b = (↑w, ↑h) ∧
      stdout (CliIO.convert E I border os fs inp out).1 = summaryLine p.label u p.time ++ gridLine w h) := by
  obtain ⟨c, levels, hs, h1, _, h3, _, hl, h7, h8, _, _, _, _, h13⟩ := C68_picture_round_trip E p hp
  have h5 := (picture_defaults hp hs).1
  have hn := h13.mpr ⟨u, hu⟩
  have hn' : NewComposite E (p.serialise.take (os.delivers inp)) = .ret c none := by
    rw [List.take_of_length_le hd]; exact hn
  obtain ⟨z1, z2, z3, z4⟩ := pictureSize hp
  have hH : 1 ≤ p.height ∧ p.height ≤ 2400 := by
    unfold Picture.height; split <;> omega
  have hunit := unit_of_label hs (u := u) (by rw [h1]; exact hu)
  have hsz : p.cols * p.height ≤ 999 * 2400 := Nat.mul_le_mul z4 hH.2
  have hpr := printed (I := I) (border := border) (out := out) hf ho hn' (by
    rw [h7, h8]
    have : ((p.cols * p.height : Nat) : Int) ≤ 999 * 2400 := by exact_mod_cast hsz
    rw [← Int.natCast_mul]; omega)
  have hsum : (Event.summary c.product c.dataUnit c.forecastTime).text = summaryLine p.label u p.time := by
    rw [h1, hunit, h3]
    unfold Event.text summaryLine
    have := time_after (n := 0) hp.time.1 hp.time.2.1 hp.time.2.2 (by omega)
    simp only [Nat.cast_zero, Int.zero_mul, Int.add_zero] at this
    simp only [unit_name, this]
    rfl
  rw [hsum] at hpr
  have hready : Ready E c := .parsed _ _ hs
  have hgrid := C31_has_projection_iff hready
  rw [h5, h7, h8] at hgrid
  constructor
  · intro hno
    have : ¬ c.hasProjection = true := fun hh => by
      obtain ⟨b, g1, g2, g3⟩ := hgrid.mp hh
      exact hno b ⟨g1, g2, g3⟩
    rw [hpr, if_neg this, List.append_nil]
  · intro b hb hM
    have hyes : c.hasProjection = true := hgrid.mpr ⟨b, hb.1, hb.2.1, hb.2.2⟩
    obtain ⟨w, v, W, H, g1, g2, g3, g4, g5, g6, g7, g8⟩ := grid_size_close hM hready (b := b) (by rw [h5, h7, h8]; exact hb)
      (by omega) (by omega)
    have hW : 900 ≤ W ∧ 900 ≤ H := by
      simp only [List.mem_cons, List.not_mem_nil, or_false, Prod.mk.injEq] at g8
      omega
    obtain ⟨W', rfl⟩ := Int.eq_ofNat_of_zero_le (by omega : 0 ≤ W)
    obtain ⟨H', rfl⟩ := Int.eq_ofNat_of_zero_le (by omega : 0 ≤ H)
    refine ⟨W', H', Prod.ext (by rw [g4]; simp) (by rw [g5]; simp), ?_⟩
    rw [hpr, if_pos hyes, g1]
    unfold Event.text gridLine
    simp only
    rw [fixed1_near (n := W') g2 (by omega) (by simpa using g6), fixed1_near (n := H') g3 (by omega) (by simpa using g7)]
    simp only [List.append_assoc]
    rfl

/-! ### concrete pictures -/

example (E : Env) (I : Impl) (border : List (F64 × F64)) :
    stdout (CliIO.convert E I border (readOnlyOs samplePicture.serialise.length) (fun _ => some samplePicture.serialise) [] []).1 =
      str "PG-Image (dBZ) showing 2016-06-26 21:15:00 +0000 UTC\n" := by
  rw [(C88_picture (E := E) (I := I) (border := border) (os := readOnlyOs samplePicture.serialise.length)
    (fs := fun _ => some samplePicture.serialise) (inp := []) (out := []) (u := .dBZ) samplePicture_wf (by decide) rfl rfl
    (Nat.le_refl _)).1 ?_]
  · decide +kernel
  · rintro b ⟨h1, ⟨k, h2, _⟩, _⟩
    have : ∀ b ∈ baseGrids, 100 ≤ b.1 := by decide
    have hb := this b h1
    have hk : (1 : Int) ≤ 2 ^ k := by exact_mod_cast Nat.one_le_two_pow
    have e : ((samplePicture.cols : Nat) : Int) = 4 := rfl
    rw [e] at h2
    nlinarith

/-- a PG picture of 460 x 460 pixels, as DWD publishes them -/
def europePicture : Picture := { samplePicture with
  cols := 460
  rows := List.replicate 460 (List.replicate 200 1 ++ List.replicate 260 0) }

theorem europePicture_wf : europePicture.WF where
  label := samplePicture_wf.label
  letters := samplePicture_wf.letters
  wmo := samplePicture_wf.wmo
  time := samplePicture_wf.time
  levels := samplePicture_wf.levels
  stations := samplePicture_wf.stations
  size := by
    have h1 : europePicture.strip = false := by decide
    have h2 : europePicture.volume = false := by decide
    rw [h1, h2]
    simp only [Bool.false_eq_true, if_false]
    unfold europePicture
    simp only [List.length_replicate]
    decide
  rows := by
    intro r hr
    rw [List.eq_of_mem_replicate hr]
    refine ⟨by rw [List.length_append, List.length_replicate, List.length_replicate]; rfl, fun k hk => ?_⟩
    rcases List.mem_append.mp hk with hk | hk <;> rw [List.eq_of_mem_replicate hk] <;> decide
  lineNumber := samplePicture_wf.lineNumber

theorem europePicture_height : europePicture.height = 460 := by
  unfold Picture.height
  rw [show europePicture.strip = false by decide, show europePicture.volume = false by decide]
  simp only [Bool.or_self, Bool.false_eq_true, if_false]
  unfold europePicture
  rw [List.length_replicate]

theorem europePicture_grid : HasGrid 0 europePicture.cols europePicture.height (115, 115) := by
  rw [europePicture_height]
  exact ⟨by decide, ⟨2, by decide, by decide⟩, Or.inl (by decide)⟩

/-- pixel (123, 45) of this picture is at level 1.0, pixel (300, 45) missing: both can be looked up -/
example : europePicture.tenths 123 45 = some 10 ∧ europePicture.tenths 300 45 = none := by
  have hs : europePicture.strip = false := by decide
  unfold Picture.tenths Picture.code
  rw [hs]
  simp only [europePicture, Bool.false_eq_true, if_false]
  rw [List.getElem?_replicate, if_pos (by decide), Option.bind_some, Option.bind_some,
    List.getElem?_append_left (by rw [List.length_replicate]; decide), List.getElem?_append_right (by rw [List.length_replicate]; decide),
    List.getElem?_replicate, List.getElem?_replicate, if_pos (by decide), List.length_replicate, if_pos (by decide)]
  exact ⟨rfl, rfl⟩

example := C85_picture_reachable europePicture_wf europePicture_grid (i := 123) (j := 45) (by decide)
  (by rw [europePicture_height]; decide)

example (I : Impl) (border : List (F64 × F64)) :
    stdout (CliIO.convert { env0 with math := fullMath } I border (readOnlyOs europePicture.serialise.length)
        (fun _ => some europePicture.serialise) [] []).1 =
      str "PG-Image (dBZ) showing 2016-06-26 21:15:00 +0000 UTC\ndetected grid: 920.0 km * 920.0 km\n" := by
  obtain ⟨w, h, he, hr⟩ := (C88_picture (E := { env0 with math := fullMath }) (I := I) (border := border)
    (os := readOnlyOs europePicture.serialise.length) (fs := fun _ => some europePicture.serialise) (inp := []) (out := [])
    (u := .dBZ) europePicture_wf (by decide) rfl rfl (Nat.le_refl _)).2 (115, 115) europePicture_grid fullMath_accurate
  rw [show extentKm (115, 115) = (920, 920) by simp [extentKm], Prod.mk.injEq] at he
  have e1 : w = 920 := by exact_mod_cast he.1.symm
  have e2 : h = 920 := by exact_mod_cast he.2.symm
  subst e1; subst e2
  rw [hr]
  have d : nat 920 = str "920" := by
    unfold nat
    rw [digits, if_neg (by decide), digits, if_neg (by decide), digits, if_pos (by decide)]
    decide
  have l : summaryLine europePicture.label .dBZ europePicture.time =
      str "PG-Image (dBZ) showing 2016-06-26 21:15:00 +0000 UTC\n" := by decide +kernel
  rw [l]
  unfold gridLine
  rw [d]
  decide +kernel

end Props
