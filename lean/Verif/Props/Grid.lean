/-
C31, C32, C33, C38: when a projection is available, and what it depends on.
-/
import Verif.Lemmas.Grid
import Verif.Props.Dims

namespace Props
open Go Radolan Spec

/-- the projection fields of a ready composite are those calibration computes from format and dimensions -/
theorem ready_calib {E : Env} {c : Composite} (h : Ready E c) :
    (⟨c.rx, c.ry, c.hasProjection, c.offx, c.offy, c.projWgs84⟩ : Calib F64)
      = calibrate (f64Arith E.math) c.format c.dx c.dy := by
  cases h with
  | parsed input c h =>
    obtain ⟨h, rest, rows, rest', hh, ha, hd, rfl⟩ := parsed_iff.mp h
    rfl
  | dummy => rfl

theorem ready_held {E : Env} {c : Composite} (h : Ready E c) : Held E c := by
  cases h with
  | parsed input c h => rcases h with h | h <;> exact .parsed input c _ h
  | dummy => exact .dummy ..

theorem ready_hasProjection {E : Env} {c : Composite} (h : Ready E c) :
    c.hasProjection = true ↔ detectGrid c.dx c.dy ≠ .unknown ∧ (c.format < 5 ∨ detectGrid c.dx c.dy = .de1200) := by
  have := congrArg Calib.hasProjection (ready_calib h)
  simp only at this
  rw [this, calibrate_hasProjection]

/-- C31. A projection is available exactly for the five known grids at a resolution that is a power of two finer
than the coarsest one, for formats below 5, and only for the 1100x1200 km grid from format 5 on. -/
theorem C31_has_projection_iff {E : Env} {c : Composite} (h : Ready E c) :
    c.hasProjection = true ↔
      ∃ b ∈ baseGrids, Scaled b c.dx c.dy ∧ (c.format < 5 ∨ b = (275, 300)) := by
  rw [ready_hasProjection h]
  constructor
  · rintro ⟨h1, h2⟩
    refine ⟨gridBase (detectGrid c.dx c.dy), ?_, (detectGrid_iff h1).mp rfl, ?_⟩
    · cases hg : detectGrid c.dx c.dy <;> first | exact absurd hg h1 | decide
    · rcases h2 with h2 | h2
      · exact Or.inl h2
      · rw [h2]; exact Or.inr rfl
  · rintro ⟨b, hb, hs, hf⟩
    have key : ∀ g : Grid, g ≠ .unknown → gridBase g = b → detectGrid c.dx c.dy = g := by
      intro g hg he; rw [← he] at hs; exact (detectGrid_iff hg).mpr hs
    simp only [baseGrids, List.mem_cons, List.not_mem_nil, or_false] at hb
    rcases hb with rfl | rfl | rfl | rfl | rfl
    · rw [key .national (by decide) rfl]; simp at hf ⊢; exact hf
    · rw [key .nationalPicture (by decide) rfl]; simp at hf ⊢; exact hf
    · rw [key .extendedNational (by decide) rfl]; simp at hf ⊢; exact hf
    · rw [key .de1200 (by decide) rfl]; simp
    · rw [key .middleEuropean (by decide) rfl]; simp at hf ⊢; exact hf

/-- C31: nonpositive dimensions never have a projection -/
theorem C31_nonpositive {E : Env} {c : Composite} (h : Ready E c) (hd : c.dx ≤ 0 ∨ c.dy ≤ 0) :
    c.hasProjection = false := by
  rw [Bool.eq_false_iff]
  intro hp
  obtain ⟨b, hb, ⟨k, h1, h2⟩, _⟩ := (C31_has_projection_iff h).mp hp
  have h2k : (0 : Int) < 2 ^ k := by positivity
  have hpos : 0 < b.1 ∧ 0 < b.2 := by
    have : ∀ b ∈ baseGrids, 0 < b.1 ∧ 0 < b.2 := by decide
    exact this b hb
  have := mul_pos hpos.1 h2k
  have := mul_pos hpos.2 h2k
  omega

/-- a 900 x 900 dummy has a projection, a 900 x 901 one has none, format 5 has none on this grid -/
example (E : Env) : (NewDummy E (str "RW") 3 900 900).hasProjection = true ∧
    (NewDummy E (str "RW") 3 900 901).hasProjection = false ∧
    (NewDummy E (str "RW") 5 900 900).hasProjection = false ∧
    (NewDummy E (str "WN") 5 1100 1200).hasProjection = true := by
  refine ⟨(C31_has_projection_iff (.dummy ..)).mpr ⟨(225, 225), by decide, ⟨2, rfl, rfl⟩, Or.inl (show (3 : Int) < 5 by decide)⟩, ?_, ?_,
    (C31_has_projection_iff (.dummy ..)).mpr ⟨(275, 300), by decide, ⟨2, rfl, rfl⟩, Or.inr rfl⟩⟩
  · rw [Bool.eq_false_iff]; intro h
    have := (ready_hasProjection (Ready.dummy (E := E) _ _ _ _)).mp h
    revert this; show ¬ (detectGrid 900 901 ≠ _ ∧ _)
    rw [show detectGrid 900 901 = .unknown by decide +kernel]; simp
  · rw [Bool.eq_false_iff]; intro h
    have := (ready_hasProjection (Ready.dummy (E := E) _ _ _ _)).mp h
    revert this; show ¬ (detectGrid 900 900 ≠ _ ∧ ((5 : Int) < 5 ∨ detectGrid 900 900 = .de1200))
    rw [show detectGrid 900 900 = .national by decide +kernel]; simp

/-- C32. Without a projection every coordinate of every composite the API hands out is projected to (NaN, NaN); and
Rx, Ry are NaN in a successfully parsed or dummy composite. -/
theorem C32_no_projection {E : Env} {c : Composite} (hp : c.hasProjection = false) :
    (∀ north east, c.Project E north east = (.nan, .nan)) ∧ (Ready E c → c.rx = .nan ∧ c.ry = .nan) := by
  constructor
  · intro n e
    simp [Composite.Project, project, hp, f64Arith]
  · intro h
    have hc := ready_calib h
    have hn := (not_congr (ready_hasProjection h)).mp (by simp [hp])
    have : calibrate (f64Arith E.math) c.format c.dx c.dy = ⟨.nan, .nan, false, .nan, .nan, none⟩ := by
      unfold calibrate
      simp only
      cases hg : detectGrid c.dx c.dy <;> simp only [cornerPoints]
      · rfl
      all_goals
        rw [hg] at hn
        simp at hn
        try (simp only [hn]; rfl)
    rw [this] at hc
    simp only [Calib.mk.injEq] at hc
    exact ⟨hc.1, hc.2.1⟩

example (E : Env) : (NewDummy E (str "XX") 3 17 4).Project E Fl.zero Fl.zero = (.nan, .nan) := by
  apply (C32_no_projection _).1
  rw [Bool.eq_false_iff]; intro h
  have := (ready_hasProjection (Ready.dummy (E := E) _ _ _ _)).mp h
  revert this; show ¬ (detectGrid 17 4 ≠ _ ∧ _)
  rw [show detectGrid 17 4 = .unknown by decide +kernel]; simp

/-- C33. Composites of equal format and dimensions project equally and have equal resolution: product label and data
do not matter, nor whether the composite was parsed or made by NewDummy. -/
theorem C33_format_and_dimensions {E : Env} {c c' : Composite} (h : Ready E c) (h' : Ready E c')
    (hf : c.format = c'.format) (hx : c.dx = c'.dx) (hy : c.dy = c'.dy) :
    c.hasProjection = c'.hasProjection ∧ c.rx = c'.rx ∧ c.ry = c'.ry ∧
      ∀ north east, c.Project E north east = c'.Project E north east := by
  have e1 := ready_calib h
  have e2 := ready_calib h'
  rw [hf, hx, hy] at e1
  have e := e1.trans e2.symm
  refine ⟨congrArg Calib.hasProjection e, congrArg Calib.rx e, congrArg Calib.ry e, ?_⟩
  intro n e'
  unfold Composite.Project
  rw [e]

/-- C33. NewDummy returns a blank composite - no data, NaN everywhere - of exactly the given label, format, width and
height; a dummy made for the format and size of a parsed composite projects every coordinate like that composite and
has its resolution. -/
theorem C33_dummy (E : Env) (product : Bytes) (format dx dy : Int) :
    let d := NewDummy E product format dx dy
    (d.product = product ∧ d.format = format ∧ d.dx = dx ∧ d.dy = dy ∧ d.dz = 0 ∧ d.px = 0 ∧ d.py = 0 ∧
      d.data = [] ∧ d.dataZ = [] ∧ d.plainData = []) ∧
    (∀ x y z, d.AtZ x y z = some .nan ∧ d.At x y = some .nan) ∧
    (∀ input c, Success E input c → c.format = format → c.dx = dx → c.dy = dy →
      d.hasProjection = c.hasProjection ∧ d.rx = c.rx ∧ d.ry = c.ry ∧
      ∀ north east, d.Project E north east = c.Project E north east) := by
  intro d
  have hz : d.dz = 0 := rfl
  have hat : ∀ x y z, d.AtZ x y z = some .nan := by
    intro x y z
    unfold Composite.AtZ
    rw [hz, if_pos (by omega)]
  refine ⟨⟨rfl, rfl, rfl, rfl, rfl, rfl, rfl, rfl, rfl, rfl⟩, fun x y z => ⟨hat x y z, hat x y 0⟩, ?_⟩
  intro input c hS hf hx hy
  exact C33_format_and_dimensions (.dummy ..) (.parsed _ _ hS) hf.symm hx.symm hy.symm

/-- the parsed 3 x 2 sample projects like a dummy of its size -/
example : ∃ c, Success env0 sampleRX c ∧
    ∀ n e, c.Project env0 n e = (NewDummy env0 (str "??") c.format c.dx c.dy).Project env0 n e := by
  obtain ⟨c, h, _⟩ := sampleRX_ok
  exact ⟨c, h, (C33_format_and_dimensions (.parsed _ _ h) (.dummy ..) rfl rfl rfl).2.2.2⟩

/-- C38 (finding). A product whose dimensions come from the product catalog - no GP and no BG field - loses the
catalogued resolution: Rx and Ry are NaN after every successful parse, and there is no projection. -/
theorem C38_catalog_resolution_lost {E : Env} {fs : List Field} {data : Bytes} {c : Composite} (hw : ∀ f ∈ fs, f.WF)
    (hS : Success E (file fs data) c) (hGP : value fs (str "GP") = none) (hBG : value fs (str "BG") = none) :
    c.rx = .nan ∧ c.ry = .nan ∧ c.hasProjection = false := by
  have hdim : c.dx = 200 ∧ c.dy = 200 := by
    rcases (C24_dimensions hw hS).2.2 hGP hBG with ⟨_, h1, h2, _⟩ | ⟨_, h1, h2, _⟩ <;> exact ⟨h1, h2⟩
  have hr : Ready E c := .parsed _ _ hS
  have hp : c.hasProjection = false := by
    rw [Bool.eq_false_iff]; intro h
    have := (ready_hasProjection hr).mp h
    rw [hdim.1, hdim.2, show detectGrid 200 200 = .unknown by decide +kernel] at this
    exact this.1 rfl
  have := (C32_no_projection (E := E) hp).2 hr
  exact ⟨this.1, this.2, hp⟩

/-- a run-length coded local product "PX" without a dimension field: 224 empty lines -/
def samplePX : Bytes :=
  file [⟨str "PX", str "021310100000217"⟩, ⟨str "BY", str "  1"⟩, ⟨str "LV", str " 2  1.0 19.0"⟩]
    (List.replicate 224 [1, 10]).flatten

set_option maxRecDepth 100000 in
/-- its resolution is lost -/
example : ∃ c, Success env0 samplePX c ∧ c.rx = .nan ∧ c.dx = 200 := by
  obtain ⟨c, h, hp⟩ := success_of_okWith (E := env0) (input := samplePX) (p := fun c => decide (c.dx = 200))
    (by decide +kernel)
  refine ⟨c, h, (C38_catalog_resolution_lost ?_ h ?_ ?_).1, by simpa using hp⟩ <;> decide +kernel

end Props
