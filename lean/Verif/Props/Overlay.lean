/-
C49, C50: what radolan2png draws.
-/
import Verif.Props.Colors
import Verif.Props.Image
import Verif.Props.Archive

namespace Props
open Go Radolan Spec Radolan.Vis

/-- some of the geographic points (latitude, longitude) falls on pixel (x, y) -/
def Hits (E : Env) (I : Impl) (c : Composite) (pts : List (F64 × F64)) (x y : Nat) : Prop :=
  ∃ p ∈ pts, Fl.toInt I.int (c.Project E p.1 p.2).1 = x ∧ Fl.toInt I.int (c.Project E p.1 p.2).2 = y

theorem drawPoints_spec (E : Env) (I : Impl) (c : Composite) (color : RGBA) (pts : List (F64 × F64)) {img : Img}
    (hw : Img.WF img) :
    Img.WF (Cli.drawPoints E I c color pts img) ∧ (Cli.drawPoints E I c color pts img).w = img.w ∧
    (Cli.drawPoints E I c color pts img).h = img.h ∧
    ∀ x y : Nat, x < img.w → y < img.h →
      (Hits E I c pts x y → (Cli.drawPoints E I c color pts img).at x y = some color) ∧
      (¬ Hits E I c pts x y → (Cli.drawPoints E I c color pts img).at x y = img.at x y) := by
  induction pts generalizing img with
  | nil =>
    refine ⟨hw, rfl, rfl, fun x y _ _ => ⟨?_, fun _ => rfl⟩⟩
    rintro ⟨p, hp, _⟩; simp at hp
  | cons p ps ih =>
    obtain ⟨s1, s2, s3, s4⟩ := img_set hw (Fl.toInt I.int (c.Project E p.1 p.2).1)
      (Fl.toInt I.int (c.Project E p.1 p.2).2) color
    obtain ⟨i1, i2, i3, i4⟩ := ih s1
    have hstep : Cli.drawPoints E I c color (p :: ps) img = Cli.drawPoints E I c color ps
      (img.set (Fl.toInt I.int (c.Project E p.1 p.2).1) (Fl.toInt I.int (c.Project E p.1 p.2).2) color) := rfl
    rw [hstep]
    refine ⟨i1, i2.trans s2, i3.trans s3, ?_⟩
    intro x y hx hy
    obtain ⟨j1, j2⟩ := i4 x y (by rw [s2]; exact hx) (by rw [s3]; exact hy)
    by_cases hps : Hits E I c ps x y
    · refine ⟨fun _ => j1 hps, fun hn => absurd ?_ hn⟩
      obtain ⟨q, hq, h⟩ := hps
      exact ⟨q, List.mem_cons_of_mem _ hq, h⟩
    · rw [j2 hps, s4 x y]
      constructor
      · rintro ⟨q, hq, h1, h2⟩
        rcases List.mem_cons.mp hq with rfl | hq
        · rw [if_pos ⟨h1.symm, h2.symm, hx, hy⟩]
        · exact absurd ⟨q, hq, h1, h2⟩ hps
      · intro hn
        rw [if_neg]
        rintro ⟨h1, h2, _, _⟩
        exact hn ⟨p, List.mem_cons_self, h1.symm, h2.symm⟩

/-! ### the mesh -/

/-- the longitudes and latitudes the loops run through -/
def meshLongitudes : List F64 := (Cli.floatLoop (Fl.lit f64 16) (Fl.lit f64 (1 / 10)) 1000 (Fl.lit f64 1)).getD []
def meshLatitudes : List F64 := (Cli.floatLoop (Fl.lit f64 55) (Fl.lit f64 (1 / 10)) 1000 (Fl.lit f64 46)).getD []

theorem longitudes_eq :
    Cli.floatLoop (Fl.lit f64 16) (Fl.lit f64 (1 / 10)) 1000 (Fl.lit f64 1) = some meshLongitudes := by
  have : (Cli.floatLoop (Fl.lit f64 16) (Fl.lit f64 (1 / 10)) 1000 (Fl.lit f64 1)).isSome = true := by decide +kernel
  rw [Option.isSome_iff_exists] at this
  obtain ⟨l, hl⟩ := this
  unfold meshLongitudes; rw [hl]; rfl

theorem latitudes_eq :
    Cli.floatLoop (Fl.lit f64 55) (Fl.lit f64 (1 / 10)) 1000 (Fl.lit f64 46) = some meshLatitudes := by
  have : (Cli.floatLoop (Fl.lit f64 55) (Fl.lit f64 (1 / 10)) 1000 (Fl.lit f64 46)).isSome = true := by decide +kernel
  rw [Option.isSome_iff_exists] at this
  obtain ⟨l, hl⟩ := this
  unfold meshLatitudes; rw [hl]; rfl

theorem onLine_indep (I J : Impl) {e : F64} (hf : e.isFin = true) (h : |e.val| ≤ 1024) :
    Cli.onLine I e = Cli.onLine J e := by
  unfold Cli.onLine
  rw [Fl.toInt_indep I.int J.int hf h]

/-- what the lists contain, checked by evaluation (151 longitudes, 90 latitudes) -/
theorem longitudes_table : ∀ e ∈ meshLongitudes, (e.isFin = true ∧ 1 ≤ e.val ∧ e.val < 16) ∧
    (Cli.onLine impl0 e = true ↔ ∃ k ∈ ([1, 2, 3, 4, 51 / 10, 61 / 10, 71 / 10, 81 / 10, 91 / 10, 101 / 10, 111 / 10,
      121 / 10, 131 / 10, 141 / 10, 151 / 10] : List ℚ), |e.val - k| < 1 / 10 ^ 12) := by decide +kernel

theorem latitudes_table : ∀ n ∈ meshLatitudes, (n.isFin = true ∧ 46 ≤ n.val ∧ n.val < 55) ∧
    (Cli.onLine impl0 n = true ↔ ∃ k ∈ ([46, 47, 48, 49, 50, 51, 52, 53, 54] : List ℚ), |n.val - k| < 1 / 10 ^ 11) := by
  decide +kernel

/-- C49. The mesh loops end, whatever the implementation does with out-of-range conversions; the mesh points run
through 151 longitudes in [1, 16) and 90 latitudes in [46, 55). The parallels drawn are those of 46, ..., 54 degrees.
The meridians drawn are those of 1, 2, 3, 4 degrees - and then of 5.1, 6.1, ..., 15.1 degrees: the accumulated rounding
error of `e += 0.1` makes the test for a whole degree miss 5, ..., 15 and hit the next step. -/
theorem C49_mesh : ∃ mesh, (∀ I, Cli.meshPoints I = some mesh) ∧
    meshLongitudes.length = 151 ∧ meshLatitudes.length = 90 ∧
    (∀ n e, (n, e) ∈ mesh ↔ n ∈ meshLatitudes ∧ e ∈ meshLongitudes ∧
      ((∃ k ∈ ([1, 2, 3, 4, 51 / 10, 61 / 10, 71 / 10, 81 / 10, 91 / 10, 101 / 10, 111 / 10,
          121 / 10, 131 / 10, 141 / 10, 151 / 10] : List ℚ), |e.val - k| < 1 / 10 ^ 12) ∨
        (∃ k ∈ ([46, 47, 48, 49, 50, 51, 52, 53, 54] : List ℚ), |n.val - k| < 1 / 10 ^ 11))) ∧
    (∀ n e, (n, e) ∈ mesh → n.isFin = true ∧ 46 ≤ n.val ∧ n.val < 55 ∧ e.isFin = true ∧ 1 ≤ e.val ∧ e.val < 16) := by
  have hI : ∀ I, Cli.meshPoints I = some (meshLongitudes.flatMap fun e =>
      (meshLatitudes.filter fun n => Cli.onLine impl0 e || Cli.onLine impl0 n).map fun n => (n, e)) := by
    intro I
    unfold Cli.meshPoints
    rw [longitudes_eq, latitudes_eq]
    simp only [Option.bind_eq_bind, Option.bind_some, Option.some.injEq]
    have ho : ∀ e ∈ meshLongitudes, Cli.onLine I e = Cli.onLine impl0 e := fun e he =>
      onLine_indep I impl0 (longitudes_table e he).1.1 (by
        have := (longitudes_table e he).1; rw [abs_of_nonneg (by linarith)]; linarith)
    have hn : ∀ n ∈ meshLatitudes, Cli.onLine I n = Cli.onLine impl0 n := fun e he =>
      onLine_indep I impl0 (latitudes_table e he).1.1 (by
        have := (latitudes_table e he).1; rw [abs_of_nonneg (by linarith)]; linarith)
    apply List.flatMap_congr
    intro e he
    congr 1
    apply List.filter_congr
    intro n hn'
    rw [ho e he, hn n hn']
  have hmem : ∀ n e, (n, e) ∈ (meshLongitudes.flatMap fun e =>
      (meshLatitudes.filter fun n => Cli.onLine impl0 e || Cli.onLine impl0 n).map fun n => (n, e)) ↔
      n ∈ meshLatitudes ∧ e ∈ meshLongitudes ∧ (Cli.onLine impl0 e = true ∨ Cli.onLine impl0 n = true) := by
    intro n e
    rw [List.mem_flatMap]
    constructor
    · rintro ⟨e', he, h⟩
      rw [List.mem_map] at h
      obtain ⟨n', hn, h⟩ := h
      obtain ⟨rfl, rfl⟩ := Prod.mk.inj h
      rw [List.mem_filter, Bool.or_eq_true] at hn
      exact ⟨hn.1, he, hn.2⟩
    · rintro ⟨h1, h2, h3⟩
      refine ⟨e, h2, List.mem_map.mpr ⟨n, ?_, rfl⟩⟩
      rw [List.mem_filter, Bool.or_eq_true]
      exact ⟨h1, h3⟩
  refine ⟨_, hI, by decide +kernel, by decide +kernel, ?_, ?_⟩
  · intro n e
    rw [hmem]
    constructor
    · rintro ⟨h1, h2, h3⟩
      exact ⟨h1, h2, h3.imp (longitudes_table e h2).2.mp (latitudes_table n h1).2.mp⟩
    · rintro ⟨h1, h2, h3⟩
      exact ⟨h1, h2, h3.imp (longitudes_table e h2).2.mpr (latitudes_table n h1).2.mpr⟩
  · intro n e h
    obtain ⟨h1, h2, _⟩ := (hmem n e).mp h
    obtain ⟨a, b, c⟩ := (latitudes_table n h1).1
    obtain ⟨a', b', c'⟩ := (longitudes_table e h2).1
    exact ⟨a, b, c, a', b', c'⟩

/-- C50. radolan2png fails exactly with the error of NewComposite. If that is nil (and the image buffer can be
allocated) it does not panic and draws an image of Dx x Dy pixels: without a projection every pixel shows its value;
with one, pixels hit by a mesh point have the mesh colour, other pixels hit by a border point the border colour, and
all others show their value, namely the colour map applied to At. -/
theorem C50_drawing (E : Env) (I : Impl) (border : List (F64 × F64)) (input : Bytes) :
    (∀ e, Cli.convert E I border input = .fail e ↔ ∃ c, NewComposite E input = .ret c (some e)) ∧
    ∀ c, NewComposite E input = .ret c none → 4 * (c.dx * c.dy) ≤ 2 ^ 48 →
      ∃ img fn mesh, Cli.convert E I border input = .image img ∧ Cli.colorFunc I E.math c = some fn ∧
        Cli.meshPoints I = some mesh ∧ (img.w : Int) = c.dx ∧ (img.h : Int) = c.dy ∧
        ∀ x y : Nat, (x : Int) < c.dx → (y : Int) < c.dy → ∃ v, c.At x y = some v ∧
          (c.hasProjection = false → img.at x y = some (fn (v.conv f64))) ∧
          (c.hasProjection = true →
            (Hits E I c mesh x y → img.at x y = some ⟨0x33, 0xFF, 0x22, 0xFF⟩) ∧
            (¬ Hits E I c mesh x y → Hits E I c border x y → img.at x y = some ⟨0xFF, 0xFF, 0x00, 0xFF⟩) ∧
            (¬ Hits E I c mesh x y → ¬ Hits E I c border x y → img.at x y = some (fn (v.conv f64)))) := by
  constructor
  · intro e
    unfold Cli.convert
    cases h : NewComposite E input with
    | panic => simp
    | ret c err =>
      cases err with
      | some e' =>
        simp only [Cli.Result.fail.injEq, Outcome.ret.injEq, Option.some.injEq]
        exact ⟨fun h => ⟨c, rfl, h⟩, fun ⟨_, _, h⟩ => h⟩
      | none =>
        simp only [Outcome.ret.injEq, reduceCtorEq, and_false, exists_false, iff_false]
        repeat' split
        all_goals simp
  · intro c h hsize
    have hS : Success E input c := Or.inl h
    obtain ⟨fn, hfn⟩ := Option.isSome_iff_exists.mp (C46_color_map h I E.math).2.2.2.2
    obtain ⟨mesh, hmesh, _⟩ := C49_mesh
    obtain ⟨img, h1, h2, h3, h4, h5, _⟩ := C42_image hS fn 0 hsize
    have hz : 0 < c.dz := by
      have := (C05_shape hS); omega
    have hwf : Img.WF img := image_wf h1
    unfold Cli.convert
    rw [h]
    simp only [hfn, h1]
    cases hp : c.hasProjection
    · refine ⟨img, fn, mesh, by simp, rfl, hmesh I, h2, h3, ?_⟩
      intro x y hx hy
      obtain ⟨v, hv, hc⟩ := h5 (by omega) hz x y hx hy
      exact ⟨v, hv, fun _ => hc, by simp⟩
    · obtain ⟨b1, b2, b3, b4⟩ := drawPoints_spec E I c Cli.borderColor border hwf
      obtain ⟨m1, m2, m3, m4⟩ := drawPoints_spec E I c Cli.meshColor mesh b1
      refine ⟨Cli.drawPoints E I c Cli.meshColor mesh (Cli.drawPoints E I c Cli.borderColor border img), fn, mesh,
        by simp only [if_true, hmesh I], rfl, hmesh I, by rw [m2, b2]; exact h2,
        by rw [m3, b3]; exact h3, ?_⟩
      intro x y hx hy
      obtain ⟨v, hv, hc⟩ := h5 (by omega) hz x y hx hy
      have hx' : x < img.w := by omega
      have hy' : y < img.h := by omega
      obtain ⟨bt, bf⟩ := b4 x y hx' hy'
      obtain ⟨mt, mf⟩ := m4 x y (by rw [b2]; exact hx') (by rw [b3]; exact hy')
      exact ⟨v, hv, by simp, fun _ => ⟨mt, fun hm hb => (mf hm).trans (bt hb), fun hm hb =>
        ((mf hm).trans (bf hb)).trans hc⟩⟩

/-- an input radolan2png draws -/
example : ∃ c, NewComposite env0 sampleRX = .ret c none := by
  obtain ⟨c, h, _⟩ := sampleRX_at
  exact ⟨c, h⟩

end Props
