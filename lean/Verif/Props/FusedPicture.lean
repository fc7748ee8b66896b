/-
C97: the picture of radolan2png does not depend on how floating point operations are fused.
-/
import Verif.Spec.FusedPicture
import Verif.Props.FusedColors
import Verif.Props.MeshMap

namespace Props
open Go Radolan Spec Radolan.Vis Spec.Fusion

/-- `p` may be drawn on pixel (x, y) -/
def MayHit (E : Env) (I : Impl) (c : Composite) (p : F64 × F64) (x y : Nat) : Prop :=
  ∃ X Y, Observable (permittedProject E c p.1 p.2).1 X ∧ Observable (permittedProject E c p.1 p.2).2 Y ∧
    Fl.toInt I.int X = x ∧ Fl.toInt I.int Y = y

/-- `p` is drawn on pixel (x, y) whatever is fused -/
def MustHit (E : Env) (I : Impl) (c : Composite) (p : F64 × F64) (x y : Nat) : Prop :=
  ∀ X Y, Observable (permittedProject E c p.1 p.2).1 X → Observable (permittedProject E c p.1 p.2).2 Y →
    Fl.toInt I.int X = x ∧ Fl.toInt I.int Y = y

theorem draws_spec {E : Env} {I : Impl} {c : Composite} {color : RGBA} {pts : List (F64 × F64)} {img img' : Img}
    (h : Draws E I c color pts img img') (hw : Img.WF img) :
    Img.WF img' ∧ img'.w = img.w ∧ img'.h = img.h ∧ ∀ x y : Nat, x < img.w → y < img.h →
      (img'.at x y = some color ∨ img'.at x y = img.at x y) ∧
      ((∃ p ∈ pts, MustHit E I c p x y) → img'.at x y = some color) ∧
      ((∀ p ∈ pts, ¬ MayHit E I c p x y) → img'.at x y = img.at x y) := by
  induction h with
  | done img => exact ⟨hw, rfl, rfl, fun x y _ _ => ⟨Or.inr rfl, by rintro ⟨p, hp, _⟩; simp at hp, fun _ => rfl⟩⟩
  | @point p ps img img' X Y hX hY _ ih =>
    obtain ⟨s1, s2, s3, s4⟩ := img_set hw (Fl.toInt I.int X) (Fl.toInt I.int Y) color
    obtain ⟨i1, i2, i3, i4⟩ := ih s1
    refine ⟨i1, i2.trans s2, i3.trans s3, fun x y hx hy => ?_⟩
    obtain ⟨j0, j1, j2⟩ := i4 x y (by rw [s2]; exact hx) (by rw [s3]; exact hy)
    rw [s4 x y] at j0 j2
    refine ⟨?_, ?_, ?_⟩
    · rcases j0 with j0 | j0
      · exact Or.inl j0
      · rw [j0]; split
        · exact Or.inl rfl
        · exact Or.inr rfl
    · rintro ⟨q, hq, hh⟩
      rcases List.mem_cons.mp hq with rfl | hq
      · obtain ⟨a, b⟩ := hh X Y hX hY
        rcases j0 with j0 | j0
        · exact j0
        · rw [j0, if_pos ⟨a.symm, b.symm, hx, hy⟩]
      · exact j1 ⟨q, hq, hh⟩
    · intro hn
      rw [j2 (fun q hq => hn q (List.mem_cons_of_mem _ hq)), if_neg]
      rintro ⟨a, b, _, _⟩
      exact hn p List.mem_cons_self ⟨X, Y, hX, hY, a.symm, b.symm⟩

/-- the drawing of the model is a permitted one -/
theorem draws_model {E : Env} {c : Composite} (h : Ready E c) (I : Impl) (color : RGBA) (pts : List (F64 × F64)) (img : Img) :
    Draws E I c color pts img (Cli.drawPoints E I c color pts img) := by
  induction pts generalizing img with
  | nil => exact .done img
  | cons p ps ih =>
    obtain ⟨_, _, h1, h2⟩ := C67_separate_rounding h p.1 p.2
    exact .point _ _ h1 h2 (ih _)

/-- what the model draws over the values is permitted -/
theorem finished_model {E : Env} {c : Composite} (hr : Ready E c) (I : Impl) (border : List (F64 × F64)) {base : Img}
    {fn : ColorFunc} {input : Bytes} (h : NewComposite E input = .ret c none) (hfn : Cli.colorFunc I E.math c = some fn)
    (h1 : Image fn c 0 = some base) : ∃ img, Cli.convert E I border input = .image img ∧ Finished E I border c base img := by
  obtain ⟨mesh, hmesh, _⟩ := C49_mesh
  unfold Cli.convert Finished
  rw [h]
  simp only [hfn, h1]
  cases hp : c.hasProjection
  · exact ⟨base, by simp, by simp⟩
  · exact ⟨Cli.drawPoints E I c Cli.meshColor mesh (Cli.drawPoints E I c Cli.borderColor border base), by
      simp only [if_true, hmesh I], by
      simp only [if_true]
      exact ⟨mesh, _, hmesh I, draws_model hr I _ _ _, draws_model hr I _ _ _⟩⟩

/-- C97. The picture the model draws, with every operation rounded, is one of the permitted ones. -/
theorem C97_separate_rounding {E : Env} (I : Impl) (border : List (F64 × F64)) {input : Bytes} {c : Composite}
    (h : NewComposite E input = .ret c none) (hsz : 4 * (c.dx * c.dy) ≤ 2 ^ 48) :
    ∃ img, Cli.convert E I border input = .image img ∧ PermittedPicture E I border c img := by
  have hS : Success E input c := Or.inl h
  obtain ⟨fn, hfn⟩ := Option.isSome_iff_exists.mp (C46_color_map h I E.math).2.2.2.2
  obtain ⟨img, h1, h2, h3, _, h5, _⟩ := C42_image hS fn 0 hsz
  have hz : 0 < c.dz := by
    have := C05_shape hS; omega
  have hb : Shaded E I c img := by
    refine ⟨image_wf h1, h2, h3, fun x y hx hy => ?_⟩
    obtain ⟨v, hv, hc⟩ := h5 (by omega) hz x y hx hy
    exact ⟨v, _, hv, C82_separate_rounding I E.math hfn _, hc⟩
  obtain ⟨out, o1, o2⟩ := finished_model (.parsed _ _ (Or.inl h)) I border h hfn h1
  exact ⟨out, o1, img, hb, o2⟩

/-- a float point standing for a place is drawn on the pixel of the place, whatever is fused -/
theorem placed_fused {E : Env} (hM : AccurateMath E.math) (I : Impl) {c : Composite} {b : Int × Int}
    (hg : HasGrid c.format c.dx c.dy b) (hdx : c.dx ≤ 2 ^ 55) (hdy : c.dy ≤ 2 ^ 55) {xn xe : F64} {n e : ℝ}
    (fn : xn.isFin = true) (fe : xe.isFin = true) (hn : 1 ≤ n ∧ n ≤ 59) (he : 0 ≤ e ∧ e ≤ 20)
    (dn : |(xn.val : ℝ) - n| ≤ 2 / 10 ^ 13) (de : |(xe.val : ℝ) - e| ≤ 2 / 10 ^ 13) :
    let r := realProject c.format c.dx c.dy n e
    (∀ i j : Nat, Pos (2 * (c.dx / 10 ^ 9)) c.dx r.1 (some i) → Pos (2 * (c.dy / 10 ^ 9)) c.dy r.2 (some j) →
      MustHit E I c (xn, xe) i j ∧ (i : Int) < c.dx ∧ (j : Int) < c.dy) ∧
    (∀ x y : Nat, MayHit E I c (xn, xe) x y →
      Touches (2 * (c.dx / 10 ^ 9)) r.1 x ∧ Touches (2 * (c.dy / 10 ^ 9)) r.2 y) := by
  intro r
  obtain ⟨n1, n2⟩ := abs_le.mp dn
  obtain ⟨e1, e2⟩ := abs_le.mp de
  norm_num at n1 n2 e1 e2
  have hon : OnMap xn xe := by
    refine ⟨fn, ?_, ?_, fe, ?_⟩
    · have : ((-45 : ℚ) : ℝ) ≤ xn.val := by push_cast; linarith [hn.1]
      exact_mod_cast this
    · have : (xn.val : ℝ) ≤ ((90 : ℚ) : ℝ) := by push_cast; linarith [hn.2]
      exact_mod_cast this
    · have : |(xe.val : ℝ)| ≤ ((360 : ℚ) : ℝ) := by push_cast; rw [abs_le]; constructor <;> linarith [he.1, he.2]
      exact_mod_cast this
  obtain ⟨o1, o2⟩ := C67_project (E := E) hM hg (by omega) (by omega) hon
  obtain ⟨b1, b2⟩ := coordinate_bound hM hg hon
  obtain ⟨q1, q2⟩ := hasGrid_pos hg
  obtain ⟨c1, c2⟩ := project_close hg (n := xn.val) (m := n) (e := xe.val) (f := e) ⟨by linarith [hn.1], by linarith [hn.2]⟩
    ⟨by linarith [hn.1], by linarith [hn.2]⟩ dn de
  constructor
  · intro i j hi hj
    rw [two_mul] at hi hj
    rw [abs_sub_comm] at c1 c2
    have p1 := pos_shift c1 hi
    have p2 := pos_shift c2 hj
    have lt : ∀ {t u : ℝ} {d : Int} {k : Nat}, 0 < d → Pos t d u (some k) → (k : Int) < d := by
      intro t u d k hd hp
      cases hp with
      | inside a _ _ => exact a
      | strip _ _ => exact hd
    refine ⟨fun X Y hX hY => ?_, lt q1 hi, lt q2 hj⟩
    obtain ⟨f1, a1⟩ := o1 X hX
    obtain ⟨f2, a2⟩ := o2 Y hY
    exact ⟨(pos_index (hp := p1) (impl := I.int) q1 hdx b1 f1 a1).1, (pos_index (hp := p2) (impl := I.int) q2 hdy b2 f2 a2).1⟩
  · rintro x y ⟨X, Y, hX, hY, hx, hy⟩
    obtain ⟨f1, a1⟩ := o1 X hX
    obtain ⟨f2, a2⟩ := o2 Y hY
    rw [two_mul, two_mul]
    exact ⟨touches_shift c1 (trunc_touches I.int q1 hdx b1 f1 a1 hx), touches_shift c2 (trunc_touches I.int q2 hdy b2 f2 a2 hy)⟩

/-- the place (n, e) of the map lies on pixel (x, y), at least two billionths of the edges away from the boundary -/
def Inside (c : Composite) (n e : ℝ) (x y : Nat) : Prop :=
  let r := realProject c.format c.dx c.dy n e
  Pos (2 * (c.dx / 10 ^ 9)) c.dx r.1 (some x) ∧ Pos (2 * (c.dy / 10 ^ 9)) c.dy r.2 (some y)

/-- the place (n, e) of the map is more than two billionths of the edges away from pixel (x, y) -/
def Outside (c : Composite) (n e : ℝ) (x y : Nat) : Prop :=
  let r := realProject c.format c.dx c.dy n e
  ¬ (Touches (2 * (c.dx / 10 ^ 9)) r.1 x ∧ Touches (2 * (c.dy / 10 ^ 9)) r.2 y)

/-- a place of the mesh, in degrees -/
def OnMesh (n e : ℝ) : Prop := ∃ N M : Nat, MeshPlace N M ∧ n = N / 10 ∧ e = M / 10

/-- a point of the border table, in degrees -/
def OnBorder (n e : ℝ) : Prop := ∃ N M : Nat, (N, M) ∈ Cli.borderTable ∧ n = N / 10 ^ 6 ∧ e = M / 10 ^ 6

/-- what is drawn over the values `base`: the mesh colour where a place of the mesh lies inside the pixel; the border colour
where no place of the mesh touches it and a point of the border lies inside; nothing where neither touches it -/
theorem finished_picture {E : Env} (hM : AccurateMath E.math) (I : Impl) {c : Composite} (hr : Ready E c) {b : Int × Int}
    (hg : HasGrid c.format c.dx c.dy b) (hsz : 4 * (c.dx * c.dy) ≤ 2 ^ 48) {base img : Img} (w1 : Img.WF base)
    (w2 : (base.w : Int) = c.dx) (w3 : (base.h : Int) = c.dy) (hp : Finished E I Cli.border c base img) :
    (img.w : Int) = c.dx ∧ (img.h : Int) = c.dy ∧
    ∀ x y : Nat, (x : Int) < c.dx → (y : Int) < c.dy →
      (img.at x y = some ⟨0x33, 0xFF, 0x22, 0xFF⟩ ∨ img.at x y = some ⟨0xFF, 0xFF, 0x00, 0xFF⟩ ∨ img.at x y = base.at x y) ∧
      ((∃ n e, OnMesh n e ∧ Inside c n e x y) → img.at x y = some ⟨0x33, 0xFF, 0x22, 0xFF⟩) ∧
      ((∀ n e, OnMesh n e → Outside c n e x y) → (∃ n e, OnBorder n e ∧ Inside c n e x y) →
        img.at x y = some ⟨0xFF, 0xFF, 0x00, 0xFF⟩) ∧
      ((∀ n e, OnMesh n e → Outside c n e x y) → (∀ n e, OnBorder n e → Outside c n e x y) → img.at x y = base.at x y) := by
  obtain ⟨g1, g2⟩ := hasGrid_pos hg
  have hdx : c.dx ≤ 2 ^ 55 := by nlinarith
  have hdy : c.dy ≤ 2 ^ 55 := by nlinarith
  unfold Finished at hp
  rw [if_pos ((C31_has_projection_iff hr).mpr ⟨b, hg.1, hg.2.1, hg.2.2⟩)] at hp
  obtain ⟨mesh, mid, hm, d1, d2⟩ := hp
  obtain ⟨a1, a2, a3, a4⟩ := draws_spec d1 w1
  obtain ⟨b1, b2, b3, b4⟩ := draws_spec d2 a1
  refine ⟨by rw [b2, a2]; exact w2, by rw [b3, a3]; exact w3, fun x y hx hy => ?_⟩
  have hx' : x < base.w := by omega
  have hy' : y < base.h := by omega
  obtain ⟨p1, p2, p3⟩ := a4 x y hx' hy'
  obtain ⟨q1, q2, q3⟩ := b4 x y (by omega) (by omega)
  have meshRange : ∀ {N M : Nat}, MeshPlace N M → (1 ≤ (N : ℝ) / 10 ∧ (N : ℝ) / 10 ≤ 59) ∧ 0 ≤ (M : ℝ) / 10 ∧ (M : ℝ) / 10 ≤ 20 := by
    rintro N M ⟨a1, a2, a3, a4, _⟩
    have a1' : (460 : ℝ) ≤ N := by exact_mod_cast a1
    have a2' : (N : ℝ) < 550 := by exact_mod_cast a2
    have a3' : (10 : ℝ) ≤ M := by exact_mod_cast a3
    have a4' : (M : ℝ) ≤ 160 := by exact_mod_cast a4
    refine ⟨⟨?_, ?_⟩, ?_, ?_⟩ <;> linarith
  have borderRange : ∀ {N M : Nat}, (N, M) ∈ Cli.borderTable →
      (1 ≤ (N : ℝ) / 10 ^ 6 ∧ (N : ℝ) / 10 ^ 6 ≤ 59) ∧ 0 ≤ (M : ℝ) / 10 ^ 6 ∧ (M : ℝ) / 10 ^ 6 ≤ 20 := by
    intro N M hp
    have hn := Num.near_of_mem hp
    have h1 := hn.hs; have h2 := hn.hn; have h3 := hn.hw; have h4 := hn.he
    norm_num at h1 h2 h3 h4
    refine ⟨⟨?_, ?_⟩, ?_, ?_⟩ <;> norm_num <;> linarith
  have inMesh : (∃ n e, OnMesh n e ∧ Inside c n e x y) → ∃ p ∈ mesh, MustHit E I c p x y := by
    rintro ⟨_, _, ⟨N, M, hp, rfl, rfl⟩, i1, i2⟩
    obtain ⟨p, hpm, hs⟩ := (mesh_places hm).1 N M hp
    obtain ⟨r1, r2⟩ := meshRange hp
    exact ⟨p, hpm, ((placed_fused hM I hg hdx hdy hs.fn hs.fe r1 r2 hs.dn hs.de).1 x y i1 i2).1⟩
  have outMesh : (∀ n e, OnMesh n e → Outside c n e x y) → ∀ p ∈ mesh, ¬ MayHit E I c p x y := by
    intro ho p hpm hh
    obtain ⟨N, M, hp, hs⟩ := (mesh_places hm).2 p hpm
    obtain ⟨r1, r2⟩ := meshRange hp
    exact ho _ _ ⟨N, M, hp, rfl, rfl⟩ ((placed_fused hM I hg hdx hdy hs.fn hs.fe r1 r2 hs.dn hs.de).2 x y hh)
  have inBorder : (∃ n e, OnBorder n e ∧ Inside c n e x y) → ∃ p ∈ Cli.border, MustHit E I c p x y := by
    rintro ⟨_, _, ⟨N, M, hp, rfl, rfl⟩, i1, i2⟩
    have hs := border_stands hp
    obtain ⟨r1, r2⟩ := borderRange hp
    exact ⟨_, List.mem_map.mpr ⟨_, hp, rfl⟩, ((placed_fused hM I hg hdx hdy hs.fn hs.fe r1 r2 hs.dn hs.de).1 x y i1 i2).1⟩
  have outBorder : (∀ n e, OnBorder n e → Outside c n e x y) → ∀ p ∈ Cli.border, ¬ MayHit E I c p x y := by
    intro ho p hpm hh
    obtain ⟨N, M, hp, rfl⟩ := border_mem hpm
    have hs := border_stands hp
    obtain ⟨r1, r2⟩ := borderRange hp
    exact ho _ _ ⟨N, M, hp, rfl, rfl⟩ ((placed_fused hM I hg hdx hdy hs.fn hs.fe r1 r2 hs.dn hs.de).2 x y hh)
  refine ⟨?_, fun hm => q2 (inMesh hm), fun hm hb => (q3 (outMesh hm)).trans (p2 (inBorder hb)),
    fun hm hb => (q3 (outMesh hm)).trans (p3 (outBorder hb))⟩
  rcases q1 with q1 | q1
  · exact Or.inl q1
  · rcases p1 with p1 | p1
    · exact Or.inr (Or.inl (q1.trans p1))
    · exact Or.inr (Or.inr (q1.trans p1))

/-- C97. Every permitted picture of an accepted file on a grid with a projection has the size of the grid and shows at
every pixel the mesh colour, the border colour or a permitted colour of its value: the mesh colour where a place of the
mesh lies inside the pixel; the border colour where no place of the mesh touches it and a point of the border lies inside;
the value where neither touches it. -/
theorem C97_picture {E : Env} (hM : AccurateMath E.math) (I : Impl) {input : Bytes} {c : Composite}
    (h : NewComposite E input = .ret c none) {b : Int × Int} (hg : HasGrid c.format c.dx c.dy b)
    (hsz : 4 * (c.dx * c.dy) ≤ 2 ^ 48) {img : Img} (hp : PermittedPicture E I Cli.border c img) :
    (img.w : Int) = c.dx ∧ (img.h : Int) = c.dy ∧
    ∀ x y : Nat, (x : Int) < c.dx → (y : Int) < c.dy →
      ∃ v col, c.At x y = some v ∧ permittedColor I E.math c (v.conv f64) col ∧
      (img.at x y = some ⟨0x33, 0xFF, 0x22, 0xFF⟩ ∨ img.at x y = some ⟨0xFF, 0xFF, 0x00, 0xFF⟩ ∨ img.at x y = some col) ∧
      ((∃ n e, OnMesh n e ∧ Inside c n e x y) → img.at x y = some ⟨0x33, 0xFF, 0x22, 0xFF⟩) ∧
      ((∀ n e, OnMesh n e → Outside c n e x y) → (∃ n e, OnBorder n e ∧ Inside c n e x y) →
        img.at x y = some ⟨0xFF, 0xFF, 0x00, 0xFF⟩) ∧
      ((∀ n e, OnMesh n e → Outside c n e x y) → (∀ n e, OnBorder n e → Outside c n e x y) → img.at x y = some col) := by
  obtain ⟨base, ⟨w1, w2, w3, w4⟩, hp⟩ := hp
  obtain ⟨k1, k2, k3⟩ := finished_picture hM I (.parsed _ _ (Or.inl h)) hg hsz w1 w2 w3 hp
  refine ⟨k1, k2, fun x y hx hy => ?_⟩
  obtain ⟨v, col, v1, v2, v3⟩ := w4 x y hx hy
  have := k3 x y hx hy
  rw [v3] at this
  exact ⟨v, col, v1, v2, this⟩

/-- C97. Without a projection every pixel of a permitted picture shows a permitted colour of its value. -/
theorem C97_no_projection {E : Env} (I : Impl) (border : List (F64 × F64)) {c : Composite} (hn : c.hasProjection = false)
    {img : Img} (hp : PermittedPicture E I border c img) :
    (img.w : Int) = c.dx ∧ (img.h : Int) = c.dy ∧ ∀ x y : Nat, (x : Int) < c.dx → (y : Int) < c.dy →
      ∃ v col, c.At x y = some v ∧ permittedColor I E.math c (v.conv f64) col ∧ img.at x y = some col := by
  obtain ⟨base, ⟨_, w2, w3, w4⟩, hp⟩ := hp
  unfold Finished at hp
  rw [hn, if_neg (by decide)] at hp
  subst hp
  exact ⟨w2, w3, w4⟩

/-- C97. Two programs compiled from the same source mark the same pixels: wherever no place of the mesh or of the border is
within two billionths of the edges of the boundary of a pixel, the two pictures carry the same mark there, or both show the
value. -/
theorem C97_same_marks {E : Env} (hM : AccurateMath E.math) (I : Impl) {input : Bytes} {c : Composite}
    (h : NewComposite E input = .ret c none) {b : Int × Int} (hg : HasGrid c.format c.dx c.dy b)
    (hsz : 4 * (c.dx * c.dy) ≤ 2 ^ 48) {img img' : Img} (hp : PermittedPicture E I Cli.border c img)
    (hp' : PermittedPicture E I Cli.border c img') {x y : Nat} (hx : (x : Int) < c.dx) (hy : (y : Int) < c.dy)
    (hc : ∀ n e, OnMesh n e ∨ OnBorder n e → Inside c n e x y ∨ Outside c n e x y) :
    (img.at x y = some ⟨0x33, 0xFF, 0x22, 0xFF⟩ ∧ img'.at x y = some ⟨0x33, 0xFF, 0x22, 0xFF⟩) ∨
    (img.at x y = some ⟨0xFF, 0xFF, 0x00, 0xFF⟩ ∧ img'.at x y = some ⟨0xFF, 0xFF, 0x00, 0xFF⟩) ∨
    ∃ v col col', c.At x y = some v ∧ permittedColor I E.math c (v.conv f64) col ∧
      permittedColor I E.math c (v.conv f64) col' ∧ img.at x y = some col ∧ img'.at x y = some col' := by
  obtain ⟨_, _, k⟩ := C97_picture hM I h hg hsz hp
  obtain ⟨_, _, k'⟩ := C97_picture hM I h hg hsz hp'
  obtain ⟨v, col, v1, v2, _, m1, m2, m3⟩ := k x y hx hy
  obtain ⟨v', col', v1', v2', _, m1', m2', m3'⟩ := k' x y hx hy
  by_cases hm : ∃ n e, OnMesh n e ∧ Inside c n e x y
  · exact Or.inl ⟨m1 hm, m1' hm⟩
  have hmo : ∀ n e, OnMesh n e → Outside c n e x y := fun n e he =>
    (hc n e (Or.inl he)).resolve_left (fun hi => hm ⟨n, e, he, hi⟩)
  by_cases hb : ∃ n e, OnBorder n e ∧ Inside c n e x y
  · exact Or.inr (Or.inl ⟨m2 hmo hb, m2' hmo hb⟩)
  have hbo : ∀ n e, OnBorder n e → Outside c n e x y := fun n e he =>
    (hc n e (Or.inr he)).resolve_left (fun hi => hb ⟨n, e, he, hi⟩)
  rw [v1] at v1'
  simp only [Option.some.injEq] at v1'
  subst v1'
  exact Or.inr (Or.inr ⟨v, col, col', v1, v2, v2', m3 hmo hbo, m3' hmo hbo⟩)

/-- On a national composite of 225 x 225 pixels the crossing of 51 N and 9 E is at the centre of pixel (112, 112): there is
a permitted picture, and all of them show the mesh colour there. -/
example (I : Impl) : ∃ c, NewComposite envFull (evenField 225 225).serialise = .ret c none ∧
    (∃ img, PermittedPicture envFull I Cli.border c img) ∧
    ∀ img, PermittedPicture envFull I Cli.border c img → img.at 112 112 = some ⟨0x33, 0xFF, 0x22, 0xFF⟩ := by
  obtain ⟨c, h, hf, hx, hy⟩ := evenField_parsed envFull (rows := 225) (cols := 225) (by omega) (by omega)
  have hg : HasGrid c.format c.dx c.dy (225, 225) := ⟨by decide, ⟨0, by rw [hx]; rfl, by rw [hy]; rfl⟩, Or.inl hf⟩
  have hsz : 4 * (c.dx * c.dy) ≤ 2 ^ 48 := by rw [hx, hy]; norm_num
  refine ⟨c, h, (C97_separate_rounding I Cli.border h hsz).imp fun _ k => k.2, fun img hp => ?_⟩
  obtain ⟨_, _, k⟩ := C97_picture fullMath_accurate I h hg hsz hp
  obtain ⟨_, _, _, _, _, key, _⟩ := k 112 112 (by rw [hx]; decide) (by rw [hy]; decide)
  refine key ⟨_, _, ⟨510, 90, by unfold MeshPlace; decide, rfl, rfl⟩, ?_⟩
  obtain ⟨r1, r2⟩ := C52_reference_points hg (n := 51) (e := 9) (kx := 450) (ky := 450) (by simp [refPoints])
  have d1 : (c.dx : ℝ) = 225 := by rw [hx]; norm_num
  have d2 : (c.dy : ℝ) = 225 := by rw [hy]; norm_num
  have e1 : ((510 : Nat) : ℝ) / 10 = ((51 : ℚ) : ℝ) := by norm_num
  have e2 : ((90 : Nat) : ℝ) / 10 = ((9 : ℚ) : ℝ) := by norm_num
  unfold Inside
  rw [e1, e2]
  clear key k
  generalize realProject c.format c.dx c.dy ((51 : ℚ) : ℝ) ((9 : ℚ) : ℝ) = r at *
  rw [d1] at r1 ⊢
  rw [d2] at r2 ⊢
  simp only [extentKm, refTolerance] at r1 r2
  norm_num at r1 r2
  obtain ⟨a1, a2⟩ := abs_le.mp r1
  obtain ⟨a3, a4⟩ := abs_le.mp r2
  exact ⟨.inside (by rw [hx]; norm_num) (by norm_num; linarith) (by norm_num; linarith),
    .inside (by rw [hy]; norm_num) (by norm_num; linarith) (by norm_num; linarith)⟩

end Props
