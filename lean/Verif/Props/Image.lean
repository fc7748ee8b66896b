/-
C42: vis.Image.
-/
import Verif.Model.Vis
import Verif.Props.Shape

namespace Props
open Go Radolan Radolan.Vis Spec

/-- the pixel buffer has the size of the bounds -/
def Img.WF (img : Img) : Prop := img.pix.length = img.h ∧ ∀ row ∈ img.pix, row.length = img.w

theorem img_at_none {img : Img} (hw : Img.WF img) {x y : Nat} (h : ¬ (x < img.w ∧ y < img.h)) : img.at x y = none := by
  unfold Img.at
  by_cases hy : y < img.h
  · have hy' : y < img.pix.length := by rw [hw.1]; exact hy
    rw [List.getElem?_eq_getElem hy']
    have := hw.2 _ (List.getElem_mem hy')
    simp only [Option.bind_some]
    rw [List.getElem?_eq_none_iff]
    omega
  · rw [List.getElem?_eq_none (by rw [hw.1]; omega)]; rfl

theorem img_set {img : Img} (hw : Img.WF img) (x y : Int) (c : RGBA) :
    Img.WF (img.set x y c) ∧ (img.set x y c).w = img.w ∧ (img.set x y c).h = img.h ∧
    ∀ x' y' : Nat, (img.set x y c).at x' y' =
      if (x' : Int) = x ∧ (y' : Int) = y ∧ x' < img.w ∧ y' < img.h then some c else img.at x' y' := by
  unfold Img.set
  split
  · rename_i hin
    have hmod : ∀ i : Nat, (img.pix.modify y.toNat fun row => row.set x.toNat c)[i]? =
        if y.toNat = i then (img.pix[i]?).map (fun row => row.set x.toNat c) else img.pix[i]? := by
      intro i
      rw [List.getElem?_modify]
      split <;> simp
    refine ⟨⟨by simp [hw.1], ?_⟩, rfl, rfl, ?_⟩
    · intro row hr
      obtain ⟨i, hi, rfl⟩ := List.mem_iff_getElem.mp hr
      have hi' : i < img.pix.length := by simpa using hi
      have := hmod i
      rw [List.getElem?_eq_getElem hi, List.getElem?_eq_getElem hi'] at this
      have hl := hw.2 _ (List.getElem_mem hi')
      split at this
      · simp at this; rw [this]; simp; exact hl
      · simp at this; rw [this]; exact hl
    · intro x' y'
      unfold Img.at
      simp only
      rw [hmod]
      by_cases hy : (y' : Int) = y
      · have e : y.toNat = y' := by omega
        rw [if_pos e]
        have hy' : y' < img.pix.length := by rw [hw.1]; omega
        rw [List.getElem?_eq_getElem hy']
        have hl := hw.2 _ (List.getElem_mem hy')
        simp only [Option.map_some, Option.bind_some]
        by_cases hx : (x' : Int) = x
        · have e' : x.toNat = x' := by omega
          rw [if_pos ⟨hx, hy, by omega, by omega⟩, e', List.getElem?_set_self (by omega)]
        · rw [if_neg (by omega), List.getElem?_set_ne (by omega)]
      · rw [if_neg (by omega), if_neg (by omega)]
  · rename_i hin
    refine ⟨hw, rfl, rfl, ?_⟩
    intro x' y'
    rw [if_neg (by omega)]

/-- the inner loop colours the pixels of a row -/
theorem rowLoop_spec (fn : ColorFunc) (c : Composite) (layer : Int) (y : Nat) (V : Nat → F32)
    (hv : ∀ x : Nat, (x : Int) < c.dx → ((index? c.dataZ layer).bind fun l => (index? l y).bind fun r => index? r x) = some (V x)) :
    ∀ (todo x : Nat) (img : Img), (x + todo : Int) ≤ c.dx → Img.WF img →
      ∃ img', Vis.rowLoop fn c layer y todo x img = some img' ∧ Img.WF img' ∧ img'.w = img.w ∧ img'.h = img.h ∧
        ∀ x' y' : Nat, img'.at x' y' =
          if y' = y ∧ x ≤ x' ∧ x' < x + todo ∧ x' < img.w ∧ y' < img.h then some (fn ((V x').conv f64))
          else img.at x' y' := by
  intro todo
  induction todo with
  | zero =>
    intro x img _ hw
    refine ⟨img, rfl, hw, rfl, rfl, ?_⟩
    intro x' y'
    rw [if_neg (by omega)]
  | succ n ih =>
    intro x img hx hw
    have hvx := hv x (by omega)
    obtain ⟨l, hl, hvx⟩ := Option.bind_eq_some_iff.mp hvx
    obtain ⟨r, hr, hvx⟩ := Option.bind_eq_some_iff.mp hvx
    obtain ⟨s1, s2, s3, s4⟩ := img_set hw x y (fn ((V x).conv f64))
    obtain ⟨img', h1, h2, h3, h4, h5⟩ := ih (x + 1) (img.set x y (fn ((V x).conv f64))) (by push_cast; omega) s1
    refine ⟨img', ?_, h2, by rw [h3, s2], by rw [h4, s3], ?_⟩
    · unfold Vis.rowLoop
      rw [hl]
      simp only [Option.bind_eq_bind, Option.bind_some]
      rw [hr]
      simp only [Option.bind_some]
      rw [hvx]
      exact h1
    · intro x' y'
      rw [h5, s2, s3, s4]
      by_cases hxe : x' = x
      · subst hxe
        rw [if_neg (by omega)]
        by_cases hy : y' = y ∧ x' < img.w ∧ y' < img.h
        · rw [if_pos (by omega), if_pos (by omega)]
        · rw [if_neg (by omega), if_neg (by omega)]
      · by_cases hin : y' = y ∧ x + 1 ≤ x' ∧ x' < x + 1 + n ∧ x' < img.w ∧ y' < img.h
        · rw [if_pos hin, if_pos (by omega)]
        · rw [if_neg hin, if_neg (by omega), if_neg (by omega)]

theorem imageLoop_spec (fn : ColorFunc) (c : Composite) (layer : Int) (V : Nat → Nat → F32) (h0 : 0 ≤ c.dx)
    (hv : ∀ x y : Nat, (x : Int) < c.dx → (y : Int) < c.dy →
      ((index? c.dataZ layer).bind fun l => (index? l y).bind fun r => index? r x) = some (V x y)) :
    ∀ (todo y : Nat) (img : Img), (y + todo : Int) ≤ c.dy → Img.WF img → img.w = c.dx.toNat →
      ∃ img', imageLoop fn c layer todo y img = some img' ∧ Img.WF img' ∧ img'.w = img.w ∧ img'.h = img.h ∧
        ∀ x' y' : Nat, img'.at x' y' =
          if y ≤ y' ∧ y' < y + todo ∧ x' < img.w ∧ y' < img.h then some (fn ((V x' y').conv f64))
          else img.at x' y' := by
  intro todo
  induction todo with
  | zero =>
    intro y img _ hw _
    refine ⟨img, rfl, hw, rfl, rfl, ?_⟩
    intro x' y'
    rw [if_neg (by omega)]
  | succ n ih =>
    intro y img hy hw hwd
    obtain ⟨img1, r1, r2, r3, r4, r5⟩ := rowLoop_spec fn c layer y (fun x => V x y) (fun x hx => hv x y hx (by omega))
      c.dx.toNat 0 img (by push_cast; omega) hw
    obtain ⟨img', h1, h2, h3, h4, h5⟩ := ih (y + 1) img1 (by push_cast; omega) r2 (by rw [r3, hwd])
    refine ⟨img', ?_, h2, by rw [h3, r3], by rw [h4, r4], ?_⟩
    · unfold imageLoop
      rw [r1]
      simp only [Option.bind_eq_bind, Option.bind_some]
      exact h1
    · intro x' y'
      rw [h5, r3, r4, r5]
      by_cases hye : y' = y
      · subst hye
        rw [if_neg (by omega)]
        by_cases hin : x' < img.w ∧ y' < img.h
        · rw [if_pos (by omega), if_pos (by omega)]
        · rw [if_neg (by omega), if_neg (by omega)]
      · by_cases hin : y + 1 ≤ y' ∧ y' < y + 1 + n ∧ x' < img.w ∧ y' < img.h
        · rw [if_pos hin, if_pos (by omega)]
        · rw [if_neg hin, if_neg (by omega), if_neg (by omega)]

theorem newRGBA_spec {x y : Int} (h : 4 * (x.natAbs * y.natAbs) ≤ 2 ^ 48) :
    ∃ img, newRGBA x y = some img ∧ Img.WF img ∧ img.w = x.natAbs ∧ img.h = y.natAbs ∧
      ∀ x' y' : Nat, x' < x.natAbs → y' < y.natAbs → img.at x' y' = some RGBA.zero := by
  unfold newRGBA
  have hok : makeOK 1 (4 * ((x.natAbs : Int) * y.natAbs)) = true := by
    unfold makeOK maxAlloc
    rw [decide_eq_true_iff]
    constructor
    · positivity
    · rw [mul_one]; exact_mod_cast h
  rw [hok]
  refine ⟨_, rfl, ⟨by simp, by simp⟩, rfl, rfl, ?_⟩
  intro x' y' hx hy
  simp [Img.at, hx, hy]

/-- C42. For a successfully parsed composite (whose image buffer of 4 bytes per pixel can be allocated) vis.Image
does not panic and yields an image of exactly Dx x Dy pixels: pixel (x, y) is the colour function applied to
AtZ(x, y, layer); for a layer the composite does not have all pixels are transparent black. -/
theorem C42_image {E : Env} {input : Bytes} {c : Composite} (hS : Success E input c) (fn : ColorFunc) (layer : Int)
    (hsize : 4 * (c.dx * c.dy) ≤ 2 ^ 48) :
    ∃ img, Image fn c layer = some img ∧ (img.w : Int) = c.dx ∧ (img.h : Int) = c.dy ∧
      (∀ x y : Nat, ¬ ((x : Int) < c.dx ∧ (y : Int) < c.dy) → img.at x y = none) ∧
      (0 ≤ layer → layer < c.dz → ∀ x y : Nat, (x : Int) < c.dx → (y : Int) < c.dy →
        ∃ v, c.AtZ x y layer = some v ∧ img.at x y = some (fn (v.conv f64))) ∧
      ((layer < 0 ∨ c.dz ≤ layer) → ∀ x y : Nat, (x : Int) < c.dx → (y : Int) < c.dy →
        img.at x y = some ⟨0, 0, 0, 0⟩) := by
  have hsh := C05_shape hS
  have hdx : 0 < c.dx := by
    obtain ⟨h, rest, rows, rest', hh, ⟨ha1, ha2, ha3, ha4⟩, hdat, rfl⟩ := parsed_iff.mp hS
    have hd := header_dims hh
    show 0 < h.dx
    omega
  have hdy : 0 < c.dy := by
    obtain ⟨h, rest, rows, rest', hh, ⟨ha1, ha2, ha3, ha4⟩, hdat, rfl⟩ := parsed_iff.mp hS
    have hd := header_dims hh
    show 0 < h.dy
    rcases hd with ⟨_, hd | hd⟩ <;> omega
  have hx : ((c.dx.natAbs : Int)) = c.dx := by omega
  have hy : ((c.dy.natAbs : Int)) = c.dy := by omega
  obtain ⟨img0, g1, g2, g3, g4, g5⟩ := newRGBA_spec (x := c.dx) (y := c.dy) (by
    have : (4 * (c.dx.natAbs * c.dy.natAbs) : Int) ≤ 2 ^ 48 := by rw [hx, hy]; exact hsize
    exact_mod_cast this)
  unfold Image
  rw [g1]
  simp only [Option.bind_eq_bind, Option.bind_some]
  by_cases hl : layer < 0 ∨ c.dz ≤ layer
  · rw [if_pos hl]
    refine ⟨img0, rfl, by rw [g3]; exact hx, by rw [g4]; exact hy, ?_, ?_, ?_⟩
    · intro x y hn; exact img_at_none g2 (by omega)
    · intro _ _; omega
    · intro _ x y hx' hy'; exact g5 x y (by omega) (by omega)
  · rw [if_neg hl]
    have hvox : ∀ x y : Nat, (x : Int) < c.dx → (y : Int) < c.dy → ∃ v, c.AtZ x y layer = some v ∧
        ((index? c.dataZ layer).bind fun l => (index? l y).bind fun r => index? r x) = some v := by
      intro x y hx' hy'
      obtain ⟨v, h1, _⟩ := voxel_of_success hS (x := x) (y := y) (z := layer) ⟨by omega, hx'⟩ ⟨by omega, hy'⟩
        ⟨by omega, by omega⟩
      refine ⟨v, h1, ?_⟩
      unfold Composite.AtZ at h1
      rw [if_neg (by omega)] at h1
      exact h1
    let V : Nat → Nat → F32 := fun x y => ((c.AtZ x y layer).getD .nan)
    have hV : ∀ x y : Nat, (x : Int) < c.dx → (y : Int) < c.dy →
        ((index? c.dataZ layer).bind fun l => (index? l y).bind fun r => index? r x) = some (V x y) := by
      intro x y hx' hy'
      obtain ⟨v, h1, h2⟩ := hvox x y hx' hy'
      rw [h2]; simp [V, h1]
    obtain ⟨img', h1, h2, h3, h4, h5⟩ := imageLoop_spec fn c layer V hdx.le hV c.dy.toNat 0 img0 (by push_cast; omega) g2
      (by rw [g3]; omega)
    refine ⟨img', h1, by rw [h3, g3]; exact hx, by rw [h4, g4]; exact hy, ?_, ?_, ?_⟩
    · intro x y hn
      exact img_at_none h2 (by rw [h3, h4, g3, g4]; omega)
    · intro _ _ x y hx' hy'
      obtain ⟨v, k1, k2⟩ := hvox x y hx' hy'
      refine ⟨v, k1, ?_⟩
      rw [h5, if_pos (by rw [g3, g4]; omega)]
      simp [V, k1]
    · intro hl'; exact absurd hl' hl

theorem rowLoop_wf (fn : ColorFunc) (c : Composite) (layer : Int) (y : Nat) (n x : Nat) {img img' : Img}
    (hw : Img.WF img) (h : rowLoop fn c layer y n x img = some img') : Img.WF img' := by
  induction n generalizing x img with
  | zero => unfold Vis.rowLoop at h; simp at h; subst h; exact hw
  | succ n ih =>
    unfold Vis.rowLoop at h
    simp only [Option.bind_eq_bind, Option.bind_eq_some_iff] at h
    obtain ⟨_, _, _, _, _, _, h⟩ := h
    exact ih _ (img_set hw _ _ _).1 h

theorem imageLoop_wf (fn : ColorFunc) (c : Composite) (layer : Int) (n y : Nat) {img img' : Img}
    (hw : Img.WF img) (h : imageLoop fn c layer n y img = some img') : Img.WF img' := by
  induction n generalizing y img with
  | zero => unfold imageLoop at h; simp at h; subst h; exact hw
  | succ n ih =>
    unfold imageLoop at h
    simp only [Option.bind_eq_bind, Option.bind_eq_some_iff] at h
    obtain ⟨img1, h1, h⟩ := h
    exact ih _ (rowLoop_wf fn c layer y _ _ hw h1) h

theorem image_wf {fn : ColorFunc} {c : Composite} {layer : Int} {img : Img} (h : Image fn c layer = some img) :
    Img.WF img := by
  unfold Image at h
  simp only [Option.bind_eq_bind, Option.bind_eq_some_iff] at h
  obtain ⟨img0, h0, h⟩ := h
  have hw : Img.WF img0 := by
    unfold newRGBA at h0
    split at h0
    · simp at h0
    · simp at h0; subst h0
      refine ⟨by simp, ?_⟩
      intro row hr
      rw [(List.mem_replicate.mp hr).2]; simp
  split at h
  · simp at h; subst h; exact hw
  · exact imageLoop_wf fn c layer _ _ hw h

/-- the RX sample: a 3 x 2 image -/
example : ∃ c img, Success env0 sampleRX c ∧ Image (fun _ => black) c 0 = some img ∧ img.w = 3 ∧
    img.at 2 1 = some black := by
  obtain ⟨c, h, hp⟩ := sampleRX_ok
  simp at hp
  obtain ⟨img, h1, h2, h3, _, h5, _⟩ := C42_image h (fun _ => black) 0 (by rw [hp.1.1.1, hp.1.1.2]; decide)
  obtain ⟨v, _, hv⟩ := h5 (le_refl _) (by rw [hp.1.2]; decide) 2 1 (by rw [hp.1.1.1]; decide) (by rw [hp.1.1.2]; decide)
  exact ⟨c, img, h, h1, by rw [hp.1.1.1] at h2; omega, hv⟩

end Props
