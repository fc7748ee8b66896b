/-
C95: the exit status of radolan2png for every input file.
-/
import Verif.Props.AnyContent
import Verif.Spec.Status
import Verif.Props.Files

namespace Props
open Go Radolan Radolan.Any Radolan.Vis Radolan.CliIO
open _root_.Spec

/-- reading the input, creating the output and encoding pictures succeeds -/
structure InOrder (os : Os) (fs : Files) (inp out : Path) (input : Bytes) : Prop where
  input : ∃ content, fs inp = some content ∧ content.take (os.delivers inp) = input
  opens : os.openOK inp = true
  creates : os.createOK out = true
  encodes : ∀ img, (os.encode img).2 = true

theorem listed_iff {E : Env} {H : Head} {data : Bytes} {c : Composite} {o : Option Err} (hU : Understood E.isUpperNA H)
    (hr : NewComposite E (H.file data) = .ret c o) (ho : o = none ∨ o = some .unknownUnit) : o = none ↔ Listed H := by
  have hS : Success E (H.file data) c := by
    rcases ho with rfl | rfl
    exacts [Or.inl hr, Or.inr hr]
  have hp := (C94_attributes hU hS).label
  have h2 := (C25_product_unit E (H.file data) c).2
  rw [hp] at h2
  constructor
  · rintro rfl
    by_contra hl
    have := h2.mpr ⟨hS, fun u hu => hl ⟨u, hu⟩⟩
    rw [hr] at this
    simp at this
  · rintro ⟨u, hu⟩
    rcases ho with rfl | rfl
    · rfl
    · exact absurd hu ((h2.mp hr).2 u)

theorem image_large {fn : ColorFunc} {c : Composite} {layer : Int} (h1 : 0 ≤ c.dx) (h2 : 0 ≤ c.dy)
    (h : ¬ 4 * (c.dx * c.dy) ≤ 2 ^ 48) : Image fn c layer = none := by
  unfold Image newRGBA
  have e : ((4 * (c.dx.natAbs * c.dy.natAbs) : Nat) : Int) = 4 * (c.dx * c.dy) := by
    push_cast
    rw [abs_of_nonneg h1, abs_of_nonneg h2]
  have hm : makeOK 1 (4 * (c.dx.natAbs * c.dy.natAbs)) = false := by
    rw [← Bool.not_eq_true, makeOK_iff]
    push_cast at e ⊢
    rw [e]
    omega
  rw [hm]
  rfl

/-- C95. If reading the input, creating the output and encoding the picture succeed, the exit status of
`radolan2png in out` is decided by the contents of the input, whatever its header says: status 0 exactly if the file is fine,
its label is in the catalogue of units and its picture can be held in memory; status 1 (log.Fatal) exactly if something is
wrong with the file or its label is not in the catalogue; status 2 (a panic) exactly if the header is in order but its
dimensions are impossible, or the picture is too large. In the last two cases no file is touched. -/
theorem C95_exit_status (E : Env) (I : Impl) (border : List (F64 × F64)) (os : Os) (fs : Files) (prog inp out : Path)
    (more : List Path) (H : Head) (data : Bytes) (hU : Understood E.isUpperNA H)
    (hio : InOrder os fs inp out (H.file data)) :
      let r := CliIO.main E I border os fs (prog :: inp :: out :: more)
      (r.2 = .ok ↔ H.Fine data ∧ Listed H ∧ Drawable H) ∧
      (r.2 = .fatal ↔ (∃ text, H.Wrong data text) ∨ (H.Fine data ∧ ¬ Listed H)) ∧
      (r.2 = .panic ↔ (∃ n rows cols, H.Orderly n rows cols ∧ Head.Impossible rows cols) ∨
        (H.Fine data ∧ Listed H ∧ ¬ Drawable H)) ∧
      (r.2 ≠ .ok → after fs r.1 = fs) := by
  intro r
  obtain ⟨⟨content, hf, hc⟩, ho, hcr, hen⟩ := hio
  obtain ⟨s, hw⟩ := understood_split E hU
  obtain ⟨k1, k2, k3⟩ := C93_verdict E hU data
  have hr : r = CliIO.convert E I border os fs inp out := rfl
  have hconv : CliIO.convert E I border os fs inp out =
      match NewComposite E (H.file data) with
      | .panic => ([], .panic)
      | .ret _ (some _) => ([], .fatal)
      | .ret c none => draw E I border os out c := by
    unfold CliIO.convert
    rw [hf]
    simp only [ho, hc]
    rfl
  rw [hr, hconv]
  cases hn : NewComposite E (H.file data) with
  | panic =>
    obtain ⟨n, rows, cols, a, b⟩ := k2.mp hn
    have hx := impossible_alone hw (data := data) a b
    refine ⟨⟨by simp, fun g => absurd g.1 hx.1⟩, ⟨by simp, ?_⟩, ⟨fun _ => Or.inl ⟨n, rows, cols, a, b⟩, fun _ => rfl⟩, fun _ => rfl⟩
    rintro (⟨t, ht⟩ | ⟨g, _⟩)
    · exact absurd ht (hx.2 t)
    · exact absurd g hx.1
  | ret c o =>
    by_cases hok : o = none ∨ o = some .unknownUnit
    · have hS : Success E (H.file data) c := by
        rcases hok with rfl | rfl
        exacts [Or.inl hn, Or.inr hn]
      have hF := k1.mp ⟨c, hS⟩
      have hlist := listed_iff hU hn hok
      have hnw : ∀ t, ¬ H.Wrong data t := fun t => fine_not_wrong hw hF
      have hni : ¬ ∃ n rows cols, H.Orderly n rows cols ∧ Head.Impossible rows cols := by
        rintro ⟨n, rows, cols, a, b⟩
        exact (impossible_alone hw (data := data) a b).1 hF
      cases o with
      | some e =>
        have hl : ¬ Listed H := fun h => by simpa using hlist.mpr h
        refine ⟨⟨by simp, fun g => absurd g.2.1 hl⟩, ⟨fun _ => Or.inr ⟨hF, hl⟩, fun _ => rfl⟩, ⟨by simp, ?_⟩, fun _ => rfl⟩
        rintro (g | g)
        · exact absurd g hni
        · exact absurd g.2.1 hl
      | none =>
        have hl := hlist.mp rfl
        have hA := C94_attributes hU hS
        have hdraw : Drawable H ↔ 4 * (c.dx * c.dy) ≤ 2 ^ 48 := by
          rw [hA.width, hA.height]
          constructor
          · rintro ⟨rows, cols, hd, h⟩
            obtain ⟨rfl, rfl⟩ := head_declares_unique hw hd hA.stored
            exact h
          · intro h
            exact ⟨c.py, c.px, hA.stored, h⟩
        obtain ⟨fn, hfn⟩ := Option.isSome_iff_exists.mp (C46_color_map hn I E.math).2.2.2.2
        obtain ⟨mesh, hmesh, _⟩ := C49_mesh
        dsimp only
        by_cases hsz : 4 * (c.dx * c.dy) ≤ 2 ^ 48
        · obtain ⟨img, himg, _⟩ := C42_image hS fn 0 hsz
          have hw2 : ∀ img, (writeOut os out img).2 = .ok := by
            intro img
            simp [writeOut, hcr, hen]
          have hst : (draw E I border os out c).2 = .ok := by
            unfold draw
            simp only [hfn, himg, hmesh]
            split <;> exact hw2 _
          rw [hst]
          refine ⟨⟨fun _ => ⟨hF, hl, hdraw.mpr hsz⟩, fun _ => rfl⟩, ⟨by simp, ?_⟩, ⟨by simp, ?_⟩, fun h => absurd rfl h⟩
          · rintro (⟨t, ht⟩ | ⟨_, g⟩)
            · exact absurd ht (hnw t)
            · exact absurd hl g
          · rintro (g | g)
            · exact absurd g hni
            · exact absurd (hdraw.mpr hsz) g.2.2
        · have hsh := C05_shape hS
          have hpos : 0 ≤ c.dx ∧ 0 ≤ c.dy := by
            obtain ⟨h, rest, rows, rest', hh, ⟨ha1, ha2, ha3, ha4⟩, hdat, rfl⟩ := parsed_iff.mp hS
            have hd := header_dims hh
            show 0 ≤ h.dx ∧ 0 ≤ h.dy
            omega
          have himg : Image fn c 0 = none := image_large hpos.1 hpos.2 hsz
          have hd : draw E I border os out c = ([.summary c.product c.dataUnit c.forecastTime], .panic) := by
            unfold draw
            simp only [hfn, himg]
          rw [hd]
          refine ⟨⟨by simp, fun g => absurd (hdraw.mp g.2.2) hsz⟩, ⟨by simp, ?_⟩,
            ⟨fun _ => Or.inr ⟨hF, hl, fun g => hsz (hdraw.mp g)⟩, fun _ => rfl⟩, fun _ => after_silent (by simp [Silent])⟩
          rintro (⟨t, ht⟩ | ⟨_, g⟩)
          · exact absurd ht (hnw t)
          · exact absurd hl g
    · obtain ⟨e, rfl⟩ : ∃ e, o = some e := by
        cases o with
        | none => simp at hok
        | some e => exact ⟨e, rfl⟩
      have he : e ≠ .unknownUnit := by rintro rfl; simp at hok
      have hW := (k3 e.text).mp ⟨c, e, hn, he, rfl⟩
      have hnf : ¬ H.Fine data := fun g => fine_not_wrong hw g hW
      refine ⟨⟨by simp, fun g => absurd g.1 hnf⟩, ⟨fun _ => Or.inl ⟨_, hW⟩, fun _ => rfl⟩, ⟨by simp, ?_⟩, fun _ => rfl⟩
      rintro (⟨n, rows, cols, a, b⟩ | g)
      · exact absurd hW ((impossible_alone hw a b).2 _)
      · exact absurd g.1 hnf

/-- C95. All other inputs have no delimiter (C93_every_input): then the exit status is 1 and no file is touched. -/
theorem C95_no_delimiter (E : Env) (I : Impl) (border : List (F64 × F64)) (os : Os) (fs : Files) (prog inp out : Path)
    (more : List Path) {input : Bytes} (h3 : (3 : UInt8) ∉ input) (ho : InOrder os fs inp out input) :
    let r := CliIO.main E I border os fs (prog :: inp :: out :: more)
    r.2 = .fatal ∧ after fs r.1 = fs := by
  obtain ⟨⟨content, hf, hc⟩, ho, _, _⟩ := ho
  obtain ⟨c, e, hn, _⟩ := (C78_too_short E input).mpr (by
    rintro pre rest rfl _
    exact absurd (by simp) h3)
  have hconv : CliIO.main E I border os fs (prog :: inp :: out :: more) = ([], .fatal) := by
    show CliIO.convert E I border os fs inp out = _
    unfold CliIO.convert
    rw [hf]
    simp only [ho, hc, hn]
    rfl
  intro r
  show r.2 = .fatal ∧ after fs r.1 = fs
  rw [show r = ([], Exit.fatal) from hconv]
  exact ⟨rfl, rfl⟩

/-! ### concrete runs -/

def statusFiles (input : Bytes) : Files := fun q => if q = str "a" then some input else none

theorem statusInOrder {input : Bytes} (h : input.length ≤ 1000000) :
    InOrder goodOs (statusFiles input) (str "a") (str "b") input :=
  ⟨⟨input, by simp [statusFiles], List.take_of_length_le h⟩, rfl, rfl, fun _ => rfl⟩

example (E : Env) (I : Impl) (border : List (F64 × F64)) :
    (CliIO.main E I border goodOs (statusFiles (str "hello")) [str "radolan2png", str "a", str "b"]).2 = .fatal :=
  (C95_no_delimiter E I border goodOs _ _ _ _ [] (input := str "hello") (by decide) (statusInOrder (by decide))).1

/-- any six bytes after the RX header with a stray key and a 3x2 grid: exit status 0 -/
example (I : Impl) (border : List (F64 × F64)) (data : Bytes) (h : data.length = 6) :
    (CliIO.main env0 I border goodOs (statusFiles (oddHead.file data)) [str "radolan2png", str "a", str "b"]).2 = .ok := by
  have hlen : (oddHead.file data).length ≤ 1000000 := by
    unfold Head.file
    rw [List.length_append, h]
    decide
  obtain ⟨k0, -⟩ := C95_exit_status env0 I border goodOs (statusFiles (oddHead.file data)) (str "radolan2png") (str "a") (str "b") []
    oddHead data (oddHead_understood _) (statusInOrder hlen)
  have hL : Listed oddHead := ⟨.dBZ, by decide⟩
  have hD : Drawable oddHead := by
    refine ⟨2, 3, ?_, by decide⟩
    unfold Head.Declares
    rw [show oddHead.val (str "GP") = some (str " 2x 3") by decide]
    exact odd_grid
  exact k0.mpr ⟨odd_fine data h, hL, hD⟩

/-- a lower-case label: exit status 1 and no file touched -/
example (I : Impl) (border : List (F64 × F64)) :
    let r := CliIO.main env0 I border goodOs (statusFiles ((⟨str "rx 021310100000217 BY36", fun _ => none⟩ : Head).file []))
      [str "radolan2png", str "a", str "b"]
    r.2 = .fatal ∧ after (statusFiles ((⟨str "rx 021310100000217 BY36", fun _ => none⟩ : Head).file [])) r.1 =
      statusFiles ((⟨str "rx 021310100000217 BY36", fun _ => none⟩ : Head).file []) := by
  have hU : Understood env0.isUpperNA ⟨str "rx 021310100000217 BY36", fun _ => none⟩ :=
    C93_ascii _ <| .headless 114 (str "x 021310100000217 BY36") (by decide) (by decide)
  obtain ⟨-, k1, -, k3⟩ := C95_exit_status env0 I border goodOs (statusFiles ((⟨str "rx 021310100000217 BY36", fun _ => none⟩ : Head).file []))
    (str "radolan2png") (str "a") (str "b") [] _ [] hU (statusInOrder (by decide))
  have hf := k1.mpr (Or.inl ⟨"radolan.parseHeader: could not parse data length: ",
    Or.inl (FirstFailing.later (by decide) (FirstFailing.here (by rintro ⟨n, v, hv, _⟩; simp at hv)))⟩)
  exact ⟨hf, k3 (by rw [hf]; simp)⟩

end Props
