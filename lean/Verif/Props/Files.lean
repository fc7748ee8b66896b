/-
C55, C56: what radolan2png does to files, at every point where it may be interrupted; the grid size it reports.
-/
import Verif.Model.CliIO
import Verif.Props.Overlay
import Verif.Props.FloatProjection

namespace Props
open Go Radolan Radolan.Vis Radolan.CliIO Spec

theorem after_append (fs : Files) (a b : List Event) : after fs (a ++ b) = after (after fs a) b := by
  unfold after; rw [List.foldl_append]

theorem after_writes (fs : Files) (out : Path) (acc : Bytes) (l : List Bytes) (h : fs out = some acc) (p : Path) :
    after fs (l.map (.append out)) p = if p = out then some (acc ++ l.flatten) else fs p := by
  induction l generalizing fs acc with
  | nil => by_cases hp : p = out <;> simp [after, hp, h]
  | cons b l ih =>
    have := ih (Event.apply fs (.append out b)) (acc ++ b) (by simp [Event.apply, h])
    simp only [List.map_cons, List.flatten_cons]
    show after (Event.apply fs (.append out b)) _ p = _
    rw [this]
    by_cases hp : p = out
    · simp [hp]
    · simp [hp, Event.apply]

/-- an event that is only printed -/
def Silent : Event → Prop
  | .usage _ | .summary .. | .gridSize .. => True
  | _ => False

theorem after_silent {fs : Files} {es : List Event} (h : ∀ e ∈ es, Silent e) : after fs es = fs := by
  induction es with
  | nil => rfl
  | cons e es ih =>
    have he := h e (by simp)
    show after (Event.apply fs e) es = fs
    have : Event.apply fs e = fs := by
      cases e <;> simp [Silent] at he <;> rfl
    rw [this]
    exact ih fun e he => h e (by simp [he])

/-- the events of a conversion: printed lines, and if an image is drawn and the output can be created, the writes -/
theorem convert_events (E : Env) (I : Impl) (border : List (F64 × F64)) (os : Os) (fs : Files) (inp out : Path) :
    (∃ pre x, CliIO.convert E I border os fs inp out = (pre, x) ∧ (∀ e ∈ pre, Silent e) ∧ x ≠ .ok ∧
      (x = .panic → ∃ content, fs inp = some content ∧ os.openOK inp = true ∧
        Cli.convert E I border (content.take (os.delivers inp)) = .panic) ∧
      (x = .fatal → ∀ content, fs inp = some content → os.openOK inp = true →
        (∃ e, Cli.convert E I border (content.take (os.delivers inp)) = .fail e) ∨ os.createOK out = false)) ∨
    (∃ pre content img, CliIO.convert E I border os fs inp out =
        (pre ++ .create out :: (os.encode img).1.map (.append out), if (os.encode img).2 then .ok else .fatal) ∧
      (∀ e ∈ pre, Silent e) ∧ fs inp = some content ∧ os.openOK inp = true ∧ os.createOK out = true ∧
      Cli.convert E I border (content.take (os.delivers inp)) = .image img) := by
  have hw : ∀ (content : Bytes) (pre : List Event) (img : Img), fs inp = some content → os.openOK inp = true →
      Cli.convert E I border (content.take (os.delivers inp)) = .image img → (∀ e ∈ pre, Silent e) →
      CliIO.convert E I border os fs inp out = (pre ++ (writeOut os out img).1, (writeOut os out img).2) →
      (∃ pre x, CliIO.convert E I border os fs inp out = (pre, x) ∧ (∀ e ∈ pre, Silent e) ∧ x ≠ .ok ∧
        (x = .panic → ∃ content, fs inp = some content ∧ os.openOK inp = true ∧
          Cli.convert E I border (content.take (os.delivers inp)) = .panic) ∧
        (x = .fatal → ∀ content, fs inp = some content → os.openOK inp = true →
          (∃ e, Cli.convert E I border (content.take (os.delivers inp)) = .fail e) ∨ os.createOK out = false)) ∨
      (∃ pre content img, CliIO.convert E I border os fs inp out =
          (pre ++ .create out :: (os.encode img).1.map (.append out), if (os.encode img).2 then .ok else .fatal) ∧
        (∀ e ∈ pre, Silent e) ∧ fs inp = some content ∧ os.openOK inp = true ∧ os.createOK out = true ∧
        Cli.convert E I border (content.take (os.delivers inp)) = .image img) := by
    intro content pre img h1 h2 h3 h4 h5
    by_cases hc : os.createOK out = true
    · right
      refine ⟨pre, content, img, ?_, h4, h1, h2, hc, h3⟩
      rw [h5]; simp [writeOut, hc]
    · left
      refine ⟨pre, .fatal, ?_, h4, by decide, by simp, fun _ _ _ _ => Or.inr (by simpa using hc)⟩
      rw [h5]; simp [writeOut, hc]
  cases hf : fs inp with
  | none => left; exact ⟨[], .fatal, by simp [CliIO.convert, hf], by simp, by decide, by simp, by simp⟩
  | some content =>
    by_cases ho : os.openOK inp = true
    · cases hn : NewComposite E (content.take (os.delivers inp)) with
      | panic =>
        left
        refine ⟨[], .panic, by simp [CliIO.convert, hf, ho, hn], by simp, by decide, fun _ => ⟨content, rfl, ho, ?_⟩, by simp⟩
        simp [Cli.convert, hn]
      | ret c err =>
        cases err with
        | some e =>
          left
          refine ⟨[], .fatal, by simp [CliIO.convert, hf, ho, hn], by simp, by decide, by simp, ?_⟩
          intro _ content' h' _
          simp only [Option.some.injEq] at h'
          subst h'
          left
          exact ⟨e, by simp [Cli.convert, hn]⟩
        | none =>
          have hd : CliIO.convert E I border os fs inp out = draw E I border os out c := by
            simp [CliIO.convert, hf, ho, hn]
          rw [← hf]
          have pan : ∀ pre : List Event, (∀ e ∈ pre, Silent e) → draw E I border os out c = (pre, .panic) →
              Cli.convert E I border (content.take (os.delivers inp)) = .panic →
              (∃ pre x, CliIO.convert E I border os fs inp out = (pre, x) ∧ (∀ e ∈ pre, Silent e) ∧ x ≠ .ok ∧
                (x = .panic → ∃ content, fs inp = some content ∧ os.openOK inp = true ∧
                  Cli.convert E I border (content.take (os.delivers inp)) = .panic) ∧
                (x = .fatal → ∀ content, fs inp = some content → os.openOK inp = true →
                  (∃ e, Cli.convert E I border (content.take (os.delivers inp)) = .fail e) ∨ os.createOK out = false)) := by
            intro pre h1 h2 h3
            exact ⟨pre, .panic, hd.trans h2, h1, by decide, fun _ => ⟨content, hf, ho, h3⟩, by simp⟩
          cases hcf : Cli.colorFunc I E.math c with
          | none => exact Or.inl (pan [Event.summary c.product c.dataUnit c.forecastTime] (by simp [Silent]) (by simp only [draw, hcf]) (by simp [Cli.convert, hn, hcf]))
          | some fn =>
            cases hi : Image fn c 0 with
            | none => exact Or.inl (pan [Event.summary c.product c.dataUnit c.forecastTime] (by simp [Silent]) (by simp only [draw, hcf, hi]) (by simp [Cli.convert, hn, hcf, hi]))
            | some img =>
              by_cases hp : c.hasProjection = true
              · cases hm : Cli.meshPoints I with
                | none =>
                  exact Or.inl (pan [Event.summary c.product c.dataUnit c.forecastTime, gridSize c] (by simp [Silent, gridSize]) (by simp only [draw, hcf, hi, hp, hm, if_true])
                    (by simp [Cli.convert, hn, hcf, hi, hp, hm]))
                | some mesh =>
                  refine hw content [Event.summary c.product c.dataUnit c.forecastTime, gridSize c]
                    (Cli.drawPoints E I c Cli.meshColor mesh (Cli.drawPoints E I c Cli.borderColor border img)) hf ho
                    (by simp only [Cli.convert, hn, hcf, hi, hp, hm, if_true]) (by simp [Silent, gridSize]) ?_
                  rw [hd]; simp only [draw, hcf, hi, hp, hm, if_true]; rfl
              · refine hw content [Event.summary c.product c.dataUnit c.forecastTime] img hf ho
                  (by simp only [Cli.convert, hn, hcf, hi, hp]; simp) (by simp [Silent]) ?_
                rw [hd]; simp only [draw, hcf, hi, hp]; rfl
    · left
      refine ⟨[], .fatal, by simp [CliIO.convert, hf, ho], by simp, by decide, by simp, ?_⟩
      intro _ _ _ h; exact absurd h ho

/-- C55. Wherever a conversion is interrupted (after any number of its effects), every file other than the output is
untouched, and the output either is untouched too, or the input could be read and drawn and the output holds an
initial piece of its PNG encoding. -/
theorem C55_interrupted (E : Env) (I : Impl) (border : List (F64 × F64)) (os : Os) (fs : Files) (inp out : Path)
    (done rest : List Event) (h : (CliIO.convert E I border os fs inp out).1 = done ++ rest) :
    (∀ p, p ≠ out → after fs done p = fs p) ∧
    (after fs done out = fs out ∨
      ∃ content img, fs inp = some content ∧
        Cli.convert E I border (content.take (os.delivers inp)) = .image img ∧
        ∃ written, after fs done out = some written ∧ written <+: (os.encode img).1.flatten) := by
  rcases convert_events E I border os fs inp out with ⟨pre, x, h1, h2, _⟩ | ⟨pre, content, img, h1, h2, h3, _, _, h4⟩
  · rw [h1] at h
    have : after fs done = fs := after_silent fun e he => h2 e (by simp only at h; rw [h]; simp [he])
    rw [this]
    exact ⟨fun _ _ => rfl, Or.inl rfl⟩
  · rw [h1] at h
    simp only at h
    -- is the output created already?
    rcases List.append_eq_append_iff.mp h with ⟨a, hd, hr⟩ | ⟨a, hp, hr⟩
    · rw [hd, after_append, after_silent h2]
      cases a with
      | nil => exact ⟨fun _ _ => rfl, Or.inl rfl⟩
      | cons e a =>
        simp only [List.cons_append, List.cons.injEq] at hr
        obtain ⟨he, hr⟩ := hr
        subst he
        obtain ⟨l1, l2, hl, ha, _⟩ := List.map_eq_append_iff.mp hr
        have hc : Event.apply fs (.create out) out = some [] := by simp [Event.apply]
        have key := after_writes (Event.apply fs (.create out)) out [] l1 hc
        have hstep : ∀ p, after fs (.create out :: a) p = if p = out then some l1.flatten else fs p := by
          intro p
          show after (Event.apply fs (.create out)) a p = _
          rw [← ha, key p]
          by_cases hpo : p = out
          · simp [hpo]
          · simp [hpo, Event.apply]
        refine ⟨fun p hp => by rw [hstep, if_neg hp], Or.inr ⟨content, img, h3, h4, l1.flatten, by rw [hstep, if_pos rfl], ?_⟩⟩
        rw [hl, List.flatten_append]
        exact List.prefix_append _ _
    · have : after fs done = fs := after_silent fun e he => h2 e (by rw [hp]; simp [he])
      rw [this]
      exact ⟨fun _ _ => rfl, Or.inl rfl⟩

/-- C55. A conversion ends with exit status 0 exactly when the input exists, can be opened and yields an image, and
the output can be created and encoded; the output then is the complete PNG of the image drawn from the input as it was
at the start (also if input and output are the same file), and no other file has changed. -/
theorem C55_success (E : Env) (I : Impl) (border : List (F64 × F64)) (os : Os) (fs : Files) (inp out : Path) :
    let r := CliIO.convert E I border os fs inp out
    (r.2 = .ok ↔ os.openOK inp = true ∧ os.createOK out = true ∧ ∃ content img, fs inp = some content ∧
      Cli.convert E I border (content.take (os.delivers inp)) = .image img ∧ (os.encode img).2 = true) ∧
    (r.2 = .ok → ∀ content img, fs inp = some content →
      Cli.convert E I border (content.take (os.delivers inp)) = .image img →
      after fs r.1 out = some (os.encode img).1.flatten ∧ ∀ p, p ≠ out → after fs r.1 p = fs p) := by
  intro r
  rcases convert_events E I border os fs inp out with ⟨pre, x, h1, h2, hx, hpan, hfat⟩ | ⟨pre, content, img, h1, h2, h3, ho, hc, h4⟩
  · have hr : r = (pre, x) := h1
    rw [hr]
    refine ⟨⟨fun h => absurd h hx, ?_⟩, fun h => absurd h hx⟩
    rintro ⟨ho, hc, content, img, h3, h4, _⟩
    exfalso
    cases x with
    | ok => exact hx rfl
    | panic =>
      obtain ⟨content', h5, _, h6⟩ := hpan rfl
      rw [h3, Option.some.injEq] at h5
      subst h5
      rw [h4] at h6; cases h6
    | fatal =>
      rcases hfat rfl content h3 ho with ⟨e, h6⟩ | h6
      · rw [h4] at h6; cases h6
      · rw [hc] at h6; cases h6
  · have hr : r = _ := h1
    rw [hr]
    constructor
    · constructor
      · intro h
        refine ⟨ho, hc, content, img, h3, h4, ?_⟩
        by_contra hne
        simp [hne] at h
      · rintro ⟨_, _, content', img', h5, h6, h7⟩
        rw [h3, Option.some.injEq] at h5
        subst h5
        rw [h4] at h6
        cases h6
        simp [h7]
    · intro _ content' img' h5 h6
      rw [h3, Option.some.injEq] at h5
      subst h5
      rw [h4] at h6
      cases h6
      have hcr : Event.apply fs (.create out) out = some [] := by simp [Event.apply]
      have key := after_writes (Event.apply fs (.create out)) out [] (os.encode img).1 hcr
      have hstep : ∀ p, after fs (pre ++ .create out :: (os.encode img).1.map (.append out)) p =
          if p = out then some (os.encode img).1.flatten else fs p := by
        intro p
        rw [after_append, after_silent h2]
        show after (Event.apply fs (.create out)) _ p = _
        rw [key p]
        by_cases hpo : p = out
        · simp [hpo]
        · simp [hpo, Event.apply]
      exact ⟨by rw [hstep, if_pos rfl], fun p hp => by rw [hstep, if_neg hp]⟩

/-- C55. If the input is rejected by NewComposite, or does not exist, nothing is written: all files, including an
existing output file, stay as they were, and the exit status is 1. With fewer than two arguments main only prints its
usage; further arguments are ignored. -/
theorem C55_rejected (E : Env) (I : Impl) (border : List (F64 × F64)) (os : Os) (fs : Files) (inp out : Path) :
    (fs inp = none ∨ (∃ content c e, fs inp = some content ∧
        NewComposite E (content.take (os.delivers inp)) = .ret c (some e)) →
      (CliIO.convert E I border os fs inp out).2 = .fatal ∧
      after fs (CliIO.convert E I border os fs inp out).1 = fs) ∧
    (∀ prog args, args.length < 2 → CliIO.main E I border os fs (prog :: args) = ([.usage prog], .ok)) ∧
    (∀ prog more, CliIO.main E I border os fs (prog :: inp :: out :: more) = CliIO.convert E I border os fs inp out) := by
  refine ⟨?_, ?_, fun _ _ => rfl⟩
  · rintro (h | ⟨content, c, e, h1, h2⟩)
    · simp [CliIO.convert, h, after]
    · unfold CliIO.convert
      simp only [h1, h2]
      split <;> simp [after]
  · intro prog args h
    match args, h with
    | [], _ => rfl
    | [_], _ => rfl

theorem mul_size {x d : F64} {r X : ℝ} {n : Int} (hd : d.isFin = true ∧ d.val = (n : ℚ)) (hn : 0 < n) (hn2 : n < 2 ^ 63)
    (hx : Fl.Ap x r (42 / 10 ^ 10 / n)) (hr : |r - X / n| ≤ X / n / 10 ^ 5) (h1 : 900 ≤ X) (h2 : X ≤ 1500) :
    (Fl.mul d x).isFin = true ∧ |((Fl.mul d x).val : ℝ) - X| ≤ 2 / 100 := by
  have g0 : (0 : ℝ) < n := by exact_mod_cast hn
  have g1 : (1 : ℝ) ≤ n := by exact_mod_cast hn
  have g2 : (n : ℝ) ≤ 10 ^ 19 := by
    have : n ≤ 10 ^ 19 := by omega
    exact_mod_cast this
  have hdv : Fl.Ap d (n : ℝ) 0 := ⟨hd.1, by rw [hd.2]; simp⟩
  have hra : |r| ≤ 1501 / n := by
    have a := abs_sub_abs_le_abs_sub r (X / n)
    have b : |X / (n : ℝ)| = X / n := abs_of_nonneg (by positivity)
    have c : X / n + X / n / 10 ^ 5 ≤ 1501 / (n : ℝ) := by
      rw [div_right_comm, ← add_div]
      exact div_le_div_of_nonneg_right (by norm_num; linarith) g0.le
    linarith
  have e1 : (n : ℝ) * (1501 / n) = 1501 := by field_simp
  have e2 : (n : ℝ) * (42 / 10 ^ 10 / n) = 42 / 10 ^ 10 := by field_simp
  have hm := Fl.mul_ap (A := n) (B := 1501 / n) (e := 42 / 10 ^ 10) (t := 43 / 10 ^ 10) hdv hx
    (by rw [abs_of_pos g0]) hra (by rw [e2]; simp) (by rw [e1]; norm_num) (by rw [e1]; norm_num) (by rw [e1]; norm_num)
  refine ⟨hm.1, ?_⟩
  have h3 : |(n : ℝ) * r - X| ≤ X / 10 ^ 5 := by
    have e : (n : ℝ) * r - X = n * (r - X / n) := by field_simp
    rw [e, abs_mul, abs_of_pos g0]
    refine (mul_le_mul_of_nonneg_left hr g0.le).trans (le_of_eq ?_)
    field_simp
  have e : ((Fl.mul d x).val : ℝ) - X = (((Fl.mul d x).val : ℝ) - n * r) + (n * r - X) := by ring
  rw [e]
  refine (abs_add_le _ _).trans ((add_le_add hm.2 h3).trans ?_)
  norm_num at h2 ⊢; linarith

/-- a number within 0.02 of a whole number of kilometres is that number when rounded to tenths -/
theorem tenths {x : ℚ} {k : Int} (h : |(x : ℝ) - k| ≤ 2 / 100) : round (10 * x) = 10 * k := by
  have h' : |x - k| ≤ 2 / 100 := by
    have : (((|x - k| : ℚ)) : ℝ) ≤ ((2 / 100 : ℚ) : ℝ) := by push_cast; exact h
    exact_mod_cast this
  have hb := abs_le.mp h'
  rw [round_eq, Int.floor_eq_iff]
  push_cast
  constructor <;> linarith [hb.1, hb.2]

/-- nominal width and height of a grid in whole kilometres -/
theorem extent_whole {b : Int × Int} (hb : b ∈ baseGrids) :
    ∃ w h : Int, (extentKm b).1 = w ∧ (extentKm b).2 = h ∧ (w, h) ∈ [(900, 900), (920, 920), (900, 1100), (1100, 1200), (1400, 1500)] := by
  simp only [baseGrids, List.mem_cons, List.not_mem_nil, or_false] at hb
  rcases hb with rfl | rfl | rfl | rfl | rfl
  · exact ⟨900, 900, by norm_num [extentKm], by norm_num [extentKm], by simp⟩
  · exact ⟨920, 920, by norm_num [extentKm], by norm_num [extentKm], by simp⟩
  · exact ⟨900, 1100, by norm_num [extentKm], by norm_num [extentKm], by simp⟩
  · exact ⟨1100, 1200, by norm_num [extentKm], by norm_num [extentKm], by simp⟩
  · exact ⟨1400, 1500, by norm_num [extentKm], by norm_num [extentKm], by simp⟩

/-- both printed edges are within 20 m of the nominal ones -/
theorem grid_size_close {E : Env} (hM : AccurateMath E.math) {c : Composite} (h : Ready E c) {b : Int × Int}
    (hg : HasGrid c.format c.dx c.dy b) (hdx : c.dx < 2 ^ 63) (hdy : c.dy < 2 ^ 63) :
    ∃ w h W H, gridSize c = .gridSize w h ∧ w.isFin = true ∧ h.isFin = true ∧
      (extentKm b).1 = (W : Int) ∧ (extentKm b).2 = (H : Int) ∧
      |(w.val : ℝ) - W| ≤ 2 / 100 ∧ |(h.val : ℝ) - H| ≤ 2 / 100 ∧
      (W, H) ∈ [((900 : Int), (900 : Int)), (920, 920), (900, 1100), (1100, 1200), (1400, 1500)] := by
  obtain ⟨⟨h1, h2⟩, _⟩ := float_projection hM h hg hdx hdy
  obtain ⟨n1, n2⟩ := C52_nominal_resolution hg
  obtain ⟨v1, v2, v3, v4⟩ := extent_range hg.1
  obtain ⟨q1, q2⟩ := hasGrid_pos hg
  obtain ⟨p1, p2, p3, p4⟩ := base_pos hg.1
  obtain ⟨k, s1, s2⟩ := hg.2.1
  have lx := Fl.lit_scaled (b := b.1) (k := k) p1 (by omega) (by rw [← s1]; exact hdx)
  have ly := Fl.lit_scaled (b := b.2) (k := k) p3 (by omega) (by rw [← s2]; exact hdy)
  rw [← s1] at lx
  rw [← s2] at ly
  obtain ⟨W, H, eW, eH, hWH⟩ := extent_whole hg.1
  obtain ⟨f1, m1⟩ := mul_size lx q1 hdx h1 n1 v1 (by linarith)
  obtain ⟨f2, m2⟩ := mul_size ly q2 hdy h2 n2 v3 v4
  refine ⟨_, _, W, H, rfl, f1, f2, eW, eH, ?_, ?_, hWH⟩
  · rw [eW] at m1; push_cast at m1; exact m1
  · rw [eH] at m2; push_cast at m2; exact m2

/-- C56. With an accurate math library, the grid size radolan2png prints (Dx * Rx and Dy * Ry in float64, to one
decimal) is the nominal size of the grid in kilometres, for every composite with a projection. -/
theorem C56_grid_size {E : Env} (hM : AccurateMath E.math) {c : Composite} (h : Ready E c) {b : Int × Int}
    (hg : HasGrid c.format c.dx c.dy b) (hdx : c.dx < 2 ^ 63) (hdy : c.dy < 2 ^ 63) :
    ∃ w h W H, gridSize c = .gridSize w h ∧ w.isFin = true ∧ h.isFin = true ∧
      (extentKm b).1 = (W : Int) ∧ (extentKm b).2 = (H : Int) ∧
      round (10 * w.val) = 10 * W ∧ round (10 * h.val) = 10 * H := by
  obtain ⟨w, v, W, H, h1, h2, h3, h4, h5, h6, h7, _⟩ := grid_size_close hM h hg hdx hdy
  exact ⟨w, v, W, H, h1, h2, h3, h4, h5, tenths h6, tenths h7⟩

/-- C56. radolan2png prints a grid size exactly for composites with a projection. -/
theorem C56_printed (E : Env) (I : Impl) (border : List (F64 × F64)) (os : Os) (fs : Files) (inp out : Path)
    {content : Bytes} {c : Composite} (hf : fs inp = some content) (ho : os.openOK inp = true)
    (hn : NewComposite E (content.take (os.delivers inp)) = .ret c none) (hsize : 4 * (c.dx * c.dy) ≤ 2 ^ 48)
    (w h : F64) :
    .gridSize w h ∈ (CliIO.convert E I border os fs inp out).1 ↔ c.hasProjection = true ∧ gridSize c = .gridSize w h := by
  obtain ⟨img, fn, mesh, h1, h2, h3, _⟩ := (C50_drawing E I border (content.take (os.delivers inp))).2 c hn hsize
  have hd : CliIO.convert E I border os fs inp out = draw E I border os out c := by
    simp [CliIO.convert, hf, ho, hn]
  have hw : ∀ im, Event.gridSize w h ∉ (writeOut os out im).1 := by
    intro im; unfold writeOut; split <;> simp
  rw [hd]
  cases hi : Image fn c 0 with
  | none => simp [Cli.convert, hn, h2, hi] at h1
  | some im =>
    by_cases hp : c.hasProjection = true
    · simp only [draw, h2, hi, hp, h3, if_true, List.mem_cons, hw, or_false, true_and]
      simp [eq_comm]
    · simp only [draw, h2, hi, hp]
      simp [hw]

/-! ### a concrete run -/

/-- an operating system on which everything succeeds; images are encoded as one chunk with their size -/
def goodOs : Os where
  openOK _ := true
  delivers _ := 1000000
  createOK _ := true
  encode img := ([[UInt8.ofNat img.w], [UInt8.ofNat img.h]], true)

theorem success_unique {E : Env} {input : Bytes} {c c' : Composite} (h : NewComposite E input = .ret c none)
    (h' : Success E input c') : c' = c := by
  rcases h' with h' | h' <;> rw [h] at h' <;> cases h'
  rfl

theorem converted_in_place {E : Env} {I : Impl} {input : Bytes} {c : Composite} (h : NewComposite E input = .ret c none)
    (hl : input.length ≤ 1000000) (hs : 4 * (c.dx * c.dy) ≤ 2 ^ 48) (p : Path) :
    ∃ l, CliIO.convert E I [] goodOs (fun q => if q = p then some input else none) p p = (l, .ok) := by
  have hn : NewComposite E (input.take (goodOs.delivers p)) = .ret c none := by
    rw [show input.take (goodOs.delivers p) = input from List.take_of_length_le hl]; exact h
  obtain ⟨img, _, _, h1, _⟩ := (C50_drawing E I [] _).2 c hn hs
  have := (C55_success E I [] goodOs (fun q => if q = p then some input else none) p p).1.mpr
    ⟨rfl, rfl, input, img, by simp, h1, rfl⟩
  exact ⟨_, Prod.ext rfl this⟩

/-- sampleRX is converted in place -/
example (I : Impl) : ∃ l, (CliIO.convert env0 I [] goodOs (fun p => if p = str "a" then some sampleRX else none)
    (str "a") (str "a")) = (l, .ok) := by
  obtain ⟨c, h, _⟩ := sampleRX_at
  obtain ⟨c', h', hb⟩ := sampleRX_ok
  simp only [Bool.and_eq_true, beq_iff_eq] at hb
  obtain ⟨⟨⟨hdx, hdy⟩, _⟩, _⟩ := hb
  have hcc : c' = c := success_unique h h'
  rw [hcc] at hdx hdy
  exact converted_in_place h (by decide +kernel) (by rw [hdx, hdy]; decide) (str "a")

end Props
