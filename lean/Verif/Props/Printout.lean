/-
C88: what radolan2png prints.
-/
import Verif.Lemmas.Text
import Verif.Lemmas.Nearest
import Verif.Model.Printout
import Verif.Props.EndToEnd
import Verif.Props.Files
import Verif.Props.Rainfall

namespace Props
open Go Radolan Spec Radolan.Vis Radolan.CliIO

theorem roundEven_near {q : ℚ} {n : Int} (h : |q - n| < 1 / 2) : roundEven q = n := by
  have h1 := roundEven_nearest q n
  have h2 : |(n : ℚ) - q| < 1 / 2 := by rw [abs_sub_comm]; exact h
  have h3 : |(roundEven q : ℚ) - n| < 1 := by
    rw [abs_lt] at *
    obtain ⟨a, b⟩ := h
    have h4 := _root_.lt_of_le_of_lt h1 (by rw [abs_lt]; exact h2)
    rw [abs_lt] at h4
    constructor <;> linarith [h4.1, h4.2]
  have h4 : |roundEven q - n| < 1 := by exact_mod_cast h3
  rw [abs_lt] at h4
  omega

/-- a number close to a whole number of kilometres is printed as that number -/
theorem fixed1_near {x : F64} {n : Nat} (hf : x.isFin = true) (hn : 1 ≤ n) (h : |(x.val : ℝ) - n| ≤ 2 / 100) :
    fixed1 x = nat n ++ str ".0" := by
  have h' : |x.val - n| ≤ 2 / 100 := by
    have : ((|x.val - n| : ℚ) : ℝ) ≤ ((2 / 100 : ℚ) : ℝ) := by push_cast; exact h
    exact (Rat.cast_le (K := ℝ)).mp this
  have hn' : (1 : ℚ) ≤ n := by exact_mod_cast hn
  have hpos : 0 < x.val := by rw [abs_le] at h'; linarith [h'.1]
  have hr : roundEven (10 * |x.val|) = (10 * n : Nat) := by
    apply roundEven_near
    rw [abs_of_pos hpos]
    push_cast
    rw [abs_le] at h'
    rw [abs_lt]
    constructor <;> linarith [h'.1, h'.2]
  have hsign : x.sign = false := Fl.sign_of_pos hf hpos
  unfold fixed1
  rw [if_neg (by rintro rfl; cases hf), if_neg (by rintro rfl; cases hf), if_neg (by rintro rfl; cases hf), hr]
  simp only [Int.toNat_natCast, hsign]
  rw [show 10 * n / 10 = n by omega, show 10 * n % 10 = 0 by omega, itoa_nat]
  rfl

theorem text_writeOut (os : Os) (out : Path) (img : Img) : stdout (writeOut os out img).1 = [] := by
  unfold writeOut
  split
  · rfl
  · simp [stdout, Event.text]

/-- what is printed for a parsed composite -/
theorem printed {E : Env} {I : Impl} {border : List (F64 × F64)} {os : Os} {fs : Files} {inp out : Path}
    {content : Bytes} {c : Composite} (hf : fs inp = some content) (ho : os.openOK inp = true)
    (hn : NewComposite E (content.take (os.delivers inp)) = .ret c none) (hsize : 4 * (c.dx * c.dy) ≤ 2 ^ 48) :
    stdout (CliIO.convert E I border os fs inp out).1 =
      (Event.summary c.product c.dataUnit c.forecastTime).text ++ if c.hasProjection then (gridSize c).text else [] := by
  obtain ⟨img, fn, mesh, h1, h2, h3, _⟩ := (C50_drawing E I border (content.take (os.delivers inp))).2 c hn hsize
  have hd : CliIO.convert E I border os fs inp out = draw E I border os out c := by
    simp [CliIO.convert, hf, ho, hn]
  have hw : ∀ im, stdout (writeOut os out im).1 = [] := text_writeOut os out
  unfold stdout at hw ⊢
  rw [hd]
  cases hi : Image fn c 0 with
  | none => simp [Cli.convert, hn, h2, hi] at h1
  | some im =>
    by_cases hp : c.hasProjection = true
    · simp only [draw, h2, hi, hp, h3, if_true, List.flatMap_cons, hw, List.append_nil]
    · simp only [draw, h2, hi, hp, List.flatMap_cons, hw, List.append_nil, Bool.false_eq_true, if_false]

theorem unit_name (u : Spec.Unit) : ((unitString u.code).map str).getD [] = u.name := by
  cases u <;> rfl

theorem unit_of_label {E : Env} {input : Bytes} {c : Composite} (h : Success E input c) {u : Spec.Unit}
    (hu : c.product ∈ productsIn u) : c.dataUnit = u.code := by
  obtain ⟨_, h1, h2, h3, h4, _⟩ := (C25_product_unit E input c).1 h
  cases u with
  | mm => exact h1 _ hu rfl
  | dBZ => exact h2 _ hu rfl
  | km => exact h3 _ hu rfl
  | mps => exact h4 _ hu rfl

theorem after_year {t : Civil} (hv : t.Valid) (hy : 1969 ≤ t.year) (hy' : t.year ≤ 2068) {n : Nat} (hn : n ≤ 153722867) :
    (t.after n).year ≤ 9999 := by
  obtain ⟨h1, h2, h3⟩ := after_spec hv hy n
  have h4 := year_days h1 (by omega)
  have h5 : t.instant < 100 * 366 * 86400 * 1000000000 := by
    have := instant_lt (s := t) (t := ⟨2069, 1, 1, 0, 0⟩) hv (by decide) hy (Or.inl (by show t.year < 2069; omega))
    have e : (⟨2069, 1, 1, 0, 0⟩ : Civil).instant = 36160 * 86400 * 1000000000 := by decide +kernel
    rw [e] at this
    omega
  omega

theorem time_after {t : Civil} (hv : t.Valid) (hy : 1969 ≤ t.year) (hy' : t.year ≤ 2068) {n : Nat} (hn : n ≤ 153722867) :
    timeString (t.instant + n * 60000000000) = (t.after n).text := by
  obtain ⟨h1, h2, h3⟩ := after_spec hv hy n
  rw [← h3]
  exact time_text h1 (by omega) (after_year hv hy hy' hn)

/-- C88. radolan2png prints one line with the product, its unit and the forecast time of a well-formed product, and for a
product on a known grid a second line with the edges of the grid in whole kilometres. -/
theorem C88_output {E : Env} {I : Impl} {border : List (F64 × F64)} {os : Os} {fs : Files} {inp out : Path} {p : Content}
    {u : Spec.Unit} (hp : p.WF) (hu : p.label ∈ productsIn u) (hf : fs inp = some p.serialise) (ho : os.openOK inp = true)
    (hd : p.serialise.length ≤ os.delivers inp) (hsize : 4 * (p.cols * p.rows) ≤ 2 ^ 48) :
    ((∀ b, ¬ HasGrid p.format p.cols p.rows b) →
      stdout (CliIO.convert E I border os fs inp out).1 = summaryLine p.label u (p.time.after p.forecast)) ∧
    (∀ b, HasGrid p.format p.cols p.rows b → AccurateMath E.math → ∃ w h : Nat, extentKm b = (↑w, ↑h) ∧
      stdout (CliIO.convert E I border os fs inp out).1 =
        summaryLine p.label u (p.time.after p.forecast) ++ gridLine w h) := by
  obtain ⟨c, hs, h1, _, h3, _, h5, _, h7, h8, _, _, _, _, h13⟩ := C47_round_trip E p hp
  have hn := h13.mpr ⟨u, hu⟩
  have hn' : NewComposite E (p.serialise.take (os.delivers inp)) = .ret c none := by
    rw [List.take_of_length_le hd]; exact hn
  have hunit := unit_of_label hs (u := u) (by rw [h1]; exact hu)
  have hpr := printed (I := I) (border := border) (out := out) hf ho hn' (by rw [h7, h8]; exact_mod_cast hsize)
  have hsum : (Event.summary c.product c.dataUnit c.forecastTime).text = summaryLine p.label u (p.time.after p.forecast) := by
    rw [h1, hunit, h3]
    unfold Event.text summaryLine
    simp only [unit_name, time_after hp.time.1 hp.time.2.1 hp.time.2.2 hp.forecast]
  rw [hsum] at hpr
  have hready : Ready E c := .parsed _ _ hs
  have hgrid := C31_has_projection_iff hready
  rw [h5, h7, h8] at hgrid
  constructor
  · intro hno
    have : ¬ c.hasProjection = true := fun hh => by
      obtain ⟨b, g1, g2, g3⟩ := hgrid.mp hh
      exact hno b ⟨g1, g2, g3⟩
    rw [hpr, if_neg this, List.append_nil]
  · intro b hb hM
    have hyes : c.hasProjection = true := hgrid.mpr ⟨b, hb.1, hb.2.1, hb.2.2⟩
    have hR := hp.rows
    have hC := hp.cols
    obtain ⟨w, v, W, H, g1, g2, g3, g4, g5, g6, g7, g8⟩ := grid_size_close hM hready (b := b) (by rw [h5, h7, h8]; exact hb)
      (by omega) (by omega)
    have hW : 900 ≤ W ∧ 900 ≤ H := by
      simp only [List.mem_cons, List.not_mem_nil, or_false, Prod.mk.injEq] at g8
      omega
    obtain ⟨W', rfl⟩ := Int.eq_ofNat_of_zero_le (by omega : 0 ≤ W)
    obtain ⟨H', rfl⟩ := Int.eq_ofNat_of_zero_le (by omega : 0 ≤ H)
    refine ⟨W', H', Prod.ext (by rw [g4]; simp) (by rw [g5]; simp), ?_⟩
    rw [hpr, if_pos hyes, g1]
    unfold Event.text gridLine
    simp only
    rw [fixed1_near (n := W') g2 (by omega) (by simpa using g6), fixed1_near (n := H') g3 (by omega) (by simpa using g7)]
    simp only [List.append_assoc]
    rfl

/-- C88. Nothing is printed for a file that does not exist, cannot be opened or is rejected by the parser (also for an
unknown unit). -/
theorem C88_silent {E : Env} {I : Impl} {border : List (F64 × F64)} {os : Os} {fs : Files} {inp out : Path}
    (h : fs inp = none ∨ os.openOK inp = false ∨ ∃ content c e, fs inp = some content ∧
      NewComposite E (content.take (os.delivers inp)) = .ret c (some e)) :
    stdout (CliIO.convert E I border os fs inp out).1 = [] := by
  rcases h with h | h | ⟨content, c, e, h1, h2⟩
  · simp [CliIO.convert, h, stdout]
  · unfold CliIO.convert
    cases fs inp with
    | none => rfl
    | some content => simp [h, stdout]
  · unfold CliIO.convert
    simp only [h1, h2]
    split <;> rfl

/-- C88. With fewer than two arguments the usage message is printed, which names the program. -/
theorem C88_usage (E : Env) (I : Impl) (border : List (F64 × F64)) (os : Os) (fs : Files) (prog : Path) (args : List Path)
    (h : args.length < 2) :
    stdout (CliIO.main E I border os fs (prog :: args)).1 =
      str "radolan2png converts radolan composite files to png images.\n\n\tUsage: " ++ prog ++ str " <input> <output.png>\n\n" := by
  match args, h with
  | [], _ => simp [CliIO.main, stdout, Event.text]
  | [_], _ => simp [CliIO.main, stdout, Event.text]

/-! ### the printed line tells product, unit and time -/

theorem digit_inj {a b : Nat} (ha : a < 10) (hb : b < 10) (h : UInt8.ofNat (48 + a) = UInt8.ofNat (48 + b)) : a = b := by
  have := congrArg UInt8.toNat h
  simp only [UInt8.toNat_ofNat'] at this
  omega

theorem text_inj {s t : Civil} (hs : s.Valid) (ht : t.Valid) (hs' : s.year ≤ 9999) (ht' : t.year ≤ 9999) {x y : Bytes}
    (h : s.text ++ x = t.text ++ y) : s = t := by
  obtain ⟨a1, a2, a3, a4, a5, a6⟩ := hs
  obtain ⟨b1, b2, b3, b4, b5, b6⟩ := ht
  have := (monthLength_pos s.year s.month).2
  have := (monthLength_pos t.year t.month).2
  obtain ⟨sy, sm, sd, sh, sn⟩ := s
  obtain ⟨ty, tm, td, th, tn⟩ := t
  simp only at *
  simp only [Civil.text, two, asciiDigits, List.map_cons, List.map_nil, List.append_assoc, List.cons_append, List.nil_append,
    List.cons.injEq, List.append_cancel_left_eq] at h
  obtain ⟨y1, y2, y3, y4, m1, m2, d1, d2, h1, h2, n1, n2, _⟩ := h
  have y1 := digit_inj (by omega) (by omega) y1
  have y2 := digit_inj (by omega) (by omega) y2
  have y3 := digit_inj (by omega) (by omega) y3
  have y4 := digit_inj (by omega) (by omega) y4
  have m1 := digit_inj (by omega) (by omega) m1
  have m2 := digit_inj (by omega) (by omega) m2
  have d1 := digit_inj (by omega) (by omega) d1
  have d2 := digit_inj (by omega) (by omega) d2
  have h1 := digit_inj (by omega) (by omega) h1
  have h2 := digit_inj (by omega) (by omega) h2
  have n1 := digit_inj (by omega) (by omega) n1
  have n2 := digit_inj (by omega) (by omega) n2
  simp only [Civil.mk.injEq]
  refine ⟨?_, ?_, ?_, ?_, ?_⟩ <;> omega

theorem unit_inj {u v : Spec.Unit} {x y : Bytes} (h : u.name ++ (str ") showing " ++ x) = v.name ++ (str ") showing " ++ y)) :
    u = v := by
  cases u <;> cases v <;> first | rfl | (exfalso; revert h; simp [Spec.Unit.name, str])

/-- the summary line determines what it shows -/
theorem line_inj {l l' : Bytes} {u u' : Spec.Unit} {s t : Civil} {x y : Bytes} (hl : l.length = l'.length) (hs : s.Valid)
    (ht : t.Valid) (hs' : s.year ≤ 9999) (ht' : t.year ≤ 9999) (h : summaryLine l u s ++ x = summaryLine l' u' t ++ y) :
    l = l' ∧ u = u' ∧ s = t := by
  simp only [summaryLine, List.append_assoc] at h
  obtain ⟨h1, h2⟩ := List.append_inj h hl
  simp only [List.append_cancel_left_eq] at h2
  have hu := unit_inj h2
  subst hu
  simp only [List.append_cancel_left_eq] at h2
  exact ⟨h1, rfl, text_inj hs ht hs' ht' h2⟩

/-- C88. Whoever reads what was printed for two well-formed products knows whether they agree in product, unit and forecast
time: equal outputs, equal facts. -/
theorem C88_tells {E E' : Env} {I I' : Impl} {border border' : List (F64 × F64)} {os os' : Os} {fs fs' : Files}
    {inp out inp' out' : Path} {p q : Content} {u v : Spec.Unit} (hp : p.WF) (hq : q.WF) (hu : p.label ∈ productsIn u)
    (hv : q.label ∈ productsIn v) (hf : fs inp = some p.serialise) (hf' : fs' inp' = some q.serialise)
    (ho : os.openOK inp = true) (ho' : os'.openOK inp' = true) (hd : p.serialise.length ≤ os.delivers inp)
    (hd' : q.serialise.length ≤ os'.delivers inp') (hsize : 4 * (p.cols * p.rows) ≤ 2 ^ 48)
    (hsize' : 4 * (q.cols * q.rows) ≤ 2 ^ 48) (hM : AccurateMath E.math) (hM' : AccurateMath E'.math)
    (h : stdout (CliIO.convert E I border os fs inp out).1 = stdout (CliIO.convert E' I' border' os' fs' inp' out').1) :
    p.label = q.label ∧ u = v ∧ p.time.after p.forecast = q.time.after q.forecast ∧
      p.time.instant + p.forecast * 60000000000 = q.time.instant + q.forecast * 60000000000 := by
  have key : ∀ {E : Env} {I : Impl} {border : List (F64 × F64)} {os : Os} {fs : Files} {inp out : Path} {p : Content}
      {u : Spec.Unit}, p.WF → p.label ∈ productsIn u → fs inp = some p.serialise → os.openOK inp = true →
      p.serialise.length ≤ os.delivers inp → 4 * (p.cols * p.rows) ≤ 2 ^ 48 → AccurateMath E.math →
      ∃ x, stdout (CliIO.convert E I border os fs inp out).1 = summaryLine p.label u (p.time.after p.forecast) ++ x := by
    intro E I border os fs inp out p u hp hu hf ho hd hsize hM
    obtain ⟨k1, k2⟩ := C88_output (E := E) (I := I) (border := border) (out := out) hp hu hf ho hd hsize
    by_cases hb : ∃ b, HasGrid p.format p.cols p.rows b
    · obtain ⟨b, hb⟩ := hb
      obtain ⟨w, h, _, e⟩ := k2 b hb hM
      exact ⟨_, e⟩
    · exact ⟨[], by rw [List.append_nil]; exact k1 fun b hh => hb ⟨b, hh⟩⟩
  obtain ⟨x, hx⟩ := key (I := I) (border := border) (out := out) hp hu hf ho hd hsize hM
  obtain ⟨y, hy⟩ := key (I := I') (border := border') (out := out') hq hv hf' ho' hd' hsize' hM'
  rw [hx, hy] at h
  obtain ⟨a1, _, a3⟩ := after_spec hp.time.1 hp.time.2.1 p.forecast
  obtain ⟨b1, _, b3⟩ := after_spec hq.time.1 hq.time.2.1 q.forecast
  have hl : p.label.length = q.label.length := by
    obtain ⟨_, _, e, _⟩ := hp.label
    obtain ⟨_, _, e', _⟩ := hq.label
    rw [e, e']; rfl
  obtain ⟨r1, r2, r3⟩ := line_inj hl a1 b1 (after_year hp.time.1 hp.time.2.1 hp.time.2.2 hp.forecast)
    (after_year hq.time.1 hq.time.2.1 hq.time.2.2 hq.forecast) h
  exact ⟨r1, r2, r3, by rw [← a3, ← b3, r3]⟩

/-! ### concrete runs -/

/-- an operating system that delivers every file but cannot create the output -/
def readOnlyOs (n : Nat) : Os where
  openOK _ := true
  delivers _ := n
  createOK _ := false
  encode _ := ([], false)

/-- a product off the known grids, with a forecast of two hours -/
example (E : Env) (I : Impl) (border : List (F64 × F64)) :
    stdout (CliIO.convert E I border (readOnlyOs sampleContent.serialise.length) (fun _ => some sampleContent.serialise) [] []).1 =
      str "RW-Image (mm) showing 2017-10-02 15:10:00 +0000 UTC\n" := by
  rw [(C88_output (E := E) (I := I) (border := border) (os := readOnlyOs sampleContent.serialise.length)
    (fs := fun _ => some sampleContent.serialise) (inp := []) (out := []) (u := .mm) sampleContent_wf (by decide) rfl rfl
    (Nat.le_refl _) (by decide)).1 ?_]
  · decide +kernel
  · rintro b ⟨h1, ⟨k, h2, _⟩, _⟩
    have : ∀ b ∈ baseGrids, 100 ≤ b.1 := by decide
    have hb := this b h1
    have hk : (1 : Int) ≤ 2 ^ k := by exact_mod_cast Nat.one_le_two_pow
    have e : ((sampleContent.cols : Nat) : Int) = 3 := rfl
    rw [e] at h2
    nlinarith

/-- a product on the 900 km grid -/
example (I : Impl) (border : List (F64 × F64)) :
    stdout (CliIO.convert { env0 with math := fullMath } I border (readOnlyOs evenRain.serialise.length)
        (fun _ => some evenRain.serialise) [] []).1 =
      str "RX-Image (dBZ) showing 2017-10-02 15:10:00 +0000 UTC\ndetected grid: 900.0 km * 900.0 km\n" := by
  obtain ⟨w, h, he, hr⟩ := (C88_output (E := { env0 with math := fullMath }) (I := I) (border := border)
    (os := readOnlyOs evenRain.serialise.length) (fs := fun _ => some evenRain.serialise) (inp := []) (out := [])
    (u := .dBZ) evenRain_wf (by decide) rfl rfl (Nat.le_refl _) (by decide)).2 (225, 225)
    ⟨by decide, ⟨2, by decide, by decide⟩, Or.inl (by decide)⟩ fullMath_accurate
  simp only [extentKm, if_true, Prod.mk.injEq] at he
  have e1 : w = 900 := by exact_mod_cast he.1.symm
  have e2 : h = 900 := by exact_mod_cast he.2.symm
  subst e1; subst e2
  rw [hr]
  have d : nat 900 = str "900" := by
    unfold nat
    rw [digits, if_neg (by decide), digits, if_neg (by decide), digits, if_pos (by decide)]
    decide
  have l : summaryLine evenRain.label .dBZ (evenRain.time.after evenRain.forecast) =
      str "RX-Image (dBZ) showing 2017-10-02 15:10:00 +0000 UTC\n" := by decide +kernel
  rw [l]
  unfold gridLine
  rw [d]
  decide +kernel

end Props
