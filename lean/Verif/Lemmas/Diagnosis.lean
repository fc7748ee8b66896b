/- Errors name the first check that fails. -/
import Verif.Model.Errors
import Verif.Spec.Diagnosis
import Verif.Props.Accept
import Verif.Lemmas.Short
import Verif.Lemmas.LevelText
import Verif.Lemmas.Leftover
import Verif.Props.Robust

namespace Radolan
open Go
open _root_.Spec _root_.Props

/-! ### lists of checks -/

theorem Passed.append {a b : List (String × Prop)} : Passed (a ++ b) ↔ Passed a ∧ Passed b := by
  unfold Passed
  constructor
  · exact fun h => ⟨fun q hq => h q (by simp [hq]), fun q hq => h q (by simp [hq])⟩
  · rintro ⟨h1, h2⟩ q hq
    rcases List.mem_append.mp hq with h | h
    exacts [h1 q h, h2 q h]

theorem passed_cons {t : String} {P : Prop} {b : List (String × Prop)} : Passed ((t, P) :: b) ↔ P ∧ Passed b := by
  unfold Passed; simp

theorem passed_nil : Passed [] := by unfold Passed; simp

theorem FirstFailing.left {a : List (String × Prop)} {t : String} (h : FirstFailing a t) (b : List (String × Prop)) :
    FirstFailing (a ++ b) t := by
  obtain ⟨pre, P, post, rfl, h1, h2⟩ := h
  exact ⟨pre, P, post ++ b, by simp, h1, h2⟩

theorem FirstFailing.right {a b : List (String × Prop)} {t : String} (ha : Passed a) (h : FirstFailing b t) :
    FirstFailing (a ++ b) t := by
  obtain ⟨pre, P, post, rfl, h1, h2⟩ := h
  refine ⟨a ++ pre, P, post, by simp, ?_, h2⟩
  intro q hq
  rcases List.mem_append.mp hq with h | h
  exacts [ha q h, h1 q h]

theorem FirstFailing.here {t : String} {P : Prop} {b : List (String × Prop)} (h : ¬ P) : FirstFailing ((t, P) :: b) t :=
  ⟨[], P, b, rfl, by simp, h⟩

theorem FirstFailing.later {t t' : String} {P : Prop} {b : List (String × Prop)} (hP : P) (h : FirstFailing b t') :
    FirstFailing ((t, P) :: b) t' := FirstFailing.right (a := [(t, P)]) (by unfold Passed; simpa using hP) h

theorem FirstFailing.not_passed {a : List (String × Prop)} {t : String} (h : FirstFailing a t) : ¬ Passed a := by
  obtain ⟨pre, P, post, rfl, h1, h2⟩ := h
  intro h
  exact h2 (h (t, P) (by simp))

theorem FirstFailing.unique {a : List (String × Prop)} {t t' : String} (h : FirstFailing a t) (h' : FirstFailing a t') :
    t = t' := by
  obtain ⟨pre, P, post, rfl, h1, h2⟩ := h
  obtain ⟨pre', P', post', he, h1', h2'⟩ := h'
  rcases List.append_eq_append_iff.mp he with ⟨m, e1, e2⟩ | ⟨m, e1, e2⟩
  · cases m with
    | nil =>
      simp only [List.nil_append, List.cons.injEq, Prod.mk.injEq] at e2
      exact e2.1.1
    | cons q m =>
      simp only [List.cons_append, List.cons.injEq] at e2
      exact absurd (h1' (t, P) (by rw [e1, ← e2.1]; simp)) h2
  · cases m with
    | nil =>
      simp only [List.nil_append, List.cons.injEq, Prod.mk.injEq] at e2
      exact e2.1.1.symm
    | cons q m =>
      simp only [List.cons_append, List.cons.injEq] at e2
      exact absurd (h1 (t', P') (by rw [e1, ← e2.1]; simp)) h2'

/-! ### stages -/

/-- a stage of the header parser performs the checks `cks` -/
def Performs (p : Bytes) (cks : List (String × Prop)) (m : M _root_.Unit) : Prop :=
  ∀ c, c.product = p → (m c).Sat (fun _ c' => c'.product = p ∧ Passed cks) (fun e _ => FirstFailing cks e.text) True

/-- the same for a part of the parser with a result satisfying `R` -/
def Checks (p : Bytes) (cks : List (String × Prop)) (R : α → Prop) (m : M α) : Prop :=
  ∀ c, c.product = p → (m c).Sat (fun x _ => R x ∧ Passed cks) (fun e _ => FirstFailing cks e.text) True

theorem Performs.seq {p : Bytes} {a b : List (String × Prop)} {m : M _root_.Unit} {k : M α} {R : α → Prop}
    (hm : Performs p a m) (hk : Checks p b R k) : Checks p (a ++ b) R (m >>= fun _ => k) := by
  intro c hc
  apply Sat.bind
  have h := hm c hc
  cases hr : m c with
  | ok x c' =>
    rw [hr] at h
    obtain ⟨h1, h2⟩ := h
    have := Sat.mono (hk c' h1) (Q' := fun x _ => R x ∧ Passed (a ++ b)) (R' := fun e _ => FirstFailing (a ++ b) e.text)
      (P' := True) (fun _ _ hq => ⟨hq.1, Passed.append.mpr ⟨h2, hq.2⟩⟩) (fun _ _ he => FirstFailing.right h2 he) id
    exact this
  | err e c' => rw [hr] at h; exact FirstFailing.left h b
  | panic => trivial

theorem Performs.before {p : Bytes} {a b : List (String × Prop)} {m k : M _root_.Unit}
    (hm : Performs p a m) (hk : Performs p b k) : Performs p (a ++ b) (m >>= fun _ => k) := by
  intro c hc
  apply Sat.bind
  have h := hm c hc
  cases hr : m c with
  | ok x c' =>
    rw [hr] at h
    obtain ⟨h1, h2⟩ := h
    have := Sat.mono (hk c' h1) (Q' := fun x c' => c'.product = p ∧ Passed (a ++ b)) (R' := fun e _ => FirstFailing (a ++ b) e.text)
      (P' := True) (fun _ _ hq => ⟨hq.1, Passed.append.mpr ⟨h2, hq.2⟩⟩) (fun _ _ he => FirstFailing.right h2 he) id
    exact this
  | err e c' => rw [hr] at h; exact FirstFailing.left h b
  | panic => trivial

theorem Performs.modify {p : Bytes} {g : Composite → Composite} (h : ∀ c, (g c).product = c.product) :
    Performs p [] (M.modify g) := by
  intro c hc
  exact ⟨by rw [h]; exact hc, passed_nil⟩

/-- the check of a number that is assigned to a field not the product -/
theorem performs_orErr {p : Bytes} {t : String} {P : Prop} {e : Err} {o : Option α} {g : α → Composite → Composite}
    (he : e.text = t) (h : (∃ x, o = some x) ↔ P) (hg : ∀ x c, (g x c).product = c.product) :
    Performs p [(t, P)] (M.orErr e o >>= fun x => M.modify (g x)) := by
  intro c hc
  subst he
  cases o with
  | none => exact FirstFailing.here (fun hP => by obtain ⟨x, hx⟩ := h.mpr hP; simp at hx)
  | some x => exact ⟨by rw [hg]; exact hc, by rw [passed_cons]; exact ⟨h.mp ⟨x, rfl⟩, passed_nil⟩⟩

theorem numeric_iff {fs : List Field} (hw : ∀ f ∈ fs, f.WF) {k : String} {v : Bytes} (hv : value fs (str k) = some v) :
    (∃ n, sscanfD v = some n) ↔ Numeric fs k := by
  unfold Numeric
  constructor
  · rintro ⟨n, hn⟩ w hw'
    rw [hv] at hw'
    simp only [Option.some.injEq] at hw'
    subst hw'
    exact ⟨n, sscanfD_iff.mp hn⟩
  · intro h
    obtain ⟨n, hn⟩ := h v hv
    exact ⟨n, sscanfD_iff.mpr hn⟩

theorem numeric_none {fs : List Field} {k : String} (hv : value fs (str k) = none) : Numeric fs k := by
  intro v h; rw [hv] at h; simp at h

theorem passed_one {t : String} {P : Prop} (h : P) : Passed [(t, P)] := by rw [passed_cons]; exact ⟨h, passed_nil⟩

theorem performs_length {p : Bytes} {fs : List Field} (hw : ∀ f ∈ fs, f.WF) (hdr : Bytes) :
    Performs p [("radolan.parseHeader: could not parse data length: ", ∃ n, Announces fs n)]
      (stageLength hdr (pairs fs).reverse) := by
  unfold stageLength
  refine performs_orErr (by rfl) ?_ (fun _ _ => rfl)
  rw [find_pairs]
  unfold Announces
  cases hv : value fs (str "BY") with
  | none => rw [Option.getD_none, show sscanfD [] = none by decide]; simp
  | some v =>
    simp only [Option.getD_some, Option.some.injEq, exists_eq_left']
    constructor
    · rintro ⟨n, hn⟩; exact ⟨n, sscanfD_iff.mp hn⟩
    · rintro ⟨n, hn⟩; exact ⟨n, sscanfD_iff.mpr hn⟩

theorem performs_capture {p : Bytes} {pre : Bytes} (hl : 21 ≤ pre.length) :
    Performs p [("radolan.parseHeader: could not parse capture time: ", Stamped pre)] (stageCapture (pre ++ [3])) := by
  intro c hc
  unfold stageCapture
  rw [slice?_some (by omega) (by simp; omega), slice?_some (by omega) (by simp; omega)]
  simp only [M.orPanic_some_bind]
  have hs := stamped_iff (pre := pre) (by omega)
  rw [← dateBytes_append (by omega) [3]] at hs
  unfold dateBytes at hs
  cases h : parseTime (((pre ++ [3]).take 8).drop 2 ++ ((pre ++ [3]).take 17).drop 13) with
  | some t => exact ⟨hc, passed_one (hs.mp ⟨t, h⟩)⟩
  | none =>
    refine FirstFailing.here (fun hP => ?_)
    obtain ⟨x, hx⟩ := hs.mpr hP
    rw [h] at hx; simp at hx

theorem performs_forecast {p : Bytes} {fs : List Field} (hw : ∀ f ∈ fs, f.WF) :
    Performs p [("radolan.parseHeader: could not parse forecast time: ", Numeric fs "VV")]
      (stageForecast (pairs fs).reverse) := by
  intro c hc
  unfold stageForecast
  rw [find_pairs]
  simp only [M.modify_bind]
  cases hv : value fs (str "VV") with
  | none => exact ⟨hc, passed_one (numeric_none hv)⟩
  | some v =>
    exact performs_orErr (e := .forecastTime) (by rfl) (numeric_iff hw hv) (by intro _ _; rfl) _ hc

theorem performs_interval {p : Bytes} {fs : List Field} (hw : ∀ f ∈ fs, f.WF) :
    Performs p [("radolan.parseHeader: could not parse interval: ", Numeric fs "INT")]
      (stageInterval (pairs fs).reverse) := by
  intro c hc
  unfold stageInterval
  rw [find_pairs]
  cases hv : value fs (str "INT") with
  | none => exact ⟨hc, passed_one (numeric_none hv)⟩
  | some v =>
    exact performs_orErr (e := .interval) (by rfl) (numeric_iff hw hv) (by intro _ _; simp only; split <;> rfl) _ hc

theorem performs_precision {p : Bytes} {fs : List Field} (hw : ∀ f ∈ fs, f.WF) :
    Performs p [("radolan.parseHeader: could not parse precision: ", Numeric fs "E")]
      (stagePrecision (pairs fs).reverse) := by
  intro c hc
  unfold stagePrecision
  rw [find_pairs]
  cases hv : value fs (str "E") with
  | none => exact ⟨hc, passed_one (numeric_none hv)⟩
  | some v =>
    exact performs_orErr (e := .precision) (by rfl) (numeric_iff hw hv) (by intro _ _; rfl) _ hc

theorem performs_format {p : Bytes} {fs : List Field} (hw : ∀ f ∈ fs, f.WF) :
    Performs p [("radolan.parseHeader: invalid format value: ", Numeric fs "VS")]
      (stageFormat (pairs fs).reverse) := by
  intro c hc
  unfold stageFormat
  rw [find_pairs]
  cases hv : value fs (str "VS") with
  | none => exact ⟨hc, passed_one (numeric_none hv)⟩
  | some v =>
    exact performs_orErr (e := .format) (by rfl) (numeric_iff hw hv) (by intro _ _; rfl) _ hc

theorem performs_assign {p : Bytes} {t : String} {P : Prop} {e : Err} {r : Option Int × Option Int}
    (he : e.text = t) (h : (∃ x, r.2 = some x) ↔ P) : Performs p [(t, P)] (assignDims e r) := by
  unfold assignDims
  refine Performs.before (a := []) (Performs.modify (by intro _; rfl)) ?_
  intro c hc
  subst he
  cases hr : r.2 with
  | none => exact FirstFailing.here (fun hP => by obtain ⟨x, hx⟩ := h.mpr hP; rw [hr] at hx; simp at hx)
  | some x => exact ⟨hc, passed_one (h.mp ⟨x, hr⟩)⟩

theorem dxd_second {dim : Bytes} {x : Int} (h : (sscanfDxD dim).2 = some x) : ∃ y, sscanfDxD dim = (some y, some x) := by
  unfold sscanfDxD at h ⊢
  cases h1 : scanD (runes dim) with
  | none => rw [h1] at h; simp at h
  | some q =>
    obtain ⟨a, rest⟩ := q
    rw [h1] at h
    simp only at h ⊢
    split at h
    · exact ⟨a, by rw [← h]⟩
    · simp at h

theorem d3_second {dim : Bytes} {x : Int} (h : (sscanf3D3D dim).2 = some x) : ∃ y, sscanf3D3D dim = (some y, some x) := by
  unfold sscanf3D3D at h ⊢
  cases h1 : scanDw 3 (runes dim) with
  | none => rw [h1] at h; simp at h
  | some q =>
    obtain ⟨a, rest⟩ := q
    rw [h1] at h
    exact ⟨a, by rw [← h]⟩

theorem performs_dims {fs : List Field} (hw : ∀ f ∈ fs, f.WF) :
    Performs ((header fs).take 2) [
      ("radolan.parseHeader: could not parse dimensions (GP): ",
        ∀ v, value fs (str "GP") = some v → ∃ rows cols, ReadsGrid v rows cols),
      ("radolan.parseHeader: could not parse dimensions (BG): ",
        value fs (str "GP") = none → ∀ v, value fs (str "BG") = some v → ∃ rows cols, ReadsGrid3 v rows cols),
      ("radolan.parseHeader: no dimension information available",
        value fs (str "GP") = none → value fs (str "BG") = none →
          (header fs).take 2 ∈ stripProducts ∨ (header fs).take 2 ∈ volumeProducts)]
      (stageDims (pairs fs).reverse) := by
  intro c hc
  unfold stageDims
  rw [find_pairs, find_pairs]
  cases h1 : value fs (str "GP") with
  | some v =>
    have := performs_assign (p := (header fs).take 2) (e := .dimGP) (r := sscanfDxD v)
      (P := ∀ w, some v = some w → ∃ rows cols, ReadsGrid w rows cols) rfl (by
        simp only [Option.some.injEq, forall_eq']
        constructor
        · rintro ⟨x, hx⟩
          obtain ⟨y, hy⟩ := dxd_second hx
          exact ⟨y, x, sscanfDxD_iff.mp hy⟩
        · rintro ⟨y, x, h⟩
          exact ⟨x, by rw [sscanfDxD_iff.mpr h]⟩) c hc
    refine Sat.mono this ?_ ?_ id
    · rintro _ c' ⟨g1, g2⟩
      refine ⟨g1, ?_⟩
      rw [passed_cons] at g2
      rw [passed_cons, passed_cons]
      exact ⟨g2.1, by simp, passed_one (by simp)⟩
    · intro e _ h; exact FirstFailing.left h _
  | none =>
    cases h2 : value fs (str "BG") with
    | some v =>
      have := performs_assign (p := (header fs).take 2) (e := .dimBG) (r := sscanf3D3D v)
        (P := (none : Option Bytes) = none → ∀ w, some v = some w → ∃ rows cols, ReadsGrid3 w rows cols) rfl (by
          simp only [Option.some.injEq, forall_eq', forall_const]
          constructor
          · rintro ⟨x, hx⟩
            obtain ⟨y, hy⟩ := d3_second hx
            exact ⟨y, x, sscanf3D3D_iff.mp hy⟩
          · rintro ⟨y, x, h⟩
            exact ⟨x, by rw [sscanf3D3D_iff.mpr h]⟩) c hc
      refine Sat.mono this ?_ ?_ id
      · rintro _ c' ⟨g1, g2⟩
        refine ⟨g1, ?_⟩
        rw [passed_cons] at g2
        rw [passed_cons, passed_cons]
        exact ⟨by simp, g2.1, passed_one (by simp)⟩
      · intro e _ h; exact FirstFailing.later (by simp) (FirstFailing.left h _)
    | none =>
      simp only [M.get_bind]
      rw [hc]
      have hin : (∃ v, dimensionCatalog.lookup ((header fs).take 2) = some v) ↔
          ((header fs).take 2 ∈ stripProducts ∨ (header fs).take 2 ∈ volumeProducts) := by
        constructor
        · rintro ⟨v, hv⟩
          rcases lookup_dims _ _ hv with ⟨g1, _⟩ | ⟨g1, _⟩
          exacts [Or.inl g1, Or.inr g1]
        · rintro (g | g)
          · have := lookup_strip _ g
            rw [Option.map_eq_some_iff] at this
            exact ⟨_, this.choose_spec.1⟩
          · have := lookup_volume _ g
            rw [Option.map_eq_some_iff] at this
            exact ⟨_, this.choose_spec.1⟩
      cases hl : dimensionCatalog.lookup ((header fs).take 2) with
      | none =>
        refine FirstFailing.later (by simp) (FirstFailing.later (by simp) (FirstFailing.here ?_))
        intro h
        obtain ⟨v, hv⟩ := hin.mpr (by simpa using h)
        rw [hl] at hv; simp at hv
      | some v =>
        refine ⟨hc, ?_⟩
        rw [passed_cons, passed_cons]
        exact ⟨by simp, by simp, passed_one (fun _ _ => hin.mp ⟨v, hl⟩)⟩

/-! ### the level table -/

/-- the entries of the level table -/
theorem entry_iff (lv : Bytes) (i : Nat) : IsLevelText ((lv.drop (2 + 5 * i)).take 5) ↔
    ∃ v, sscanfF ((lv.drop (2 + 5 * i)).take 5) = some v := by
  unfold IsLevelText
  have hlen : ((lv.drop (2 + 5 * i)).take 5).length ≤ 5 := by rw [List.length_take]; omega
  simp only [sscanfF_iff hlen]

theorem levelLoop_checks (E : Env) (p : Bytes) (lv : Bytes) (n : Nat) : ∀ (todo i : Nat), i + todo = n →
    lv.length = 2 + 5 * n → Performs p [("radolan.parseHeader: invalid level value: ",
      ∀ j, i ≤ j → 2 + 5 * j < lv.length → IsLevelText ((lv.drop (2 + 5 * j)).take 5))] (levelLoop E lv todo i) := by
  intro todo
  induction todo with
  | zero =>
    intro i hi hlen c hc
    exact ⟨hc, passed_one (fun j h1 h2 => by omega)⟩
  | succ todo ih =>
    intro i hi hlen c hc
    unfold levelLoop
    rw [slice?_some (by omega) (by omega)]
    simp only [M.orPanic_some_bind]
    have hsl : (lv.take (i * 5 + 7)).drop (i * 5 + 2) = (lv.drop (2 + 5 * i)).take 5 := by
      rw [List.drop_take, show i * 5 + 2 = 2 + 5 * i by ring]; congr 1; omega
    rw [hsl]
    cases h : sscanfF ((lv.drop (2 + 5 * i)).take 5) with
    | none =>
      refine FirstFailing.here (fun hP => ?_)
      obtain ⟨v, hv⟩ := (entry_iff lv i).mp (hP i le_rfl (by omega))
      rw [h] at hv; simp at hv
    | some v =>
      simp only [M.orErr_some_bind, M.modify_bind]
      refine Sat.mono (ih (i + 1) (by omega) hlen _ (by exact hc)) ?_ ?_ id
      · rintro _ c' ⟨g1, g2⟩
        refine ⟨g1, passed_one ?_⟩
        rw [passed_cons] at g2
        intro j h1 h2
        by_cases e : i = j
        · subst e; exact (entry_iff lv i).mpr ⟨v, h⟩
        · exact g2.1 j (by omega) h2
      · intro e _ hf
        obtain ⟨pre, P, post, he, h1, h2⟩ := hf
        cases pre with
        | cons q pre => simp at he
        | nil =>
          simp only [List.nil_append, List.cons.injEq, Prod.mk.injEq] at he
          obtain ⟨⟨ht, rfl⟩, _⟩ := he
          rw [← ht]
          exact FirstFailing.here (fun hP => h2 (fun j hj => hP j (by omega)))

theorem performs_level (E : Env) {p : Bytes} {fs : List Field} (hw : ∀ f ∈ fs, f.WF) :
    Performs p [
      ("radolan.parseHeader: level field too short", ∀ v, value fs (str "LV") = some v → 2 ≤ v.length),
      ("radolan.parseHeader: could not parse level count: ",
        ∀ v, value fs (str "LV") = some v → ∃ n, ReadsInt (v.take 2) n),
      ("radolan.parseHeader: invalid level format: ",
        ∀ v, value fs (str "LV") = some v → ∀ n, ReadsInt (v.take 2) n → (v.length : Int) = 2 + 5 * n),
      ("radolan.parseHeader: invalid level value: ",
        ∀ v, value fs (str "LV") = some v → ∀ i, 2 + 5 * i < v.length → IsLevelText ((v.drop (2 + 5 * i)).take 5))]
      (stageLevel E (pairs fs).reverse) := by
  intro c hc
  unfold stageLevel
  rw [find_pairs]
  cases hv : value fs (str "LV") with
  | none =>
    refine ⟨hc, ?_⟩
    rw [passed_cons, passed_cons, passed_cons]
    exact ⟨by simp, by simp, by simp, passed_one (by simp)⟩
  | some v =>
    have hasc : ∀ b ∈ v.take 2, b < 128 := fun b hb => value_wf hw hv b (List.mem_of_mem_take hb)
    simp only [Option.some.injEq, forall_eq']
    by_cases hl : v.length < 2
    · rw [if_pos hl]
      exact FirstFailing.here (by omega)
    · rw [if_neg hl, slice?_some (by omega) (by omega)]
      simp only [M.orPanic_some_bind, List.drop_zero]
      cases h2 : sscanfD (v.take 2) with
      | none =>
        refine FirstFailing.later (by omega) (FirstFailing.here ?_)
        rintro ⟨n, hn⟩
        rw [sscanfD_iff.mpr hn] at h2; simp at h2
      | some cnt =>
        simp only [M.orErr_some_bind]
        have hrd := sscanfD_iff.mp h2
        have habs := sscanfD_abs h2
        have hlen : (v.take 2).length = 2 := by simp; omega
        rw [hlen] at habs
        have hwr : wrap64 (wrap64 (cnt * 5) + 2) = cnt * 5 + 2 := by
          rw [wrap64_id (x := cnt * 5) (by omega) (by omega), wrap64_id (by omega) (by omega)]
        have huniq : ∀ n, ReadsInt (v.take 2) n → n = cnt := by
          intro n hn
          have := sscanfD_iff.mpr hn
          rw [h2] at this; simpa using this.symm
        rw [hwr]
        by_cases he : (v.length : Int) = cnt * 5 + 2
        · simp only [if_neg (not_not_intro he)]
          have hm : makeOK 4 cnt = true := makeOK_iff.mpr ⟨by omega, by omega⟩
          rw [hm]
          simp only [Bool.not_true, Bool.false_eq_true, if_false, M.modify_bind]
          refine Sat.mono (levelLoop_checks E p v cnt.toNat cnt.toNat 0 (by omega) (by omega) _ (by exact hc)) ?_ ?_ id
          · rintro _ c' ⟨g1, g2⟩
            rw [passed_cons] at g2
            refine ⟨g1, ?_⟩
            rw [passed_cons, passed_cons, passed_cons]
            exact ⟨by omega, ⟨cnt, hrd⟩, fun n hn => by rw [huniq n hn]; omega,
              passed_one (fun i hi => g2.1 i (by omega) hi)⟩
          · intro e _ hf
            refine FirstFailing.later (by omega) (FirstFailing.later ⟨cnt, hrd⟩ (FirstFailing.later
              (fun n hn => by rw [huniq n hn]; omega) ?_))
            simpa using hf
        · simp only [if_pos he]
          refine FirstFailing.later (by omega) (FirstFailing.later ⟨cnt, hrd⟩ (FirstFailing.here ?_))
          intro h
          have := h cnt hrd
          omega

/-! ### the header -/

theorem header_checks (E : Env) {fs : List Field} (hw : ∀ f ∈ fs, f.WF) (data : Bytes) :
    (parseHeader E (file fs data) Composite.zero).Sat (fun _ _ => Passed (headerChecks fs))
      (fun e _ => FirstFailing (headerChecks fs) e.text) True := by
  unfold parseHeader
  rw [readDelim_file hw]
  simp only [M.orErr_some_bind]
  by_cases hl : (header fs ++ [3]).length < 22
  · rw [if_pos hl]
    simp only [List.length_append, List.length_singleton] at hl
    exact FirstFailing.here (by omega)
  · rw [if_neg hl]
    simp only [List.length_append, List.length_singleton] at hl
    have hne : fs ≠ [] := by rintro rfl; simp [header] at hl
    rw [slice?_zero_pred, List.dropLast_concat]
    simp only [M.orPanic_some_bind]
    rw [splitHeader_wf E fs hne hw]
    simp only [M.orPanic_some_bind]
    unfold stageProduct
    rw [slice?_some (by omega) (by simp; omega)]
    have htk : ((header fs ++ [3]).take 2).drop 0 = (header fs).take 2 := by
      rw [List.drop_zero]; exact List.take_append_of_le_length (by omega)
    rw [htk]
    have key := Performs.seq (performs_length (p := (header fs).take 2) hw (header fs ++ [3]))
      (Performs.seq (performs_capture (p := (header fs).take 2) (pre := header fs) (by omega))
      (Performs.seq (performs_forecast hw) (Performs.seq (performs_interval hw) (Performs.seq (performs_dims hw)
      (Performs.seq (performs_precision hw) (Performs.seq (performs_level E hw) (Performs.seq (performs_format hw)
      (k := pure data) (b := []) (R := fun _ => True) (fun c hc => ⟨trivial, passed_nil⟩))))))))
    refine Sat.mono (key _ rfl) ?_ ?_ id
    · rintro _ _ ⟨_, g⟩
      exact passed_cons.mpr ⟨by omega, g⟩
    · intro e _ g
      exact FirstFailing.later (by omega) g

/-! ### the data section -/

theorem lineOf_unique {ls : List Bytes} {l rest : Bytes} (hls : ∀ m ∈ ls, (10 : UInt8) ∉ m) (hl : (10 : UInt8) ∉ l)
    {l' : Bytes} (h : LineOf (lines ls ++ (l ++ 10 :: rest)) ls.length l') : l' = l := by
  obtain ⟨ls', rest', he, hlen, h1, h2⟩ := h
  have e1 : lines ls ++ (l ++ 10 :: rest) = lines (ls ++ [l]) ++ rest := by simp [lines]
  have e2 : lines ls' ++ l' ++ 10 :: rest' = lines (ls' ++ [l']) ++ rest' := by simp [lines]
  rw [e1, e2] at he
  have := (lines_inj (by simp [hlen]) (by
    intro m hm
    rcases List.mem_append.mp hm with h | h
    · exact hls m h
    · rw [List.mem_singleton.mp h]; exact hl) (by
    intro m hm
    rcases List.mem_append.mp hm with h | h
    · exact h1 m h
    · rw [List.mem_singleton.mp h]; exact h2) he).1
  have := (List.append_inj' this rfl).2
  simpa using this.symm

theorem lineOf_none {ls : List Bytes} {b : Bytes} (hls : ∀ m ∈ ls, (10 : UInt8) ∉ m) (hb : (10 : UInt8) ∉ b) :
    ¬ ∃ l, LineOf (lines ls ++ b) ls.length l := by
  rintro ⟨l, ls', rest', he, hlen, h1, h2⟩
  rw [List.append_assoc] at he
  have := (lines_inj hlen.symm hls h1 he).2
  exact hb (by rw [this]; simp)

theorem badOffset_decode {levels dst : List F32} {l : Bytes} (h : BadOffset l) :
    (decodeRunlength levels dst l).2 = some .invalidOffset := by
  obtain ⟨nr, more, b, rest, rfl, hb⟩ := h
  exact decode_bad hb

theorem row_checks {level : List F32} {w : Nat} {cols : Int} (hcols : cols.toNat = w) {ls : List Bytes} {b : Bytes} {c : Composite}
    (hls : ∀ m ∈ ls, (10 : UInt8) ∉ m) (hc : c.level.getD [] = level)
    (hi : ls.length < c.plainData.length) (hw : ∀ r ∈ c.plainData, r.length = w) :
    (rowRunlength ls.length b c).Sat
      (fun b' c' => (∃ l, b = l ++ 10 :: b' ∧ (10 : UInt8) ∉ l) ∧ Passed (lineChecks cols (lines ls ++ b) ls.length) ∧
        ∃ r, r.length = w ∧ c' = { c with plainData := c.plainData.set ls.length r })
      (fun e _ => FirstFailing (lineChecks cols (lines ls ++ b) ls.length) e.text) True := by
  subst hc
  unfold rowRunlength
  simp only [M.get_bind]
  cases hr : readDelim 10 b with
  | none => exact FirstFailing.here (lineOf_none hls (readDelim_none.mp hr))
  | some q =>
    obtain ⟨line, rest⟩ := q
    obtain ⟨l, rfl, rfl, hl⟩ := readDelim_some.mp hr
    simp only [M.orErr_some_bind, index?_nat, List.getElem?_eq_getElem hi, M.orPanic_some_bind, List.dropLast_concat,
      M.modify_bind]
    have hdw := hw _ (List.getElem_mem hi)
    have hex : ∃ l', LineOf (lines ls ++ (l ++ 10 :: rest)) ls.length l' :=
      ⟨l, ls, rest, by simp, rfl, hls, hl⟩
    generalize hD : c.plainData[ls.length] = dst at *
    have hlenD := decodeRunlength_length (c.level.getD []) dst l
    cases hd : decodeRunlength (c.level.getD []) dst l with
    | mk row eo =>
      rw [hd] at hlenD
      cases eo with
      | none =>
        refine ⟨⟨l, rfl, hl⟩, ?_, row, by rw [← hdw]; exact hlenD, rfl⟩
        refine passed_cons.mpr ⟨hex, passed_cons.mpr ⟨?_, passed_one ?_⟩⟩
        · intro l' h' hbad
          rw [lineOf_unique hls hl h'] at hbad
          have := badOffset_decode (levels := c.level.getD []) (dst := dst) hbad
          rw [hd] at this; simp at this
        · intro l' h' gap runs hrun
          rw [lineOf_unique hls hl h'] at hrun
          have := decode_runLine (levels := c.level.getD []) (dst := dst) hrun
          unfold Fits
          rw [hcols, ← hdw]
          by_contra hnf
          rw [if_neg hnf] at this
          obtain ⟨d, hd'⟩ := this
          rw [hd] at hd'; simp at hd'
      | some e =>
        refine FirstFailing.later hex ?_
        rcases line_cases l with hbl | ⟨gap, runs, hrun⟩ | ⟨nr, more, last, rest', hlt, hle⟩
        · rw [decode_blank hbl] at hd; simp at hd
        · have := decode_runLine (levels := c.level.getD []) (dst := dst) hrun
          split at this
          · rw [hd] at this; simp at this
          · rename_i hnf
            obtain ⟨d, hd'⟩ := this
            rw [hd] at hd'
            simp only [Prod.mk.injEq, Option.some.injEq] at hd'
            rw [hd'.2]
            refine FirstFailing.later ?_ (FirstFailing.here ?_)
            · intro l' h' hbad
              rw [lineOf_unique hls hl h'] at hbad
              have := badOffset_decode (levels := c.level.getD []) (dst := dst) hbad
              rw [hd, hd'.2] at this; simp at this
            · intro h
              have := h l ⟨ls, rest, by simp, rfl, hls, hl⟩ gap runs hrun
              unfold Fits at this
              rw [hcols, ← hdw] at this
              exact hnf this
        · have hbad : BadOffset l := ⟨nr, more, last, rest', hle, hlt⟩
          have := badOffset_decode (levels := c.level.getD []) (dst := dst) hbad
          rw [hd] at this
          simp only [Option.some.injEq] at this
          rw [this]
          exact FirstFailing.here (fun h => h l ⟨ls, rest, by simp, rfl, hls, hl⟩ hbad)

theorem rows_checks {level : List F32} {w : Nat} {cols : Int} (hcols : cols.toNat = w) : ∀ (todo : Nat) (ls : List Bytes)
    (b : Bytes) (c : Composite), (∀ m ∈ ls, (10 : UInt8) ∉ m) → c.level.getD [] = level →
    ls.length + todo = c.plainData.length → (∀ r ∈ c.plainData, r.length = w) →
    (Radolan.rowLoop rowRunlength todo ls.length b c).Sat
      (fun _ _ => Passed ((List.range' ls.length todo).flatMap (lineChecks cols (lines ls ++ b))))
      (fun e _ => FirstFailing ((List.range' ls.length todo).flatMap (lineChecks cols (lines ls ++ b))) e.text) True := by
  intro todo
  induction todo with
  | zero => intro ls b c _ _ _ _; exact passed_nil
  | succ todo ih =>
    intro ls b c hls hc hlen hw
    rw [List.range'_succ, List.flatMap_cons]
    show ((rowRunlength ls.length b >>= fun b' => Radolan.rowLoop rowRunlength todo (ls.length + 1) b') c).Sat _ _ _
    apply Sat.bind
    refine Sat.mono (row_checks hcols hls hc (by omega) hw) ?_ ?_ id
    · rintro b' c' ⟨⟨l, rfl, hl⟩, hp, r, hr, rfl⟩
      have := ih (ls ++ [l]) b' { c with plainData := c.plainData.set ls.length r } (by
        intro m hm
        rcases List.mem_append.mp hm with h | h
        · exact hls m h
        · rw [List.mem_singleton.mp h]; exact hl) hc (by simp; omega) (by
        intro x hx
        rcases List.mem_or_eq_of_mem_set hx with h1 | h1
        · exact hw x h1
        · rw [h1]; exact hr)
      have e1 : lines (ls ++ [l]) ++ b' = lines ls ++ (l ++ 10 :: b') := by simp [lines]
      rw [e1, List.length_append, List.length_singleton] at this
      exact Sat.mono this (fun _ _ h => Passed.append.mpr ⟨hp, h⟩) (fun _ _ h => FirstFailing.right hp h) id
    · intro e _ h; exact FirstFailing.left h _

theorem wrap64_eq_iff (x y : Int) : wrap64 x = wrap64 y ↔ (2 ^ 64 : Int) ∣ x - y := by
  constructor
  · intro h
    obtain ⟨a, ha⟩ := wrap64_eq x
    obtain ⟨b, hb⟩ := wrap64_eq y
    exact ⟨b - a, by omega⟩
  · rintro ⟨k, hk⟩
    obtain ⟨a, ha⟩ := wrap64_eq x
    obtain ⟨b, hb⟩ := wrap64_eq y
    have h1 := wrap64_range x
    have h2 := wrap64_range y
    omega

theorem data_checks {E : Env} {fs : List Field} {h : Composite} {len : Int} {data : Bytes}
    (hf : HeaderFields E (header fs ++ [3]) (pairs fs).reverse h) (hb : Blank h) (hdx : h.dx = h.px)
    (hl : h.dataLength = wrap64 (len - ((header fs).length + 1))) :
    (parseData data h).Sat (fun _ _ => Passed (dataChecks fs len h.py h.px data))
      (fun e _ => FirstFailing (dataChecks fs len h.py h.px data) e.text) True := by
  by_cases hz : h.px = 0 ∨ h.py = 0
  · rw [parseData_zero h data hz]
    exact FirstFailing.here (by omega)
  by_cases ha : AllocOK h
  swap
  · rw [parseData_panic h data hz ha]; trivial
  have hnz : h.py ≠ 0 ∧ h.px ≠ 0 := by omega
  have hD : DimsOK h := ⟨⟨ha.1, ha.2.1⟩, ⟨ha.2.2.1, ha.2.2.2⟩, hdx⟩
  obtain ⟨a1, a2, a3, a4⟩ := ha
  obtain ⟨cols, e1⟩ : ∃ k : Nat, h.px = k := ⟨h.px.toNat, by omega⟩
  obtain ⟨rows, e2⟩ : ∃ k : Nat, h.py = k := ⟨h.py.toNat, by omega⟩
  unfold dataChecks
  cases hLV : value fs (str "LV") with
  | none =>
    rw [if_pos rfl]
    have hlv := level_none hf hLV
    have s2 : h.dataLength = wrap64 (wrap64 (h.px * h.py) * 2) ↔ Sized fs len h.py h.px 2 := by
      unfold Sized
      obtain ⟨k, hk⟩ := wrap64_eq (h.px * h.py)
      rw [hl, wrap64_eq_iff, hk, Int.mul_comm h.py h.px]
      generalize h.px * h.py = q
      constructor
      · rintro ⟨m, hm⟩; exact ⟨m + k * 2, by omega⟩
      · rintro ⟨m, hm⟩; exact ⟨m - k * 2, by omega⟩
    have s1 : h.dataLength = wrap64 (h.px * h.py) ↔ Sized fs len h.py h.px 1 := by
      unfold Sized
      rw [hl, wrap64_eq_iff, Int.mul_comm h.py h.px]
      generalize h.px * h.py = q
      constructor
      · rintro ⟨m, hm⟩; exact ⟨m, by omega⟩
      · rintro ⟨m, hm⟩; exact ⟨m, by omega⟩
    have hpd := parseData_eq h data hb hD
    have hsh := parseData_short h data hb hD
    unfold StageV GoodRes at hpd
    have ht1 : h.px.toNat = cols := by omega
    have ht2 : h.py.toNat = rows := by omega
    by_cases t2 : Sized fs len h.py h.px 2
    · have hid : identifyEncoding h = .littleEndian := by
        unfold identifyEncoding
        rw [hlv]
        simp only [Option.isSome_none, Bool.false_eq_true, if_false]
        rw [if_pos (s2.mpr t2)]
      have hdo : dataOf h data = none ↔ ¬ 2 * (h.py * h.px) ≤ data.length := by
        unfold dataOf
        rw [hid]
        simp only [Option.map_eq_none_iff, ht1, ht2]
        rw [rowsFrom_fixed (rowLE_fixed _ _ _), e1, e2]
        have : rows * (cols * 2) ≤ data.length ↔ 2 * ((rows : Int) * cols) ≤ data.length := by
          rw [show rows * (cols * 2) = 2 * (rows * cols) by ring]; exact_mod_cast Iff.rfl
        by_cases hle : rows * (cols * 2) ≤ data.length
        · rw [if_pos hle]; simpa using this.mp hle
        · rw [if_neg hle]; simpa using fun h => hle (this.mpr h)
      cases hdat : dataOf h data with
      | none =>
        obtain ⟨c', hc'⟩ := (hsh hdat).2 hid
        rw [hc']
        exact FirstFailing.later hnz (FirstFailing.later (Or.inl t2) (FirstFailing.here (fun g => hdo.mp hdat (g t2))))
      | some q =>
        rw [hdat] at hpd
        obtain ⟨h1, _⟩ := hpd
        rw [h1]
        refine passed_cons.mpr ⟨hnz, passed_cons.mpr ⟨Or.inl t2, passed_cons.mpr ⟨fun _ => ?_, passed_one (fun g => absurd t2 g)⟩⟩⟩
        by_contra hn
        rw [hdo.mpr hn] at hdat; simp at hdat
    · by_cases t1 : Sized fs len h.py h.px 1
      · have hid : identifyEncoding h = .singleByte := by
          unfold identifyEncoding
          rw [hlv]
          simp only [Option.isSome_none, Bool.false_eq_true, if_false]
          rw [if_neg (fun g => t2 (s2.mp g)), if_pos (s1.mpr t1)]
        have hdo : dataOf h data = none ↔ ¬ h.py * h.px ≤ data.length := by
          unfold dataOf
          rw [hid]
          simp only [Option.map_eq_none_iff, ht1, ht2]
          rw [rowsFrom_fixed (rowSB_fixed _ _ _), e1, e2]
          have : rows * cols ≤ data.length ↔ (rows : Int) * cols ≤ data.length := by exact_mod_cast Iff.rfl
          by_cases hle : rows * cols ≤ data.length
          · rw [if_pos hle]; simpa using this.mp hle
          · rw [if_neg hle]; simpa using fun h => hle (this.mpr h)
        cases hdat : dataOf h data with
        | none =>
          obtain ⟨c', hc'⟩ := (hsh hdat).1 hid
          rw [hc']
          exact FirstFailing.later hnz (FirstFailing.later (Or.inr t1) (FirstFailing.later (fun g => absurd g t2)
            (FirstFailing.here (fun g => hdo.mp hdat (g t2)))))
        | some q =>
          rw [hdat] at hpd
          obtain ⟨h1, _⟩ := hpd
          rw [h1]
          refine passed_cons.mpr ⟨hnz, passed_cons.mpr ⟨Or.inr t1, passed_cons.mpr ⟨fun g => absurd g t2, passed_one (fun _ => ?_)⟩⟩⟩
          by_contra hn
          rw [hdo.mpr hn] at hdat; simp at hdat
      · have hid : identifyEncoding h = .unknown := by
          unfold identifyEncoding
          rw [hlv]
          simp only [Option.isSome_none, Bool.false_eq_true, if_false]
          rw [if_neg (fun g => t2 (s2.mp g)), if_neg (fun g => t1 (s1.mp g))]
        have : ∃ c', parseData data h = .err .unknownEncoding c' := by
          unfold parseData
          have m1 : makeOK 24 h.py = true := makeOK_iff.mpr ⟨by omega, a4⟩
          have m2 : makeOK 4 h.px = true := makeOK_iff.mpr ⟨by omega, a2⟩
          simp only [M.get_bind]
          rw [if_neg (by omega), m1, m2]
          simp only [Bool.not_true, Bool.false_eq_true, if_false, M.modify_bind, M.get_bind]
          generalize hc' : ({ h with
            plainData := List.replicate h.py.toNat (List.replicate h.px.toNat Fl.zero) } : Composite) = c'
          have hid' : identifyEncoding c' = .unknown := by subst hc'; exact hid
          rw [hid']
          exact ⟨_, rfl⟩
        obtain ⟨c', hc'⟩ := this
        rw [hc']
        refine FirstFailing.later hnz (FirstFailing.here ?_)
        rintro (g | g)
        exacts [t2 g, t1 g]
  | some v => 
    rw [if_neg (by simp)]
    obtain ⟨lv, hlv⟩ := level_some hf hLV
    have hid : identifyEncoding h = .runlength := by unfold identifyEncoding; rw [hlv]; rfl
    unfold parseData
    have m1 : makeOK 24 h.py = true := makeOK_iff.mpr ⟨by omega, a4⟩
    have m2 : makeOK 4 h.px = true := makeOK_iff.mpr ⟨by omega, a2⟩
    simp only [M.get_bind]
    rw [if_neg (by omega), m1, m2]
    simp only [Bool.not_true, Bool.false_eq_true, if_false, M.modify_bind, M.get_bind]
    generalize hc' : ({ h with
      plainData := List.replicate h.py.toNat (List.replicate h.px.toNat Fl.zero) } : Composite) = c'
    have hid' : identifyEncoding c' = .runlength := by subst hc'; exact hid
    have hpl : c'.plainData = List.replicate h.py.toNat (List.replicate h.px.toNat Fl.zero) := by subst hc'; rfl
    rw [hid']
    unfold parseWith parseRunlength
    simp only [M.get_bind]
    have := rows_checks (level := c'.level.getD []) (w := h.px.toNat) (cols := h.px) rfl h.py.toNat [] data c' (by simp) rfl
      (by rw [hpl]; simp) (by intro r hr; rw [hpl] at hr; rw [List.eq_of_mem_replicate hr]; simp)
    rw [hpl, List.length_replicate]
    rw [List.range_eq_range']
    exact Sat.mono this (fun _ _ g => passed_cons.mpr ⟨hnz, g⟩) (fun _ _ g => FirstFailing.later hnz g) id

end Radolan
