/-
C99: the exact texts of level tables. (C99_levels is in Props/Levels.)
-/
import Verif.Props.Accept

namespace Props
open Go Radolan Spec

/-- C99 (b). A file whose level field is not a table of levels is an error, whatever its other fields and its data are. -/
theorem C99_rejected (E : Env) {fs : List Field} {data v : Bytes} (hw : ∀ f ∈ fs, f.WF)
    (hv : value fs (str "LV") = some v) (hno : ¬ LevelTable v) :
    ∃ c e, NewComposite E (file fs data) = .ret c (some e) ∧ e ≠ .unknownUnit := by
  have hR : ∀ len rows cols, ¬ Readable fs len rows cols := fun _ _ _ h => hno (h.levels v hv)
  cases hr : NewComposite E (file fs data) with
  | panic =>
    obtain ⟨len, rows, cols, h, _⟩ := (C63_panics_iff E hw data).mp hr
    exact absurd h (hR _ _ _)
  | ret c e =>
    have hns : ¬ ∃ c, Success E (file fs data) c := by
      rintro ⟨c', hS⟩
      obtain ⟨l, _, hl⟩ := C99_levels hw hS hv
      exact hno ⟨l, hl⟩
    cases e with
    | none => exact absurd ⟨c, Or.inl hr⟩ hns
    | some e =>
      refine ⟨c, e, rfl, ?_⟩
      rintro rfl
      exact hns ⟨c, Or.inr hr⟩

/-- C99 (c). A table denotes one list of levels. -/
theorem C99_unique {v : Bytes} {l l' : List F32} (h : Levels v l) (h' : Levels v l') : l = l' := by
  have hlen : l.length = l'.length := by have := h.2.1; have := h'.2.1; omega
  refine List.ext_getElem? fun i => ?_
  by_cases hi : i < l.length
  · rw [List.getElem?_eq_getElem hi, List.getElem?_eq_getElem (by omega)]
    exact congrArg some (levelText_unique (h.2.2 i _ (List.getElem?_eq_getElem hi))
      (h'.2.2 i _ (List.getElem?_eq_getElem (by omega))))
  · rw [List.getElem?_eq_none (by omega), List.getElem?_eq_none (by omega)]

/-- C99 (d). A level is a finite number unless its text contains an n (of NaN or Inf) or a binary exponent. -/
theorem C99_finite {text : Bytes} {v : F32} (h : LevelText text v)
    (hno : ∀ b ∈ text, b ≠ 110 ∧ b ≠ 78 ∧ b ≠ 112) : v.isFin = true := by
  obtain ⟨ws, tok, rest, more, rfl, _, hn, _, _⟩ := h
  have hmem : ∀ c ∈ tok, UInt8.ofNat c ≠ 110 ∧ UInt8.ofNat c ≠ 78 ∧ UInt8.ofNat c ≠ 112 := fun c hc =>
    hno _ (List.mem_append_left _ (List.mem_append_right _ (List.mem_map_of_mem hc)))
  cases hn with
  | nan ha hb hc =>
    rcases ha with rfl | rfl
    · exact absurd rfl (hmem 110 (by simp)).1
    · exact absurd rfl (hmem 78 (by simp)).2.1
  | @inf s a b c ha hb hc =>
    rcases hb with rfl | rfl
    · exact absurd rfl (hmem 110 (by simp)).1
    · exact absurd rfl (hmem 78 (by simp)).2.1
  | whole s h hv => exact hv.2
  | pointed s h hv => exact hv.2
  | scientific s h hc hx hv => exact hv.2
  | hexadecimal s hp h hu hc hx hv => exact hv.2
  | binary s s' h hw hn hd he h63 => exact absurd rfl (hmem 112 (by simp)).2.2

/-- C99 (e). The decimals of the format F5.1 are levels, with the nearest float32 as value. -/
theorem C99_decimals {text : Bytes} {q : ℚ} (h : IsF51 text q) : ∃ v : F32, LevelText text v ∧ Nearest32 v q := by
  obtain ⟨v, h1, h2, h3⟩ := levelText_F51 h
  refine ⟨v, h1, h2, fun g hg => ?_⟩
  rw [h3]
  exact rnd_nearest f32 g.rnd_val

/-! ### other texts that are levels, and texts that are not -/

theorem level_of {text : Bytes} {v : F32} (hlen : text.length ≤ 5) (h : sscanfF text = some v) : LevelText text v :=
  (sscanfF_iff hlen v).mp h

theorem no_level {text : Bytes} (hlen : text.length ≤ 5) (h : sscanfF text = none) : ¬ IsLevelText text := by
  rintro ⟨v, hv⟩
  rw [(sscanfF_iff hlen v).mpr hv] at h
  simp at h

theorem level_val {text : Bytes} {q : ℚ} (hlen : text.length ≤ 5) (h : (sscanfF text).map Fl.val = some q) :
    ∃ v : F32, LevelText text v ∧ v.val = q := by
  rw [Option.map_eq_some_iff] at h
  obtain ⟨v, hv, hq⟩ := h
  exact ⟨v, level_of hlen hv, hq⟩

example : LevelText (str "  nan") .nan := level_of (by decide) (by decide +kernel)
example : LevelText (str "-inf ") (.inf true) := level_of (by decide) (by decide +kernel)
example : LevelText (str "9p200") (.inf false) := level_of (by decide) (by decide +kernel)
example : ∃ v : F32, LevelText (str "0x1p4") v ∧ v.val = 16 := level_val (by decide) (by decide +kernel)
example : ∃ v : F32, LevelText (str "1_0.5") v ∧ v.val = 21 / 2 := level_val (by decide) (by decide +kernel)
example : ∃ v : F32, LevelText (str "12abc") v ∧ v.val = 12 := level_val (by decide) (by decide +kernel)
example : ∃ v : F32, LevelText (str "1 2.0") v ∧ v.val = 1 := level_val (by decide) (by decide +kernel)
example : ¬ IsLevelText (str " 0x1p") := no_level (by decide) (by decide +kernel)
example : ¬ IsLevelText (str "1__0 ") := no_level (by decide) (by decide +kernel)
example : ¬ IsLevelText (str "9e39 ") := no_level (by decide) (by decide +kernel)
example : ¬ IsLevelText (str "12e  ") := no_level (by decide) (by decide +kernel)
example : ¬ IsLevelText (str "-nan ") := no_level (by decide) (by decide +kernel)
example : ¬ IsLevelText (str "     ") := no_level (by decide) (by decide +kernel)
example : ¬ IsLevelText (str "1p   ") := no_level (by decide) (by decide +kernel)

/-- a table with NaN, an infinity and a number with something behind it. (Capital letters begin a new field.) -/
def oddLevels : Bytes := str " 3  nan +inf 1.5x"

theorem oddLevels_ok : ∃ f : F32, Levels oddLevels [.nan, .inf false, f] ∧ f.val = 3 / 2 := by
  have h : (levelOf env0 oddLevels).map (List.map fun f => if f = .nan then (0, 0) else if f = .inf false then (1, 0)
      else (2, f.val)) = some [(0, 0), (1, 0), (2, 3 / 2)] := by decide +kernel
  rw [Option.map_eq_some_iff] at h
  obtain ⟨l, hl, h⟩ := h
  have hL := (levelOf_iff env0).mp hl
  have h0 := congrArg List.length h
  simp only [List.length_map, List.length_cons, List.length_nil] at h0
  obtain ⟨a, b, c, rfl⟩ := List.length_eq_three.mp h0
  simp only [List.map_cons, List.map_nil, List.cons.injEq, and_true] at h
  obtain ⟨h1, h2, h3⟩ := h
  have ha : a = .nan := by
    by_contra ha
    rw [if_neg ha] at h1
    split at h1 <;> simp at h1
  have hb : b = .inf false := by
    by_contra hb
    rw [if_neg hb] at h2
    split at h2 <;> simp at h2
  have hc : c.val = 3 / 2 := by
    split at h3
    · simp at h3
    · split at h3
      · simp at h3
      · simpa using h3
  subst ha hb
  exact ⟨c, hL, hc⟩

/-- a header with that table -/
def fieldsOdd : List Field :=
  [⟨str "PC", str "021310100000217"⟩, ⟨str "BY", str "  1"⟩, ⟨str "LV", oddLevels⟩, ⟨str "BG", str "002004"⟩]

theorem fieldsOdd_readable : Readable fieldsOdd 1 2 4 where
  levels := by
    rw [show value fieldsOdd (str "LV") = some oddLevels by decide]
    intro v hv
    simp only [Option.some.injEq] at hv
    subst hv
    obtain ⟨f, hf, _⟩ := oddLevels_ok
    exact ⟨_, hf⟩
  long := by decide
  stamped := ⟨⟨2017, 2, 2, 13, 10⟩, by decide, by decide, by decide, by decide, by decide, Or.inl (by decide)⟩
  length := ⟨str "  1", by decide, [], reads_blank (d := [1]) (s := .none) 2 (by decide) (by decide) (by decide)
    (by simp) (by decide) (by decide)⟩
  numbers := by
    intro k hk v hv
    have : ∀ k ∈ [str "VV", str "INT", str "E", str "VS"], value fieldsOdd k = none := by decide
    rw [this k hk] at hv; simp at hv
  grid := by
    unfold Declares
    rw [show value fieldsOdd (str "GP") = none by decide, show value fieldsOdd (str "BG") = some (str "002004") by decide]
    exact ⟨str "004", [], ⟨[], .none, [0, 0, 2], by decide, blank_replicate 0, by decide, by decide, by decide,
        Or.inl (by decide), by decide⟩,
      ⟨[], .none, [0, 0, 4], by decide, blank_replicate 0, by decide, by decide, by decide, Or.inl (by decide), by decide⟩⟩

/-- files with that header are read; the levels of the composite are NaN, infinity and 1.5 -/
example : ∃ (c : Composite) (f : F32), Success env0 (file fieldsOdd [10, 10]) c ∧ c.level = some [.nan, .inf false, f] ∧
    f.val = 3 / 2 := by
  have hacc : ∃ c, Success env0 (file fieldsOdd [10, 10]) c := by
    rw [C63_accepted_iff env0 (by decide) (by decide) (by decide)]
    refine ⟨1, 2, 4, fieldsOdd_readable, by unfold Fit; decide, ?_⟩
    unfold Complete
    rw [if_neg (by decide)]
    refine ⟨[[], []], [], by decide, by decide, ?_⟩
    intro l hl
    have : l = [] := by simpa using hl
    subst this
    exact ⟨by simp, Or.inl (Or.inl rfl)⟩
  obtain ⟨c, hc⟩ := hacc
  obtain ⟨f, hf, hq⟩ := oddLevels_ok
  obtain ⟨l, h1, h2⟩ := C99_levels (by decide) hc (show value fieldsOdd (str "LV") = some oddLevels by decide)
  rw [C99_unique h2 hf] at h1
  exact ⟨c, f, hc, h1, hq⟩

/-- a header whose second level is not a number is an error -/
example (data : Bytes) : ∃ c e, NewComposite env0 (file [⟨str "PC", str "021310100000217"⟩, ⟨str "LV", str " 2  1.0  n.a"⟩] data) =
    .ret c (some e) ∧ e ≠ .unknownUnit := by
  refine C99_rejected env0 (by decide) (v := str " 2  1.0  n.a") (by decide) ?_
  rintro ⟨l, h1, h2, h3⟩
  have hl : l.length = 2 := by
    have : (str " 2  1.0  n.a").length = 12 := by decide
    omega
  have hx := h3 1 l[1] (List.getElem?_eq_getElem (by omega))
  exact no_level (text := str "  n.a") (by decide) (by decide +kernel) ⟨_, hx⟩

end Props
