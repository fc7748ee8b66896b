/-
C81: how large the picture of an accepted file can be.
-/
import Verif.Props.Picture

namespace Props
open Go Radolan Spec

/-! ### at most one pixel per byte -/

theorem headerOf_shorter {E : Env} {input rest : Bytes} {h : Composite} (hh : headerOf E input = some (h, rest)) :
    rest.length + 22 ≤ input.length := by
  unfold headerOf at hh
  cases h1 : readDelim 3 input with
  | none => rw [h1] at hh; simp at hh
  | some q =>
    obtain ⟨l, r⟩ := q
    rw [h1] at hh
    simp only at hh
    split at hh
    · simp at hh
    · rename_i hl
      split at hh
      · simp at hh
      · simp only [Option.map_eq_some_iff, Prod.mk.injEq] at hh
        obtain ⟨_, _, _, rfl⟩ := hh
        obtain ⟨p, rfl, rfl, _⟩ := readDelim_some.mp h1
        simp at hl ⊢
        omega

theorem lines_atLeast (ls : List Bytes) : ls.length ≤ (lines ls).length := by
  induction ls with
  | nil => simp
  | cons l ls ih =>
    have : lines (l :: ls) = l ++ [10] ++ lines ls := rfl
    rw [this]
    simp only [List.length_append, List.length_cons, List.length_nil]
    omega

/-- C81 (a). Whatever the input: an accepted file without levels has at least one byte per pixel of its picture besides
the header, one with levels at least one byte per row. -/
theorem C81_picture_size {E : Env} {input : Bytes} {c : Composite} (hS : Success E input c) :
    (c.level = none → c.px * c.py + 22 ≤ input.length) ∧ c.py + 22 ≤ input.length := by
  obtain ⟨h, rest, rows, rest', hh, ha, hd, rfl⟩ := parsed_iff.mp hS
  have hl := headerOf_shorter hh
  obtain ⟨c1, c2⟩ := consumed_fixed ha hd
  obtain ⟨a1, _, a3, _⟩ := id ha
  have e1 : (finish E h rows).px = h.px := rfl
  have e2 : (finish E h rows).py = h.py := rfl
  have e3 : (finish E h rows).level = h.level := rfl
  rw [e1, e2, e3]
  have hpx : 1 ≤ h.px := by omega
  have hpy : 1 ≤ h.py := by omega
  have hle : h.py ≤ h.px * h.py := by nlinarith
  unfold dataOf at hd
  cases he : identifyEncoding h with
  | unknown => rw [he] at hd; simp at hd
  | singleByte => have := c1 he; exact ⟨fun _ => by omega, by omega⟩
  | littleEndian => have := c2 he; exact ⟨fun _ => by omega, by omega⟩
  | runlength =>
    constructor
    · intro hn
      exfalso
      unfold identifyEncoding at he
      rw [hn] at he
      simp only [Option.isSome_none, Bool.false_eq_true, if_false] at he
      split at he <;> (try split at he) <;> simp at he
    · rw [he] at hd
      obtain ⟨ls, g1, g2, _⟩ := rowsRL_iff.mp hd
      have := lines_atLeast ls
      have h3 := congrArg List.length g2
      rw [List.length_append] at h3
      omega

/-- a concrete case: the sample file of 58 bytes has six pixels -/
example {c : Composite} (hS : Success env0 (file fieldsRX [10, 20, 30, 40, 250, 60, 99]) c) (h : c.level = none) :
    c.px * c.py ≤ (file fieldsRX [10, 20, 30, 40, 250, 60, 99]).length - 22 := by
  have := (C81_picture_size hS).1 h
  omega

/-! ### with levels the width is for free -/

/-- the fields of a file with a table of levels without entries and a grid of any size -/
def wideFields (rows cols : Nat) : List Field :=
  [⟨str "RX", str "021310100000217"⟩, ⟨str "BY", str " 99"⟩, ⟨str "LV", str " 0"⟩,
   ⟨str "GP", justified 4 rows ++ str "x" ++ justified 4 cols⟩]

/-- the file: every line is empty -/
def wideFile (rows cols : Nat) : Bytes := file (wideFields rows cols) (List.replicate rows 10)

theorem justified_le {w n : Nat} (hw : w ≤ 19) (h : n < 10 ^ 19) : (justified w n).length ≤ 19 := by
  have := nat_length h
  simp [justified]; omega

theorem wideFields_value (rows cols : Nat) :
    value (wideFields rows cols) (str "BY") = some (str " 99") ∧ value (wideFields rows cols) (str "LV") = some (str " 0") ∧
    value (wideFields rows cols) (str "GP") = some (justified 4 rows ++ str "x" ++ justified 4 cols) ∧
    ∀ k ∈ [str "VV", str "INT", str "E", str "VS"], value (wideFields rows cols) k = none := by
  unfold wideFields
  refine ⟨?_, ?_, ?_, ?_⟩
  · simp +decide only [value, if_true, if_false]
  · simp +decide only [value, if_true, if_false]
  · simp +decide only [value, if_true, if_false]
  · intro k hk
    simp only [List.mem_cons, List.not_mem_nil, or_false] at hk
    rcases hk with rfl | rfl | rfl | rfl <;> simp +decide only [value, if_false]

theorem wideFields_wf {rows cols : Nat} (hr : rows < 2 ^ 63) (hc : cols < 2 ^ 63) : ∀ f ∈ wideFields rows cols, f.WF := by
  intro g hg
  simp only [wideFields, List.mem_cons, List.not_mem_nil, or_false] at hg
  rcases hg with rfl | rfl | rfl | rfl
  · decide
  · decide
  · decide
  · refine wf_of_plain (by decide) (by simp [str]) ?_
    intro b hb
    simp only [List.mem_append] at hb
    rcases hb with (hb | hb) | hb
    · exact (plain_numText (justified_numText _ _ hr)).2 b hb
    · have : ∀ b ∈ str "x", Plain b := by decide
      exact this b hb
    · exact (plain_numText (justified_numText _ _ hc)).2 b hb

theorem wideLines (rows : Nat) : List.replicate rows (10 : UInt8) = lines (List.replicate rows []) := by
  induction rows with
  | zero => rfl
  | succ n ih =>
    rw [List.replicate_succ, List.replicate_succ, ih]; rfl

theorem wideFields_length {rows cols : Nat} (hr : rows < 10 ^ 19) (hc : cols < 10 ^ 19) :
    21 ≤ (header (wideFields rows cols)).length ∧ (header (wideFields rows cols)).length ≤ 76 := by
  have h1 := justified_le (w := 4) (by decide) hr
  have h2 := justified_le (w := 4) (by decide) hc
  simp only [wideFields, header, List.length_append, List.length_nil]
  have a1 : (str "RX").length = 2 := by decide
  have a2 : (str "021310100000217").length = 15 := by decide
  have a3 : (str "BY").length = 2 := by decide
  have a4 : (str " 99").length = 3 := by decide
  have a5 : (str "LV").length = 2 := by decide
  have a6 : (str " 0").length = 2 := by decide
  have a7 : (str "GP").length = 2 := by decide
  have a8 : (str "x").length = 1 := by decide
  rw [a1, a2, a3, a4, a5, a6, a7, a8]
  omega

/-- C81 (b). A finding: with levels the width of the picture is not bounded by the file. For every number of rows and
every width the runtime can allocate at all (up to 2^46 pixels) a file of at most 80 bytes plus one byte per row is
accepted, with a picture of that size. -/
theorem C81_wide_picture (E : Env) {rows cols : Nat} (hr : 1 ≤ rows) (hc : 1 ≤ cols) (hr' : rows * 24 ≤ 2 ^ 48)
    (hc' : cols * 4 ≤ 2 ^ 48) :
    ∃ input : Bytes, input.length ≤ rows + 80 ∧ ∃ c, Success E input c ∧ c.dx = cols ∧ c.dy = rows ∧ c.px = cols ∧ c.py = rows ∧
      c.level = some [] := by
  obtain ⟨v1, v2, v3, v4⟩ := wideFields_value rows cols
  have hw := wideFields_wf (rows := rows) (cols := cols) (by omega) (by omega)
  obtain ⟨l1, l2⟩ := wideFields_length (rows := rows) (cols := cols) (by omega) (by omega)
  have hpl : LevelTable (str " 0" ++ [].flatten) := levelTable_F51 (by decide)
    ⟨1, .none, [0], by decide, by decide, by decide, by decide, by decide, by decide⟩ .nil
  have hR : Readable (wideFields rows cols) 99 rows cols := by
    have n1 := justified_numText 4 rows (by omega)
    have n2 := justified_numText 4 cols (by omega)
    refine ⟨by omega, ⟨⟨2017, 2, 2, 13, 10⟩, by decide, by decide, by decide, rfl, rfl, Or.inl rfl⟩,
      ⟨_, v1, [], reads_blank (d := [9, 9]) (s := .none) 1 (by decide) (by decide) (by decide) (by simp) (by decide) (by decide)⟩,
      ?_, ?_, by intro v hv; rw [v2] at hv; simp only [Option.some.injEq] at hv; subst hv; exact hpl⟩
    · intro k hk v hv
      rw [v4 k hk] at hv; simp at hv
    · unfold Declares
      rw [v3]
      obtain ⟨b, s, ds, e, q1, q2, q3, q4, q5⟩ := n1
      obtain ⟨r2, hn2⟩ := isInt_reads n2
      refine ⟨justified 4 cols, r2, ⟨List.replicate b 32, s, ds, ?_, ?_, q1, q2, ?_, q3, q4, q5⟩, hn2⟩
      · rw [e]; simp [str]
      · exact blank_replicate b
      · intro x hx
        simp at hx; subst hx; unfold IsDigit; decide
  have hacc : ∃ c, Success E (wideFile rows cols) c := by
    unfold wideFile
    rw [C63_accepted_iff E hw (by simp; omega) (by omega)]
    refine ⟨99, rows, cols, hR, by unfold Fit; omega, ?_⟩
    unfold Complete
    rw [if_neg (by rw [v2]; simp)]
    refine ⟨List.replicate rows [], [], by rw [wideLines]; simp, by simp, ?_⟩
    intro l hl
    rw [List.eq_of_mem_replicate hl]
    exact ⟨by simp, Or.inl (Or.inl rfl)⟩
  obtain ⟨c, hS⟩ := hacc
  have hg : IsGrid (justified 4 rows ++ str "x" ++ justified 4 cols) rows cols :=
    ⟨_, _, [], by simp [str], justified_numText 4 _ (by omega), justified_numText 4 _ (by omega), by simp, by simp⟩
  obtain ⟨d1, d2, d3, d4⟩ := (C24_dimensions hw hS).1 _ _ _ v3 hg
  refine ⟨wideFile rows cols, ?_, c, hS, d2, d1, d4, d3, ?_⟩
  · unfold wideFile file
    simp only [List.length_append, List.length_cons, List.length_nil, List.length_replicate]
    omega
  · obtain ⟨l, g1, g2, _⟩ := (C27_levels hw hS).1 (str " 0") [] [] (by rw [v2]; rfl) (by decide)
      ⟨1, .none, [0], by decide, by decide, by decide, by decide, by decide, by decide⟩ .nil
    rw [g1, List.length_eq_zero_iff.mp g2]

/-- a hundred bytes for a picture of one row with 2^46 pixels -/
example (E : Env) : ∃ input : Bytes, input.length ≤ 81 ∧ ∃ c, Success E input c ∧ c.dx = 2 ^ 46 := by
  obtain ⟨i, h1, c, h2, h3, _⟩ := C81_wide_picture E (rows := 1) (cols := 2 ^ 46) (by decide) (by decide) (by decide) (by decide)
  exact ⟨i, h1, c, h2, by rw [h3]; norm_num⟩

end Props
