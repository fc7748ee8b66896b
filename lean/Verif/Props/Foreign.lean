/-
C76: text beyond ASCII in a header.
-/
import Verif.Props.Robust

namespace Props
open Go Radolan Spec

/-- C76. Any text in the fields with unknown keys: two headers with the same product label and date and the same values of
the known keys, each announcing the length of its own header plus the same amount of data, give the same result with every
data section. Whatever bytes the values of the other fields contain, UTF-8 or Latin-1 or neither, accented capitals
included, they do not matter. -/
theorem C76_any_text (E : Env) {fs fs' : List Field} (hw : ∀ f ∈ fs, f.Text) (hw' : ∀ f ∈ fs', f.Text)
    (hl : 21 ≤ (header fs).length) (hl' : 21 ≤ (header fs').length)
    (hp : (header fs).take 8 = (header fs').take 8)
    (hq : ((header fs).take 17).drop 13 = ((header fs').take 17).drop 13)
    (hv : ∀ k ∈ knownKeys, k ≠ str "BY" → value fs k = value fs' k)
    {v v' : Bytes} {n n' : Int} (hb : value fs (str "BY") = some v) (hb' : value fs' (str "BY") = some v')
    (hn : IsInt v n) (hn' : IsInt v' n') (he : n - (header fs).length = n' - (header fs').length) (data : Bytes) :
    NewComposite E (file fs data) = NewComposite E (file fs' data) :=
  newComposite_congr E (parseHeader_known E hw hw' data hl hl' hp hq hv
    (stageLength_same hb hb' (sscanfD_isInt hn) (sscanfD_isInt hn') he))

/-- the field with a question mark for every byte of an unevaluated value that is not ASCII -/
def questioned (f : Field) : Field :=
  if f.key ∈ knownKeys then f else ⟨f.key, f.val.map fun b => if b < 128 then b else 63⟩

theorem questioned_key (f : Field) : (questioned f).key = f.key := by unfold questioned; split <;> rfl

theorem questioned_length (f : Field) : (questioned f).val.length = f.val.length := by
  unfold questioned; split <;> simp

theorem questioned_wf {f : Field} (h : f.Text) : (questioned f).WF := by
  obtain ⟨h1, h2, h3, h4, h5, h6⟩ := h
  unfold questioned
  split
  · rename_i hk
    exact ⟨h1, h2, h3, fun b hb => ⟨h6 hk b hb, h4 b hb⟩⟩
  · refine ⟨h1, h2, by simpa using h3, ?_⟩
    intro b hb
    simp only [List.mem_map] at hb
    obtain ⟨x, hx, rfl⟩ := hb
    split
    · rename_i hlt; exact ⟨hlt, h4 x hx⟩
    · decide

theorem questioned_value (fs : List Field) {k : Bytes} (hk : k ∈ knownKeys) :
    value (fs.map questioned) k = value fs k := by
  induction fs with
  | nil => rfl
  | cons f fs ih =>
    simp only [List.map_cons, value, ih, questioned_key]
    cases value fs k with
    | some v => rfl
    | none =>
      by_cases e : f.key = k
      · simp only [e, if_true]
        unfold questioned
        rw [if_pos (e ▸ hk)]
      · simp [e]

theorem questioned_header_length (fs : List Field) : (header (fs.map questioned)).length = (header fs).length := by
  induction fs with
  | nil => rfl
  | cons f fs ih => simp only [List.map_cons, header, List.length_append, ih, questioned_key, questioned_length]

/-- C76. A header with any text in its unknown fields is parsed exactly as the plain ASCII header with a question mark for
every byte beyond ASCII, to the same composite or the same error. So all that is proved of ASCII headers holds for it. -/
theorem C76_questioned (E : Env) {f : Field} {fs : List Field} (hf : f.WF) (h17 : 17 ≤ (f.key ++ f.val).length)
    (hw : ∀ g ∈ fs, g.Text) (hl : 21 ≤ (header (f :: fs)).length) (data : Bytes) :
    (∀ g ∈ f :: fs.map questioned, g.WF) ∧
    NewComposite E (file (f :: fs) data) = NewComposite E (file (f :: fs.map questioned) data) := by
  have hlen : (header (f :: fs.map questioned)).length = (header (f :: fs)).length := by
    simp only [header, List.length_append, questioned_header_length]
  have htk : ∀ (l : List Field) (m : Nat), m ≤ 17 → (header (f :: l)).take m = (f.key ++ f.val).take m := by
    intro l m hm
    show ((f.key ++ f.val) ++ header l).take m = _
    rw [List.take_append_of_le_length (by omega)]
  have hw' : ∀ g ∈ f :: fs.map questioned, g.WF := by
    intro g hg
    rcases List.mem_cons.mp hg with rfl | hg
    · exact hf
    · obtain ⟨x, hx, rfl⟩ := List.mem_map.mp hg
      exact questioned_wf (hw x hx)
  have hval : ∀ k ∈ knownKeys, value (f :: fs) k = value (f :: fs.map questioned) k := by
    intro k hk
    simp only [value, questioned_value fs hk]
  refine ⟨hw', newComposite_congr E (parseHeader_known E ?_ (fun g hg => WF.text (hw' g hg)) data hl (by omega)
    (by rw [htk _ 8 (by omega), htk _ 8 (by omega)]) (by rw [htk _ 17 (by omega), htk _ 17 (by omega)])
    (fun k hk _ => hval k hk) ?_)⟩
  · intro g hg
    rcases List.mem_cons.mp hg with rfl | hg
    · exact WF.text hf
    · exact hw g hg
  · intro s s' h1 h2
    unfold stageLength
    rw [h1, h2, hval _ (by decide)]
    simp only [List.length_append, hlen]

/-- the sample with a message in UTF-8 ("Übung für Ärzte") in place of a list of stations -/
example (data : Bytes) :
    NewComposite env0 (str "RX021310100000217BY 72VS 3INT 5PR E+00GP 2x 3MS<" ++ [0xC3, 0x9C] ++ str "bung f" ++ [0xC3, 0xBC] ++
      str "r " ++ [0xC3, 0x84] ++ str "rzte>" ++ [3] ++ data) =
    NewComposite env0 (str "RX021310100000217BY 72VS 3INT 5PR E+00GP 2x 3MS<??bung f??r ??rzte>" ++ [3] ++ data) := by
  have := (C76_questioned env0 (f := ⟨str "RX", str "021310100000217"⟩)
    (fs := [⟨str "BY", str " 72"⟩, ⟨str "VS", str " 3"⟩, ⟨str "INT", str " 5"⟩, ⟨str "PR", str " "⟩, ⟨str "E", str "+00"⟩,
      ⟨str "GP", str " 2x 3"⟩, ⟨str "MS", str "<" ++ [0xC3, 0x9C] ++ str "bung f" ++ [0xC3, 0xBC] ++ str "r " ++ [0xC3, 0x84] ++
        str "rzte>"⟩]) (by decide) (by decide) (by decide) (by decide) data).2
  exact this

/-! ### splitting -/

/-- C76. Values in UTF-8 without capital letters, or in any other encoding, are kept: a header is split into exactly the
values it was made of, unless one of them contains an upper-case letter in UTF-8. -/
theorem C76_split_text (E : Env) (hE : E.isUpperNA 0xFFFD = false) (fs : List Field) (hne : fs ≠ [])
    (hw : ∀ f ∈ fs, f.WF8 E.isUpperNA) :
    ∃ sec, splitHeader E (header fs) = some sec ∧ (∀ k, sec.find k = value fs k) ∧
      sec.length = fs.length ∧ (∀ k v, (k, v) ∈ sec ↔ ⟨k, v⟩ ∈ fs) := by
  refine ⟨_, splitHeader_ok E fs hne (fun f hf => ⟨(hw f hf).1, (hw f hf).2.1, calm_steps E hE (hw f hf).2.2.1 (hw f hf).2.2.2⟩),
    find_pairs fs, by simp [pairs], ?_⟩
  intro k v
  simp only [pairs, List.mem_reverse, List.mem_map, Prod.mk.injEq]
  constructor
  · rintro ⟨f, hf, rfl, rfl⟩; exact hf
  · intro h; exact ⟨_, h, rfl, rfl⟩

/-- the letter Ü, U+00DC -/
def envU : Env := { env0 with isUpperNA := fun cp => cp == 0xDC }

/-- lower-case text in UTF-8, in Latin-1, and in no encoding at all -/
example : ∃ sec, splitHeader envU (str "RX" ++ str "0213" ++ str "MS" ++ (str "<f" ++ [0xC3, 0xBC] ++ str "r, f" ++ [0xFC] ++
      str "r, " ++ [0xC3, 0xE4, 0xFF, 0x9C, 0xC1, 0x81] ++ str ">") ++ str "BY" ++ str " 72") = some sec ∧
    sec.find (str "MS") = some (str "<f" ++ [0xC3, 0xBC] ++ str "r, f" ++ [0xFC] ++ str "r, " ++
      [0xC3, 0xE4, 0xFF, 0x9C, 0xC1, 0x81] ++ str ">") ∧ sec.find (str "BY") = some (str " 72") := by
  have hcalm : ∀ v : Bytes, (∀ b ∈ v, ¬ upper b ∧ b ≠ 3) → (¬ [0xC3, 0x9C] <:+: v) → (∀ b ∈ v.getLast?, b < 128) →
      Calm envU.isUpperNA v := by
    intro v h1 h2 h3
    refine ⟨h1, ?_, h3⟩
    intro cp _ _ hu
    have : cp = 0xDC := by simpa [envU] using hu
    subst this
    exact h2
  obtain ⟨sec, h, hv, _⟩ := C76_split_text envU rfl [⟨str "RX", str "0213"⟩,
    ⟨str "MS", str "<f" ++ [0xC3, 0xBC] ++ str "r, f" ++ [0xFC] ++ str "r, " ++ [0xC3, 0xE4, 0xFF, 0x9C, 0xC1, 0x81] ++ str ">"⟩,
    ⟨str "BY", str " 72"⟩] (by decide) (by
      intro f hf
      simp only [List.mem_cons, List.not_mem_nil, or_false] at hf
      rcases hf with rfl | rfl | rfl
      · exact ⟨by decide, by decide, by decide, hcalm _ (by decide) (by decide) (by decide)⟩
      · exact ⟨by decide, by decide, by decide, hcalm _ (by decide) (by decide) (by decide)⟩
      · exact ⟨by decide, by decide, by decide, hcalm _ (by decide) (by decide) (by decide)⟩)
  refine ⟨sec, ?_, by rw [hv]; decide, by rw [hv]; decide⟩
  have : header [⟨str "RX", str "0213"⟩,
    ⟨str "MS", str "<f" ++ [0xC3, 0xBC] ++ str "r, f" ++ [0xFC] ++ str "r, " ++ [0xC3, 0xE4, 0xFF, 0x9C, 0xC1, 0x81] ++ str ">"⟩,
    ⟨str "BY", str " 72"⟩] = (str "RX" ++ str "0213" ++ str "MS" ++ (str "<f" ++ [0xC3, 0xBC] ++ str "r, f" ++ [0xFC] ++
      str "r, " ++ [0xC3, 0xE4, 0xFF, 0x9C, 0xC1, 0x81] ++ str ">") ++ str "BY" ++ str " 72") := by decide
  rw [← this]; exact h

/-- a capital letter in UTF-8 cuts the value -/
example : (splitHeader envU (str "RX0213MS<" ++ [0xC3, 0x9C] ++ str "bung>BY 72")).map
    (fun sec => (sec.find (str "MS"), sec.find [0xC3], sec.find (str "BY"))) =
    some (some (str "<"), some (str "bung>"), some (str " 72")) := by decide +kernel

end Props
