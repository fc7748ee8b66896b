/-
C27: level tables.
-/
import Verif.Lemmas.LevelTable
import Verif.Props.Header

namespace Props
open Go Radolan Spec

/-- `v` is the float32 nearest to `q`: finite, and no finite float32 is closer -/
def Nearest32 (v : F32) (q : ℚ) : Prop :=
  v.isFin = true ∧ ∀ g : F32, g.isFin = true → |v.val - q| ≤ |g.val - q|

theorem levelVals_eq (E : Env) {entries : List Bytes} {qs : List ℚ} (h : List.Forall₂ IsF51 entries qs) :
    ∃ l, levelVals E entries.length entries.flatten = some l ∧ List.Forall₂ Nearest32 l qs := by
  induction h with
  | nil => exact ⟨[], rfl, .nil⟩
  | @cons e q es qs he _ ih =>
    obtain ⟨l, hl, hn⟩ := ih
    obtain ⟨v, h1, h2, h3⟩ := sscanfF_F51 he
    have hlen : e.length = 5 := by obtain ⟨_, _, _, _, rfl, hx, _⟩ := he; exact hx
    refine ⟨v :: l, ?_, .cons ⟨h2, ?_⟩ hn⟩
    · simp only [List.length_cons, List.flatten_cons, levelVals]
      rw [List.take_append_of_le_length (by omega), List.take_of_length_le (by omega), h1,
        List.drop_append_of_le_length (by omega), List.drop_of_length_le (by omega), List.nil_append, hl]
      rfl
    · intro g hg
      rw [h3]
      exact rnd_nearest f32 g.rnd_val

theorem flatten_length {entries : List Bytes} {qs : List ℚ} (h : List.Forall₂ IsF51 entries qs) :
    entries.flatten.length = entries.length * 5 := by
  induction h with
  | nil => rfl
  | @cons e q es qs he _ ih =>
    have hlen : e.length = 5 := by obtain ⟨_, _, _, _, rfl, hx, _⟩ := he; exact hx
    simp only [List.flatten_cons, List.length_append, List.length_cons, ih]; omega

/-- C99 (a). The levels of a composite that was read from a file with level field are those of the table in the field. -/
theorem C99_levels {E : Env} {fs : List Field} {data v : Bytes} {c : Composite} (hw : ∀ f ∈ fs, f.WF)
    (hS : Success E (file fs data) c) (hv : value fs (str "LV") = some v) : ∃ l, c.level = some l ∧ Levels v l := by
  obtain ⟨h, rows, rest', hh, ha, hd, rfl, hf, _⟩ := success_fields hw hS
  have h1 := hf.level
  unfold levelsOf at h1
  rw [find_pairs, hv] at h1
  simp only [Option.map_eq_some_iff] at h1
  obtain ⟨l, hl, he⟩ := h1
  exact ⟨l, he.symm, (levelOf_iff E).mp hl⟩

/-- C27. A level table in Fortran format I2,nF5.1 is parsed into the announced number of levels, the i-th level
being the float32 nearest to the i-th decimal; a header whose announced count does not fit the length of the
field is rejected; without level field there is no table. -/
theorem C27_levels {E : Env} {fs : List Field} {data : Bytes} {c : Composite} (hw : ∀ f ∈ fs, f.WF)
    (hS : Success E (file fs data) c) :
    (∀ (cnt : Bytes) (entries : List Bytes) (qs : List ℚ), value fs (str "LV") = some (cnt ++ entries.flatten) →
      cnt.length = 2 → NumText cnt entries.length → List.Forall₂ IsF51 entries qs →
      ∃ l, c.level = some l ∧ l.length = entries.length ∧ List.Forall₂ Nearest32 l qs) ∧
    (∀ v n, value fs (str "LV") = some v → IsInt (v.take 2) n → (v.length : Int) = 5 * n + 2) ∧
    (value fs (str "LV") = none → c.level = none) := by
  obtain ⟨h, rows, rest', hh, ha, hd, rfl, hf, _⟩ := success_fields hw hS
  have h1 := hf.level
  unfold levelsOf at h1
  rw [find_pairs] at h1
  have e1 : (finish E h rows).level = h.level := rfl
  rw [e1]
  have fits : ∀ v n, value fs (str "LV") = some v → IsInt (v.take 2) n → (v.length : Int) = 5 * n + 2 := by
    intro v n hv hi
    rw [hv] at h1
    simp only [Option.map_eq_some_iff] at h1
    obtain ⟨l, hl, _⟩ := h1
    unfold levelOf at hl
    split at hl
    · simp at hl
    · rw [sscanfD_isInt hi] at hl
      simp only [Option.bind_eq_bind, Option.bind_some] at hl
      split at hl
      · rename_i hx; omega
      · simp at hl
  refine ⟨?_, fits, ?_⟩
  · intro cnt entries qs hv hc hn hq
    rw [hv] at h1
    simp only [Option.map_eq_some_iff] at h1
    obtain ⟨l, hl, hle⟩ := h1
    have hint : IsInt ((cnt ++ entries.flatten).take 2) entries.length := by
      rw [List.take_append_of_le_length (by omega), List.take_of_length_le (by omega)]
      obtain ⟨b, s, ds, rfl, g1, g2, g3, g4, g5⟩ := hn
      exact ⟨b, s, ds, [], by simp, g1, g2, by simp, by simp, g3, g4, g5⟩
    unfold levelOf at hl
    rw [if_neg (by rw [List.length_append]; omega), sscanfD_isInt hint] at hl
    simp only [Option.bind_eq_bind, Option.bind_some] at hl
    rw [if_pos (by rw [List.length_append, flatten_length hq]; push_cast; omega)] at hl
    obtain ⟨l', hl', hn'⟩ := levelVals_eq E hq
    rw [List.drop_append_of_le_length (by omega), List.drop_of_length_le (by omega), List.nil_append,
      Int.toNat_natCast, hl'] at hl
    simp only [Option.some.injEq] at hl
    subst hl
    refine ⟨l', hle.symm, ?_, hn'⟩
    rw [hn'.length_eq, hq.length_eq]
  · intro hv
    rw [hv] at h1
    simpa using h1.symm

def fieldsPC : List Field :=
  [⟨str "PC", str "021310100000217"⟩, ⟨str "BY", str "  1"⟩, ⟨str "LV", str " 2  1.0 19.0"⟩, ⟨str "BG", str "002004"⟩]

theorem fieldsPC_file : file fieldsPC [1, 17, 0x21, 0x12, 10, 2, 16, 0x4F, 10] = samplePC := by decide

/-- the sample has two levels, 1 and 19 -/
example : ∃ c, Success env0 (file fieldsPC [1, 17, 0x21, 0x12, 10, 2, 16, 0x4F, 10]) c ∧ (∀ f ∈ fieldsPC, f.WF) ∧
    value fieldsPC (str "LV") = some (str " 2" ++ [str "  1.0", str " 19.0"].flatten) ∧ NumText (str " 2") 2 ∧
    List.Forall₂ IsF51 [str "  1.0", str " 19.0"] [1, 19] := by
  obtain ⟨c, h, _⟩ := samplePC_ok
  rw [← fieldsPC_file] at h
  refine ⟨c, h, by decide, by decide, ⟨1, .none, [2], by decide, by decide, by decide, by decide, by decide, by decide⟩, ?_⟩
  refine .cons ⟨2, .none, [1], 0, by decide, by decide, by decide, by decide, ?_⟩
    (.cons ⟨1, .none, [1, 9], 0, by decide, by decide, by decide, by decide, ?_⟩ .nil)
  · norm_num [decimal, Sign.apply]
  · norm_num [decimal, Sign.apply]

end Props
