/- The parser on files made of well-formed header fields. -/
import Verif.Lemmas.Split
import Verif.Lemmas.Composite
import Verif.Spec.Api

namespace Radolan
open Go

theorem header_no_delim {fs : List Spec.Field} (hw : ∀ f ∈ fs, f.WF) : (3 : UInt8) ∉ Spec.header fs := by
  induction fs with
  | nil => simp [Spec.header]
  | cons f fs ih =>
    have hf := hw f (by simp)
    simp only [Spec.header, List.mem_append, not_or]
    refine ⟨⟨?_, ?_⟩, ih (fun g hg => hw g (by simp [hg]))⟩
    · intro h
      have := (hf.2.1 3 h).1
      revert this; decide
    · intro h
      exact (hf.2.2.2 3 h).2.2 rfl

theorem readDelim_file {fs : List Spec.Field} (hw : ∀ f ∈ fs, f.WF) (data : Bytes) :
    readDelim 3 (Spec.file fs data) = some (Spec.header fs ++ [3], data) := by
  rw [readDelim_some]
  exact ⟨Spec.header fs, rfl, by simp [Spec.file], header_no_delim hw⟩

/-- the parser sees a header only through its first bytes, its length and its values -/
theorem parseHeader_congr (E : Env) {fs fs' : List Spec.Field} (hne : fs ≠ []) (hne' : fs' ≠ [])
    (hw : ∀ f ∈ fs, f.WF) (hw' : ∀ f ∈ fs', f.WF) (data : Bytes)
    (hlen : (Spec.header fs).length = (Spec.header fs').length)
    (hp : (Spec.header fs).take 8 = (Spec.header fs').take 8)
    (hq : ((Spec.header fs).take 17).drop 13 = ((Spec.header fs').take 17).drop 13)
    (hv : ∀ k, Spec.value fs k = Spec.value fs' k) :
    parseHeader E (Spec.file fs data) = parseHeader E (Spec.file fs' data) := by
  unfold parseHeader
  rw [readDelim_file hw, readDelim_file hw']
  funext c
  simp only [M.orErr_some_bind]
  have hl2 : (Spec.header fs ++ [3]).length = (Spec.header fs' ++ [(3 : UInt8)]).length := by simp [hlen]
  rw [hl2]
  split
  · rfl
  · rename_i hge
    have hge' : 17 ≤ (Spec.header fs').length := by simp at hge; omega
    have hge2 : 17 ≤ (Spec.header fs).length := by omega
    rw [← hl2, slice?_zero_pred, hl2, slice?_zero_pred]
    simp only [List.dropLast_concat, M.orPanic_some_bind]
    rw [splitHeader_wf E fs hne hw, splitHeader_wf E fs' hne' hw']
    simp only [M.orPanic_some_bind]
    have hs : ∀ k, Section.find (pairs fs).reverse k = Section.find (pairs fs').reverse k := by
      intro k; rw [find_pairs, find_pairs, hv]
    generalize (pairs fs).reverse = s at hs
    generalize (pairs fs').reverse = s' at hs
    have t2 : slice? (Spec.header fs ++ [3]) 0 2 = slice? (Spec.header fs' ++ [3]) 0 2 := by
      rw [slice?_some (by omega) (by simp; omega), slice?_some (by omega) (by simp; omega),
        List.take_append_of_le_length (by omega), List.take_append_of_le_length (by omega)]
      have := congrArg (List.take 2) hp
      simp only [List.take_take] at this
      exact congrArg some (congrArg (List.drop 0) this)
    have t8 : slice? (Spec.header fs ++ [3]) 2 8 = slice? (Spec.header fs' ++ [3]) 2 8 := by
      rw [slice?_some (by omega) (by simp; omega), slice?_some (by omega) (by simp; omega),
        List.take_append_of_le_length (by omega), List.take_append_of_le_length (by omega), hp]
    have t17 : slice? (Spec.header fs ++ [3]) 13 17 = slice? (Spec.header fs' ++ [3]) 13 17 := by
      rw [slice?_some (by omega) (by simp; omega), slice?_some (by omega) (by simp; omega),
        List.take_append_of_le_length (by omega), List.take_append_of_le_length (by omega), hq]
    have e1 : stageProduct (Spec.header fs ++ [3]) = stageProduct (Spec.header fs' ++ [3]) := by
      unfold stageProduct; rw [t2]
    have e2 : stageLength (Spec.header fs ++ [3]) s = stageLength (Spec.header fs' ++ [3]) s' := by
      unfold stageLength; rw [hs, hl2]
    have e3 : stageCapture (Spec.header fs ++ [3]) = stageCapture (Spec.header fs' ++ [3]) := by
      unfold stageCapture; rw [t8, t17]
    have e4 : stageForecast s = stageForecast s' := by unfold stageForecast; rw [hs]
    have e5 : stageInterval s = stageInterval s' := by unfold stageInterval; rw [hs]
    have e6 : stageDims s = stageDims s' := by unfold stageDims; rw [hs, hs]
    have e7 : stagePrecision s = stagePrecision s' := by unfold stagePrecision; rw [hs]
    have e8 : stageLevel E s = stageLevel E s' := by unfold stageLevel; rw [hs]
    have e9 : stageFormat s = stageFormat s' := by unfold stageFormat; rw [hs]
    rw [e1, e2, e3, e4, e5, e6, e7, e8, e9]

theorem newComposite_congr (E : Env) {a b : Bytes} (h : parseHeader E a = parseHeader E b) :
    NewComposite E a = NewComposite E b := by
  unfold NewComposite newCompositeRest newCompositeM
  rw [h]

/-- what a successful parse of a file says about its header -/
theorem success_fields {E : Env} {fs : List Spec.Field} {data : Bytes} {c : Composite} (hw : ∀ f ∈ fs, f.WF)
    (hS : Spec.Success E (Spec.file fs data) c) :
    ∃ h rows rest', headerOf E (Spec.file fs data) = some (h, data) ∧ AllocOK h ∧
      dataOf h data = some (rows, rest') ∧ c = finish E h rows ∧
      HeaderFields E (Spec.header fs ++ [3]) (pairs fs).reverse h ∧ 21 ≤ (Spec.header fs).length := by
  obtain ⟨h, rest, rows, rest', hh, ha, hd, hc⟩ := parsed_iff.mp hS
  obtain ⟨header, s, h1, h2, h3, h4, h5⟩ := headerOf_some hh
  rw [readDelim_file hw] at h1
  simp only [Option.some.injEq, Prod.mk.injEq] at h1
  obtain ⟨rfl, rfl⟩ := h1
  simp only [List.length_append, List.length_singleton] at h2
  rw [List.dropLast_concat, splitHeader_wf E fs ?_ hw] at h3
  · simp only [Option.some.injEq] at h3
    subst h3
    exact ⟨h, rows, rest', hh, ha, hd, hc, h4, by omega⟩
  · intro he; subst he; simp [Spec.header] at h2

end Radolan
