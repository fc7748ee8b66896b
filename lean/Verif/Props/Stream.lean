/-
C15, C16: trailing bytes are ignored, truncated files are rejected.
-/
import Verif.Lemmas.Local
import Verif.Props.Shape

namespace Props
open Go Radolan Spec

theorem newComposite_of_parts {E : Env} {input rest rest' : Bytes} {h : Composite} {rows : List (List F32)}
    (hh : headerOf E input = some (h, rest)) (ha : AllocOK h) (hd : dataOf h rest = some (rows, rest')) :
    NewComposite E input = .ret (finish E h rows)
      (if h.dataUnit = Unit_unknown then some .unknownUnit else none) := by
  have hc := newComposite_cases E input
  unfold NewComposite
  generalize newCompositeRest E input = r at *
  cases hc with
  | header h' => rw [hh] at h'; simp at h'
  | zero c' rest2 h' hz hb =>
    rw [hh] at h'; simp at h'; obtain ⟨rfl, rfl⟩ := h'
    obtain ⟨a, b, c, d⟩ := ha; omega
  | panic c' rest2 h' hz ha' =>
    rw [hh] at h'; simp at h'; obtain ⟨rfl, rfl⟩ := h'; exact absurd ha ha'
  | data c' rest2 h' ha' hd' =>
    rw [hh] at h'; simp at h'; obtain ⟨rfl, rfl⟩ := h'; rw [hd] at hd'; simp at hd'
  | ok c' rest2 h' ha' rows' rest2' hd' =>
    rw [hh] at h'; simp at h'; obtain ⟨rfl, rfl⟩ := h'
    rw [hd] at hd'; simp at hd'; obtain ⟨rfl, rfl⟩ := hd'
    rfl

theorem err_of_header_none {E : Env} {input : Bytes} (hh : headerOf E input = none) :
    ∃ c e, NewComposite E input = .ret c (some e) ∧ e ≠ .unknownUnit := by
  have hc := newComposite_cases E input
  unfold NewComposite
  generalize newCompositeRest E input = r at *
  cases hc with
  | header h' e c hb he => exact ⟨c, e, rfl, he⟩
  | zero _ _ h' => rw [hh] at h'; simp at h'
  | panic _ _ h' => rw [hh] at h'; simp at h'
  | data _ _ h' => rw [hh] at h'; simp at h'
  | ok _ _ h' => rw [hh] at h'; simp at h'

theorem err_of_data_none {E : Env} {input rest : Bytes} {h : Composite}
    (hh : headerOf E input = some (h, rest)) (ha : AllocOK h) (hd : dataOf h rest = none) :
    ∃ c e, NewComposite E input = .ret c (some e) ∧ e ≠ .unknownUnit := by
  have hc := newComposite_cases E input
  unfold NewComposite
  generalize newCompositeRest E input = r at *
  cases hc with
  | header h' e c hb he => exact ⟨c, e, rfl, he⟩
  | zero c' rest2 h' hz hb => exact ⟨_, _, rfl, by decide⟩
  | panic c' rest2 h' hz ha' =>
    rw [hh] at h'; simp at h'; obtain ⟨rfl, rfl⟩ := h'; exact absurd ha ha'
  | data c' rest2 h' ha' hd' e c'' hb he => exact ⟨_, e, rfl, he⟩
  | ok c' rest2 h' ha' rows' rest2' hd' =>
    rw [hh] at h'; simp at h'; obtain ⟨rfl, rfl⟩ := h'
    rw [hd] at hd'; simp at hd'

/-- The bytes a successful parse consumes: any input starting with them gives the same result, and every proper
prefix of them fails with an error. -/
theorem consumed {E : Env} {input : Bytes} {c : Composite} (h : Success E input c) :
    ∃ p s, input = p ++ s ∧ (∀ t, NewComposite E (p ++ t) = NewComposite E input) ∧
      ∀ q s', p = q ++ s' → s' ≠ [] → ∃ c' e, NewComposite E q = .ret c' (some e) ∧ e ≠ .unknownUnit := by
  obtain ⟨hc, rest, rows, rest', hh, ha, hd, rfl⟩ := parsed_iff.mp h
  obtain ⟨p1, e1, e2, e3⟩ := headerOf_local E _ _ _ hh
  obtain ⟨p2, k1, k2, k3⟩ := dataOf_local hc _ _ _ hd
  refine ⟨p1 ++ p2, rest', by rw [e1, k1]; simp, ?_, ?_⟩
  · intro t
    rw [newComposite_of_parts hh ha hd]
    rw [newComposite_of_parts (input := p1 ++ p2 ++ t) (rest := p2 ++ t) (rest' := t) (by rw [List.append_assoc]; exact e2 _) ha (k2 t)]
  · intro q s' hq hs
    rcases append_split hq with ⟨s2, hs2, hne⟩ | ⟨q', rfl, hd'⟩
    · exact err_of_header_none (e3 q s2 hs2 hne)
    · exact err_of_data_none (e2 q') ha (k3 q' s' hd' hs)

/-- C15. Bytes after a successfully parsed composite do not change the result. -/
theorem C15_trailing_bytes {E : Env} {input : Bytes} {c : Composite} (h : Success E input c) (t : Bytes) :
    NewComposite E (input ++ t) = NewComposite E input := by
  obtain ⟨p, s, h1, h2, _⟩ := consumed h
  rw [h1, List.append_assoc, h2, ← h1]

/-- C16. Every successful input has a consumed length `n`: truncating it to at least `n` bytes changes nothing,
truncating it to fewer bytes is reported as an error (in particular never silently accepted, never a panic). -/
theorem C16_truncation {E : Env} {input : Bytes} {c : Composite} (h : Success E input c) :
    ∃ n, n ≤ input.length ∧
      (∀ m, n ≤ m → NewComposite E (input.take m) = NewComposite E input) ∧
      (∀ m, m < n → ∃ c' e, NewComposite E (input.take m) = .ret c' (some e) ∧ e ≠ .unknownUnit) := by
  obtain ⟨p, s, h1, h2, h3⟩ := consumed h
  refine ⟨p.length, by rw [h1]; simp, ?_, ?_⟩
  · intro m hm
    have : input.take m = p ++ s.take (m - p.length) := by
      rw [h1, List.take_append]
      congr 1
      exact List.take_of_length_le hm
    rw [this, h2]
  · intro m hm
    have : input.take m = p.take m := by
      rw [h1, List.take_append_of_le_length (by omega)]
    rw [this]
    refine h3 (p.take m) (p.drop m) (List.take_append_drop m p).symm ?_
    intro hn
    have := congrArg List.length hn
    simp at this; omega

/-- the RX sample is a successful input, it carries a surplus byte, and cutting two bytes is an error -/
example : (∃ c, Success env0 sampleRX c) ∧ sampleRX.length = 53 ∧
    ∃ c e, NewComposite env0 (sampleRX.take 51) = .ret c (some e) := by
  refine ⟨let ⟨c, h, _⟩ := sampleRX_ok; ⟨c, h⟩, rfl, ?_⟩
  have : (match NewComposite env0 (sampleRX.take 51) with
    | .ret _ (some _) => true | _ => false) = true := by decide +kernel
  split at this
  · rename_i c e h; exact ⟨c, e, h⟩
  · simp at this

end Props
