/- Readers consume a definite prefix of the input: more input does not matter, less input fails. -/
import Verif.Lemmas.Composite

namespace Radolan
open Go

/-- `f` consumes a prefix `p` of its input, ignores what follows and fails on every proper prefix of `p` -/
def Local (f : Bytes → Option (β × Bytes)) : Prop :=
  ∀ b r rest, f b = some (r, rest) →
    ∃ p, b = p ++ rest ∧ (∀ t, f (p ++ t) = some (r, t)) ∧ ∀ q s, p = q ++ s → s ≠ [] → f q = none

theorem append_split {a b : Bytes} {q s : Bytes} (h : a ++ b = q ++ s) :
    (∃ s', a = q ++ s' ∧ s' ≠ []) ∨ ∃ q', q = a ++ q' ∧ b = q' ++ s := by
  rcases List.append_eq_append_iff.mp h with ⟨x, hx, hy⟩ | ⟨x, hx, hy⟩
  · exact Or.inr ⟨x, hx, hy⟩
  · by_cases hx0 : x = []
    · subst hx0
      simp only [List.append_nil, List.nil_append] at hx hy
      exact Or.inr ⟨[], by simp [hx], by simp [hy]⟩
    · exact Or.inl ⟨x, hx, hx0⟩

theorem readFull_local (n : Nat) : Local (readFull n) := by
  intro b r rest h
  obtain ⟨h1, h2⟩ := readFull_some.mp h
  refine ⟨r, h1, fun t => readFull_some.mpr ⟨rfl, h2⟩, ?_⟩
  intro q s hq hs
  rw [readFull_none]
  have := congrArg List.length hq
  have hs' : 0 < s.length := List.length_pos_iff.mpr hs
  simp at this; omega

theorem readDelim_local (d : UInt8) : Local (readDelim d) := by
  intro b r rest h
  obtain ⟨p, h1, h2, h3⟩ := readDelim_some.mp h
  refine ⟨p ++ [d], by simp [h2], fun t => readDelim_some.mpr ⟨p, h1, by simp, h3⟩, ?_⟩
  intro q s hq hs
  rw [readDelim_none]
  rcases append_split hq with ⟨s', hs', _⟩ | ⟨q', hq', hd⟩
  · intro hc; apply h3; rw [hs']; simp [hc]
  · have : q' = [] := by
      cases q' with
      | nil => rfl
      | cons x xs =>
        simp only [List.cons_append, List.cons.injEq] at hd
        exact absurd (List.append_eq_nil_iff.mp hd.2.symm).2 hs
    rw [hq', this]; simpa using h3

theorem Local.map {f : Bytes → Option (β × Bytes)} (hf : Local f) (g : β → Option γ) :
    Local (fun b => (f b).bind fun q => (g q.1).map fun r => (r, q.2)) := by
  intro b r rest h
  simp only [Option.bind_eq_some_iff, Option.map_eq_some_iff, Prod.mk.injEq] at h
  obtain ⟨⟨x, rest'⟩, h1, y, h2, rfl, rfl⟩ := h
  obtain ⟨p, e1, e2, e3⟩ := hf b x rest' h1
  refine ⟨p, e1, fun t => ?_, fun q s hq hs => ?_⟩
  · simp only [e2 t, Option.bind_some]
    rw [h2]; rfl
  · simp only [e3 q s hq hs, Option.bind_none]

theorem Local.of_eq {f g : Bytes → Option (β × Bytes)} (h : ∀ b, f b = g b) (hf : Local f) : Local g := by
  have : f = g := funext h
  exact this ▸ hf

theorem Local.seq {f : Bytes → Option (β × Bytes)} {g : β → Bytes → Option (γ × Bytes)} (hf : Local f)
    (hg : ∀ x, Local (g x)) : Local (fun b => (f b).bind fun q => g q.1 q.2) := by
  intro b r rest h
  simp only [Option.bind_eq_some_iff] at h
  obtain ⟨⟨x, b'⟩, h1, h2⟩ := h
  obtain ⟨p1, e1, e2, e3⟩ := hf _ _ _ h1
  obtain ⟨p2, k1, k2, k3⟩ := hg x _ _ _ h2
  simp only at k1
  refine ⟨p1 ++ p2, by rw [e1, k1]; simp, fun t => ?_, fun q s hq hs => ?_⟩
  · simp only [List.append_assoc, e2, Option.bind_some]
    exact k2 t
  · rcases append_split hq with ⟨s', hs', hne⟩ | ⟨q', rfl, hd⟩
    · simp only [e3 q s' hs' hne, Option.bind_none]
    · simp only [e2, Option.bind_some]
      exact k3 q' s hd hs

theorem rowsFrom_local {f : Bytes → Option (List F32 × Bytes)} (hf : Local f) (n : Nat) :
    Local (rowsFrom f n) := by
  induction n with
  | zero =>
    intro b r rest h
    simp only [rowsFrom, Option.some.injEq, Prod.mk.injEq] at h
    obtain ⟨rfl, rfl⟩ := h
    refine ⟨[], rfl, fun t => rfl, ?_⟩
    intro q s hq hs
    have := (List.append_eq_nil_iff.mp hq.symm).2
    exact absurd this hs
  | succ n ih =>
    have := hf.seq (g := fun r b => (rowsFrom f n b).bind fun q => ((some (r :: q.1)).map fun r => (r, q.2)))
      (fun r => ih.map (fun rs => some (r :: rs)))
    refine this.of_eq ?_
    intro b
    conv_rhs => unfold rowsFrom
    cases f b with
    | none => rfl
    | some q =>
      obtain ⟨r, b'⟩ := q
      simp only [Option.bind_some]
      cases rowsFrom f n b' with
      | none => rfl
      | some q => rfl

theorem rowSB_local (u p : Int) (w : Nat) : Local (rowSB u p w) :=
  ((readFull_local w).map (fun l => some (l.map (rvp6SingleByte u p)))).of_eq (by
    intro b; unfold rowSB; cases readFull w b <;> rfl)

theorem rowLE_local (u p : Int) (w : Nat) : Local (rowLE u p w) :=
  ((readFull_local (w * 2)).map (fun l => some (decodePairs u p l))).of_eq (by
    intro b; unfold rowLE; cases readFull (w * 2) b <;> rfl)

theorem rowRL_local (l : List F32) (w : Nat) : Local (rowRL l w) :=
  ((readDelim_local 10).map (fun line =>
    match decodeRunlength l (List.replicate w Fl.zero) line.dropLast with
    | (row, none) => some row
    | (_, some _) => none)).of_eq (by
    intro b; unfold rowRL
    cases h : readDelim 10 b with
    | none => rfl
    | some q =>
      obtain ⟨line, rest⟩ := q
      simp only [Option.bind_some]
      split <;> rename_i h <;> simp [h])

theorem dataOf_local (c : Composite) : Local (dataOf c) := by
  unfold dataOf
  cases identifyEncoding c with
  | runlength => exact rowsFrom_local (rowRL_local _ _) _
  | littleEndian =>
    exact ((rowsFrom_local (rowLE_local c.dataUnit c.precision c.px.toNat) c.py.toNat).map
      (fun rs => some rs.reverse)).of_eq (by
        intro b; cases rowsFrom (rowLE c.dataUnit c.precision c.px.toNat) c.py.toNat b <;> rfl)
  | singleByte =>
    exact ((rowsFrom_local (rowSB_local c.dataUnit c.precision c.px.toNat) c.py.toNat).map
      (fun rs => some rs.reverse)).of_eq (by
        intro b; cases rowsFrom (rowSB c.dataUnit c.precision c.px.toNat) c.py.toNat b <;> rfl)
  | unknown => intro b r rest h; simp at h

theorem headerOf_local (E : Env) : Local (headerOf E) :=
  ((readDelim_local 3).map (fun header =>
    if header.length < 22 then none
    else match splitHeader E header.dropLast with
      | none => none
      | some s => headerComposite E header s Composite.zero)).of_eq (by
    intro b; unfold headerOf
    cases h : readDelim 3 b with
    | none => rfl
    | some q =>
      obtain ⟨header, rest⟩ := q
      simp only [Option.bind_some]
      split
      · rfl
      · split <;> rename_i h <;> simp [h])

end Radolan
