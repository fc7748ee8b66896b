/- Safety of concurrent programs: every goroutine owns its memory. -/
import Verif.Model.Conc
import Verif.Lemmas.Heap
import Mathlib.Logic.Function.Basic
import Mathlib.Logic.Relation
import Mathlib.Data.DFinsupp.WellFounded
import Mathlib.SetTheory.Cardinal.Order

namespace Radolan.Conc
open Go
open Radolan.Heap (Win View)

/-- `p` only accesses the memory `f` it owns (and reads, but does not write, the frozen memory `R`); when it ends, with a
result or by a panic (`none`), the memory it owns then satisfies `Q`. -/
def Safe (R : Mem) (Q : Option α → Mem → Prop) : Prog α → Mem → Prop
  | .ret a, f => Q (some a) f
  | .panic, f => Q none f
  | .alloc o k, f => ∀ a, f a = none → R a = none → Safe R Q (k a) (Function.update f a (some o))
  | .head a i k, f => ∃ l, (f a = some (.heads l) ∨ R a = some (.heads l)) ∧
      (∀ r, l[i]? = some r → Safe R Q (k r) f) ∧ (l[i]? = none → Q none f)
  | .setHead a i r k, f => ∃ l, f a = some (.heads l) ∧
      (i < l.length → Safe R Q k (Function.update f a (some (.heads (l.set i r))))) ∧ (¬ i < l.length → Q none f)
  | .load a i k, f => ∃ l, (f a = some (.floats l) ∨ R a = some (.floats l)) ∧
      (∀ v, l[i]? = some v → Safe R Q (k v) f) ∧ (l[i]? = none → Q none f)
  | .store a i v k, f => ∃ l, f a = some (.floats l) ∧
      (i < l.length → Safe R Q k (Function.update f a (some (.floats (l.set i v))))) ∧ (¬ i < l.length → Q none f)

theorem Safe.mono {R : Mem} {Q Q' : Option α → Mem → Prop} (hQ : ∀ r f, Q r f → Q' r f) :
    ∀ (p : Prog α) (f : Mem), Safe R Q p f → Safe R Q' p f := by
  intro p
  induction p with
  | ret a => exact fun f h => hQ _ _ h
  | panic => exact fun f h => hQ _ _ h
  | alloc o k ih => exact fun f h a h1 h2 => ih a _ (h a h1 h2)
  | head a i k ih => exact fun f ⟨l, h1, h2, h3⟩ => ⟨l, h1, fun r hr => ih r _ (h2 r hr), fun hr => hQ _ _ (h3 hr)⟩
  | setHead a i r k ih => exact fun f ⟨l, h1, h2, h3⟩ => ⟨l, h1, fun hr => ih _ (h2 hr), fun hr => hQ _ _ (h3 hr)⟩
  | load a i k ih => exact fun f ⟨l, h1, h2, h3⟩ => ⟨l, h1, fun r hr => ih r _ (h2 r hr), fun hr => hQ _ _ (h3 hr)⟩
  | store a i v k ih => exact fun f ⟨l, h1, h2, h3⟩ => ⟨l, h1, fun hr => ih _ (h2 hr), fun hr => hQ _ _ (h3 hr)⟩

theorem Safe.bind {R : Mem} {Q : Option β → Mem → Prop} {k : α → Prog β} :
    ∀ (p : Prog α) (f : Mem), Safe R (fun r f => match r with
      | some a => Safe R Q (k a) f
      | none => Q none f) p f → Safe R Q (p.bind k) f := by
  intro p
  induction p with
  | ret a => exact fun f h => h
  | panic => exact fun f h => h
  | alloc o k ih => exact fun f h a h1 h2 => ih a _ (h a h1 h2)
  | head a i k ih => exact fun f ⟨l, h1, h2, h3⟩ => ⟨l, h1, fun r hr => ih r _ (h2 r hr), fun hr => h3 hr⟩
  | setHead a i r k ih => exact fun f ⟨l, h1, h2, h3⟩ => ⟨l, h1, fun hr => ih _ (h2 hr), fun hr => h3 hr⟩
  | load a i k ih => exact fun f ⟨l, h1, h2, h3⟩ => ⟨l, h1, fun r hr => ih r _ (h2 r hr), fun hr => h3 hr⟩
  | store a i v k ih => exact fun f ⟨l, h1, h2, h3⟩ => ⟨l, h1, fun hr => ih _ (h2 hr), fun hr => h3 hr⟩

/-! ### every schedule is safe -/

variable {ι α : Type}

/-- the memory is divided among the goroutines -/
structure Inv (R : Mem) (Q : ι → Option α → Mem → Prop) (s : State ι α) (fr : ι → Mem) : Prop where
  own : ∀ i a o, fr i a = some o → s.mem a = some o
  frozen : ∀ a o, R a = some o → s.mem a = some o
  disjoint : ∀ i j a, i ≠ j → fr i a ≠ none → fr j a = none
  private_ : ∀ i a, fr i a ≠ none → R a = none
  safe : ∀ i, Safe R (Q i) (s.prog i) (fr i)
  finite : ∃ n : Nat, ∀ a : Nat, n ≤ a → s.mem a = none

/-- replacing an owned object, or taking a free address -/
theorem Inv.write [DecidableEq ι] {R : Mem} {Q : ι → Option α → Mem → Prop} {s : State ι α} {fr : ι → Mem} (h : Inv R Q s fr) {i : ι}
    {a : Nat} {o : Obj} {p : Prog α} (ha : fr i a ≠ none ∨ s.mem a = none)
    (hp : Safe R (Q i) p (Function.update (fr i) a (some o))) :
    Inv R Q ⟨Function.update s.mem a (some o), Function.update s.prog i p⟩
      (Function.update fr i (Function.update (fr i) a (some o))) := by
  have hR : R a = none := by
    rcases ha with ha | ha
    · exact h.private_ i a ha
    · cases hr : R a with
      | none => rfl
      | some o' => rw [h.frozen a o' hr] at ha; simp at ha
  have hj : ∀ j, j ≠ i → fr j a = none := by
    intro j hji
    rcases ha with ha | ha
    · exact h.disjoint i j a (Ne.symm hji) ha
    · cases hr : fr j a with
      | none => rfl
      | some o' => rw [h.own j a o' hr] at ha; simp at ha
  refine ⟨?_, ?_, ?_, ?_, ?_, ?_⟩
  · intro j b o' hb
    by_cases hji : j = i
    · subst hji
      rw [Function.update_self] at hb
      by_cases hba : b = a
      · subst hba
        rw [Function.update_self] at hb
        show Function.update s.mem b (some o) b = _
        rw [Function.update_self]; exact hb
      · rw [Function.update_of_ne hba] at hb
        show Function.update s.mem a (some o) b = _
        rw [Function.update_of_ne hba]; exact h.own _ _ _ hb
    · rw [Function.update_of_ne hji] at hb
      have hba : b ≠ a := by rintro rfl; rw [hj j hji] at hb; simp at hb
      show Function.update s.mem a (some o) b = _
      rw [Function.update_of_ne hba]; exact h.own _ _ _ hb
  · intro b o' hb
    have hba : b ≠ a := by rintro rfl; rw [hR] at hb; simp at hb
    show Function.update s.mem a (some o) b = _
    rw [Function.update_of_ne hba]; exact h.frozen _ _ hb
  · intro j k b hjk hb
    by_cases hji : j = i
    · subst hji
      rw [Function.update_self] at hb
      rw [Function.update_of_ne (Ne.symm hjk)]
      by_cases hba : b = a
      · subst hba; exact hj k (Ne.symm hjk)
      · rw [Function.update_of_ne hba] at hb; exact h.disjoint _ _ _ hjk hb
    · rw [Function.update_of_ne hji] at hb
      by_cases hki : k = i
      · subst hki
        rw [Function.update_self]
        have hba : b ≠ a := by rintro rfl; exact hb (hj j hji)
        rw [Function.update_of_ne hba]; exact h.disjoint _ _ _ hjk hb
      · rw [Function.update_of_ne hki]; exact h.disjoint _ _ _ hjk hb
  · intro j b hb
    by_cases hji : j = i
    · subst hji
      rw [Function.update_self] at hb
      by_cases hba : b = a
      · subst hba; exact hR
      · rw [Function.update_of_ne hba] at hb; exact h.private_ _ _ hb
    · rw [Function.update_of_ne hji] at hb; exact h.private_ _ _ hb
  · intro j
    show Safe R (Q j) (Function.update s.prog i p j) _
    by_cases hji : j = i
    · subst hji; rw [Function.update_self, Function.update_self]; exact hp
    · rw [Function.update_of_ne hji, Function.update_of_ne hji]; exact h.safe j
  · obtain ⟨n, hn⟩ := h.finite
    refine ⟨max n (a + 1), fun b hb => ?_⟩
    show Function.update s.mem a (some o) b = none
    have hba : b ≠ a := by intro he; omega
    rw [Function.update_of_ne hba]; exact hn b (by omega)

/-- a step that leaves the memory alone -/
theorem Inv.read [DecidableEq ι] {R : Mem} {Q : ι → Option α → Mem → Prop} {s : State ι α} {fr : ι → Mem} (h : Inv R Q s fr) {i : ι}
    {p : Prog α} (hp : Safe R (Q i) p (fr i)) : Inv R Q ⟨s.mem, Function.update s.prog i p⟩ fr := by
  refine ⟨h.own, h.frozen, h.disjoint, h.private_, ?_, h.finite⟩
  intro j
  show Safe R (Q j) (Function.update s.prog i p j) _
  by_cases hji : j = i
  · subst hji; rw [Function.update_self]; exact hp
  · rw [Function.update_of_ne hji]; exact h.safe j

theorem Inv.step [DecidableEq ι] {R : Mem} {Q : ι → Option α → Mem → Prop} {s s' : State ι α} {fr : ι → Mem} (h : Inv R Q s fr)
    (hs : Step s s') : ∃ fr', Inv R Q s' fr' := by
  obtain ⟨i, fresh, m, p, hp, rfl⟩ := hs
  have hsafe := h.safe i
  cases hq : s.prog i with
  | ret a => rw [hq] at hp; simp [Prog.step] at hp
  | panic => rw [hq] at hp; simp [Prog.step] at hp
  | alloc o k =>
    rw [hq] at hp hsafe
    cases hf : s.mem fresh with
    | some o' => simp [Prog.step, hf] at hp
    | none =>
      simp only [Prog.step, hf, Option.some.injEq, Prod.mk.injEq] at hp
      obtain ⟨rfl, rfl⟩ := hp
      refine ⟨_, h.write (Or.inr hf) (hsafe fresh ?_ ?_)⟩
      · cases hr : fr i fresh with
        | none => rfl
        | some o' => rw [h.own i _ o' hr] at hf; simp at hf
      · cases hr : R fresh with
        | none => rfl
        | some o' => rw [h.frozen _ o' hr] at hf; simp at hf
  | head a j k =>
    rw [hq] at hp hsafe
    obtain ⟨l, h1, h2, h3⟩ := hsafe
    have hm : s.mem a = some (.heads l) := h1.elim (h.own i a _) (h.frozen a _)
    simp only [Prog.step, hm] at hp
    cases hl : l[j]? with
    | some r =>
      simp only [hl, Option.some.injEq, Prod.mk.injEq] at hp
      obtain ⟨rfl, rfl⟩ := hp
      exact ⟨_, h.read (h2 r hl)⟩
    | none =>
      simp only [hl, Option.some.injEq, Prod.mk.injEq] at hp
      obtain ⟨rfl, rfl⟩ := hp
      exact ⟨_, h.read (p := .panic) (h3 hl)⟩
  | setHead a j r k =>
    rw [hq] at hp hsafe
    obtain ⟨l, h1, h2, h3⟩ := hsafe
    have hm : s.mem a = some (.heads l) := h.own i a _ h1
    simp only [Prog.step, hm] at hp
    by_cases hl : j < l.length
    · rw [if_pos hl] at hp
      simp only [Option.some.injEq, Prod.mk.injEq] at hp
      obtain ⟨rfl, rfl⟩ := hp
      exact ⟨_, h.write (Or.inl (by rw [h1]; simp)) (h2 hl)⟩
    · rw [if_neg hl] at hp
      simp only [Option.some.injEq, Prod.mk.injEq] at hp
      obtain ⟨rfl, rfl⟩ := hp
      exact ⟨_, h.read (p := .panic) (h3 hl)⟩
  | load a j k =>
    rw [hq] at hp hsafe
    obtain ⟨l, h1, h2, h3⟩ := hsafe
    have hm : s.mem a = some (.floats l) := h1.elim (h.own i a _) (h.frozen a _)
    simp only [Prog.step, hm] at hp
    cases hl : l[j]? with
    | some r =>
      simp only [hl, Option.some.injEq, Prod.mk.injEq] at hp
      obtain ⟨rfl, rfl⟩ := hp
      exact ⟨_, h.read (h2 r hl)⟩
    | none =>
      simp only [hl, Option.some.injEq, Prod.mk.injEq] at hp
      obtain ⟨rfl, rfl⟩ := hp
      exact ⟨_, h.read (p := .panic) (h3 hl)⟩
  | store a j v k =>
    rw [hq] at hp hsafe
    obtain ⟨l, h1, h2, h3⟩ := hsafe
    have hm : s.mem a = some (.floats l) := h.own i a _ h1
    simp only [Prog.step, hm] at hp
    by_cases hl : j < l.length
    · rw [if_pos hl] at hp
      simp only [Option.some.injEq, Prod.mk.injEq] at hp
      obtain ⟨rfl, rfl⟩ := hp
      exact ⟨_, h.write (Or.inl (by rw [h1]; simp)) (h2 hl)⟩
    · rw [if_neg hl] at hp
      simp only [Option.some.injEq, Prod.mk.injEq] at hp
      obtain ⟨rfl, rfl⟩ := hp
      exact ⟨_, h.read (p := .panic) (h3 hl)⟩

theorem Inv.steps [DecidableEq ι] {R : Mem} {Q : ι → Option α → Mem → Prop} {s s' : State ι α} {fr : ι → Mem} (h : Inv R Q s fr)
    (hs : Relation.ReflTransGen Step s s') : ∃ fr', Inv R Q s' fr' := by
  induction hs with
  | refl => exact ⟨fr, h⟩
  | tail _ hst ih => obtain ⟨fr', h'⟩ := ih; exact h'.step hst

/-- goroutines that own nothing at first -/
theorem Inv.init {R : Mem} {Q : ι → Option α → Mem → Prop} {prog : ι → Prog α} (hR : ∃ n : Nat, ∀ a : Nat, n ≤ a → R a = none)
    (h : ∀ i, Safe R (Q i) (prog i) fun _ => none) : Inv R Q ⟨R, prog⟩ fun _ _ => none :=
  ⟨fun _ _ _ h => by simp at h, fun _ _ h => h, fun _ _ _ _ _ => rfl, fun _ _ h => absurd rfl h, h, hR⟩

/-- finished, with a result or by a panic -/
def Prog.result? : Prog α → Option (Option α)
  | .ret a => some (some a)
  | .panic => some none
  | _ => none

/-- an unfinished goroutine can make a step -/
theorem Inv.progress {R : Mem} {Q : ι → Option α → Mem → Prop} {s : State ι α} {fr : ι → Mem} (h : Inv R Q s fr) (i : ι)
    (hr : (s.prog i).result? = none) : ∃ fresh m p, (s.prog i).step fresh s.mem = some (m, p) := by
  have hsafe := h.safe i
  obtain ⟨n, hn⟩ := h.finite
  cases hq : s.prog i with
  | ret a => rw [hq] at hr; simp [Prog.result?] at hr
  | panic => rw [hq] at hr; simp [Prog.result?] at hr
  | alloc o k => exact ⟨n, _, _, by simp [Prog.step, hn n (Nat.le_refl _)]; exact ⟨rfl, rfl⟩⟩
  | head a j k =>
    rw [hq] at hsafe
    obtain ⟨l, h1, _⟩ := hsafe
    have hm : s.mem a = some (.heads l) := h1.elim (h.own i a _) (h.frozen a _)
    simp only [Prog.step, hm]
    cases l[j]? <;> exact ⟨0, _, _, rfl⟩
  | setHead a j r k =>
    rw [hq] at hsafe
    obtain ⟨l, h1, _⟩ := hsafe
    have hm : s.mem a = some (.heads l) := h.own i a _ h1
    simp only [Prog.step, hm]
    split <;> exact ⟨0, _, _, rfl⟩
  | load a j k =>
    rw [hq] at hsafe
    obtain ⟨l, h1, _⟩ := hsafe
    have hm : s.mem a = some (.floats l) := h1.elim (h.own i a _) (h.frozen a _)
    simp only [Prog.step, hm]
    cases l[j]? <;> exact ⟨0, _, _, rfl⟩
  | store a j v k =>
    rw [hq] at hsafe
    obtain ⟨l, h1, _⟩ := hsafe
    have hm : s.mem a = some (.floats l) := h.own i a _ h1
    simp only [Prog.step, hm]
    split <;> exact ⟨0, _, _, rfl⟩

theorem Safe.access {R : Mem} {Q : Option α → Mem → Prop} {p : Prog α} {f : Mem} (h : Safe R Q p f) {a : Addr} {w : Bool}
    (ha : p.access = some (a, w)) : (f a ≠ none) ∨ (w = false ∧ R a ≠ none) := by
  cases p with
  | ret _ => simp [Prog.access] at ha
  | panic => simp [Prog.access] at ha
  | alloc _ _ => simp [Prog.access] at ha
  | head b j k =>
    simp only [Prog.access, Option.some.injEq, Prod.mk.injEq] at ha
    obtain ⟨rfl, rfl⟩ := ha
    obtain ⟨l, h1 | h1, _⟩ := h
    · exact Or.inl (by rw [h1]; simp)
    · exact Or.inr ⟨rfl, by rw [h1]; simp⟩
  | setHead b j r k =>
    simp only [Prog.access, Option.some.injEq, Prod.mk.injEq] at ha
    obtain ⟨rfl, rfl⟩ := ha
    obtain ⟨l, h1, _⟩ := h
    exact Or.inl (by rw [h1]; simp)
  | load b j k =>
    simp only [Prog.access, Option.some.injEq, Prod.mk.injEq] at ha
    obtain ⟨rfl, rfl⟩ := ha
    obtain ⟨l, h1 | h1, _⟩ := h
    · exact Or.inl (by rw [h1]; simp)
    · exact Or.inr ⟨rfl, by rw [h1]; simp⟩
  | store b j v k =>
    simp only [Prog.access, Option.some.injEq, Prod.mk.injEq] at ha
    obtain ⟨rfl, rfl⟩ := ha
    obtain ⟨l, h1, _⟩ := h
    exact Or.inl (by rw [h1]; simp)

/-- no two goroutines are about to access the same memory if one of them writes -/
theorem Inv.race_free {R : Mem} {Q : ι → Option α → Mem → Prop} {s : State ι α} {fr : ι → Mem} (h : Inv R Q s fr)
    {i j : ι} (hij : i ≠ j) {a : Addr} {w : Bool} (hi : (s.prog i).access = some (a, true))
    (hj : (s.prog j).access = some (a, w)) : False := by
  rcases (h.safe i).access hi with h1 | ⟨h1, _⟩
  · rcases (h.safe j).access hj with h2 | ⟨_, h2⟩
    · exact h2 (h.disjoint i j a hij h1)
    · exact h2 (h.private_ i a h1)
  · simp at h1

/-! ### every schedule ends -/

/-- what a program may become in one step -/
def Prog.Next (p' p : Prog α) : Prop := ∃ fresh m m', p.step fresh m = some (m', p')

theorem Prog.next_acc (p : Prog α) : Acc Prog.Next p := by
  have hp : Acc Prog.Next (Prog.panic : Prog α) := ⟨_, by rintro q ⟨_, _, _, h⟩; simp [Prog.step] at h⟩
  induction p with
  | ret a => exact ⟨_, by rintro q ⟨_, _, _, h⟩; simp [Prog.step] at h⟩
  | panic => exact hp
  | alloc o k ih =>
    refine ⟨_, ?_⟩
    rintro q ⟨fresh, m, m', h⟩
    simp only [Prog.step] at h
    split at h
    · simp only [Option.some.injEq, Prod.mk.injEq] at h; rw [← h.2]; exact ih _
    · simp at h
  | head a i k ih =>
    refine ⟨_, ?_⟩
    rintro q ⟨fresh, m, m', h⟩
    simp only [Prog.step] at h
    split at h
    · split at h <;> (simp only [Option.some.injEq, Prod.mk.injEq] at h; rw [← h.2])
      · exact ih _
      · exact hp
    · simp at h
  | setHead a i r k ih =>
    refine ⟨_, ?_⟩
    rintro q ⟨fresh, m, m', h⟩
    simp only [Prog.step] at h
    split at h
    · split at h <;> (simp only [Option.some.injEq, Prod.mk.injEq] at h; rw [← h.2])
      · exact ih
      · exact hp
    · simp at h
  | load a i k ih =>
    refine ⟨_, ?_⟩
    rintro q ⟨fresh, m, m', h⟩
    simp only [Prog.step] at h
    split at h
    · split at h <;> (simp only [Option.some.injEq, Prod.mk.injEq] at h; rw [← h.2])
      · exact ih _
      · exact hp
    · simp at h
  | store a i v k ih =>
    refine ⟨_, ?_⟩
    rintro q ⟨fresh, m, m', h⟩
    simp only [Prog.step] at h
    split at h
    · split at h <;> (simp only [Option.some.injEq, Prod.mk.injEq] at h; rw [← h.2])
      · exact ih
      · exact hp
    · simp at h

/-- with finitely many goroutines every schedule ends -/
theorem step_wf [DecidableEq ι] [Finite ι] : WellFounded fun s' s : State ι α => Step s s' := by
  classical
  have hw := Pi.Lex.wellFounded (ι := ι) (α := fun _ => Prog α) (WellOrderingRel : ι → ι → Prop)
    (s := fun _ => Prog.Next) (fun _ => ⟨Prog.next_acc⟩)
  refine Subrelation.wf ?_ (InvImage.wf State.prog hw)
  rintro s' s ⟨i, fresh, m, p, hp, rfl⟩
  refine ⟨i, ?_, ?_⟩
  · intro j hj
    show Function.update s.prog i p j = s.prog j
    rw [Function.update_of_ne]
    rintro rfl
    exact (inferInstance : Std.Irrefl (WellOrderingRel : ι → ι → Prop)).irrefl _ hj
  · show Prog.Next (Function.update s.prog i p i) (s.prog i)
    rw [Function.update_self]
    exact ⟨fresh, s.mem, m, hp⟩

end Radolan.Conc
