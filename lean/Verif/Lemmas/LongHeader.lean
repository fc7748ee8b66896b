/- Behind the first 22 bytes nothing is called too short. -/
import Verif.Lemmas.Diagnosis

namespace Radolan
open Go

def isShort : Err → Bool
  | .headerTooShort => true
  | _ => false

/-- code that does not call the header too short -/
def Long {α : Type} (m : M α) : Prop := ∀ c e c', m c = .err e c' → isShort e = false

theorem Long.pure {α : Type} (a : α) : Long (Pure.pure a : M α) := by intro c e c' h; simp at h
theorem Long.modify (g : Composite → Composite) : Long (M.modify g) := by intro c e c' h; simp at h
theorem Long.get : Long M.get := by intro c e c' h; simp at h
theorem Long.panic {α : Type} : Long (M.panic : M α) := by intro c e c' h; simp at h
theorem Long.fail {α : Type} {e : Err} (h : isShort e = false) : Long (M.fail e : M α) := by
  intro c e' c' h'
  simp only [M.fail_apply, PRes.err.injEq] at h'
  exact h'.1 ▸ h
theorem Long.orErr {α : Type} {e : Err} (h : isShort e = false) (x : Option α) : Long (M.orErr e x) := by
  cases x with
  | none => exact Long.fail h
  | some a => exact Long.pure a
theorem Long.orPanic {α : Type} (x : Option α) : Long (M.orPanic x) := by
  cases x with
  | none => exact Long.panic
  | some a => exact Long.pure a
theorem Long.bind {α β : Type} {m : M α} {k : α → M β} (hm : Long m) (hk : ∀ a, Long (k a)) : Long (m >>= k) := by
  intro c e c' h
  rw [M.bind_apply] at h
  cases hx : m c with
  | ok a c1 => rw [hx] at h; exact hk a _ _ _ h
  | err e1 c1 =>
    rw [hx] at h
    simp only [PRes.err.injEq] at h
    exact h.1 ▸ hm _ _ _ hx
  | panic => rw [hx] at h; simp at h
theorem Long.ite {α : Type} {P : Prop} [Decidable P] {m m' : M α} (h : Long m) (h' : Long m') :
    Long (if P then m else m') := by split <;> assumption

theorem Long.levelLoop (E : Env) (lv : Bytes) : ∀ todo i, Long (levelLoop E lv todo i) := by
  intro todo
  induction todo with
  | zero => intro i; exact Long.pure _
  | succ todo ih =>
    intro i
    exact Long.bind (Long.orPanic _) fun _ => Long.bind (Long.orErr rfl _) fun _ =>
      Long.bind (Long.modify _) fun _ => ih _

theorem Long.assignDims {e : Err} (h : isShort e = false) (x : Option Int × Option Int) : Long (assignDims e x) :=
  Long.bind (Long.modify _) fun _ => Long.bind (Long.orErr h _) fun _ =>
    Long.bind (Long.modify _) fun _ => Long.modify _

theorem Long.header (E : Env) (header : Bytes) : Long (do
    let body ← M.orPanic (slice? header 0 (header.length - 1))
    let sec ← M.orPanic (splitHeader E body)
    stageProduct header
    stageLength header sec
    stageCapture header
    stageForecast sec
    stageInterval sec
    stageDims sec
    stagePrecision sec
    stageLevel E sec
    stageFormat sec) := by
  refine Long.bind (Long.orPanic _) fun body => Long.bind (Long.orPanic _) fun sec => ?_
  refine Long.bind (Long.bind (Long.orPanic _) fun _ => Long.modify _) fun _ => ?_
  refine Long.bind (Long.bind (Long.orErr rfl _) fun _ => Long.modify _) fun _ => ?_
  refine Long.bind (Long.bind (Long.orPanic _) fun d1 => Long.bind (Long.orPanic _) fun d2 => ?_) fun _ => ?_
  · split
    · exact Long.modify _
    · exact Long.bind (Long.modify _) fun _ => Long.fail rfl
  refine Long.bind (Long.bind (Long.modify _) fun _ => ?_) fun _ => ?_
  · split
    · exact Long.bind (Long.orErr rfl _) fun _ => Long.modify _
    · exact Long.pure _
  refine Long.bind ?_ fun _ => ?_
  · unfold stageInterval
    split
    · exact Long.bind (Long.orErr rfl _) fun _ => Long.modify _
    · exact Long.pure _
  refine Long.bind ?_ fun _ => ?_
  · unfold stageDims
    split
    · exact Long.assignDims rfl _
    · split
      · exact Long.assignDims rfl _
      · exact Long.bind Long.get fun _ => Long.bind (Long.orErr rfl _) fun _ => Long.modify _
  refine Long.bind ?_ fun _ => ?_
  · unfold stagePrecision
    split
    · exact Long.bind (Long.orErr rfl _) fun _ => Long.modify _
    · exact Long.pure _
  refine Long.bind ?_ fun _ => ?_
  · unfold stageLevel
    split
    · refine Long.ite (Long.fail rfl) (Long.bind (Long.orPanic _) fun _ => Long.bind (Long.orErr rfl _) fun _ => ?_)
      refine Long.ite (Long.fail rfl) (Long.ite Long.panic ?_)
      exact Long.bind (Long.modify _) fun _ => Long.levelLoop _ _ _ _
    · exact Long.pure _
  unfold stageFormat
  split
  · exact Long.bind (Long.orErr rfl _) fun _ => Long.modify _
  · exact Long.pure _

theorem Long.rowLoop {body : Nat → Bytes → M Bytes} (h : ∀ i b, Long (body i b)) :
    ∀ n i b, Long (Radolan.rowLoop body n i b) := by
  intro n
  induction n with
  | zero => intro i b; exact Long.pure _
  | succ n ih => intro i b; exact Long.bind (h i b) fun b => ih _ _


theorem rlLoop_long (level : List F32) (i : Nat) (dst : List F32) (pos : Nat) (off : Bool) (l : Bytes) :
    ∀ e, (rlLoop level i dst pos off l).2 = some e → isShort e = false := by
  induction l generalizing i dst pos off with
  | nil => intro e h; simp [rlLoop] at h
  | cons b rest ih =>
    intro e h
    unfold rlLoop at h
    split at h
    · exact ih _ _ _ _ e h
    · split at h
      · split at h
        · simp only [Option.some.injEq] at h; rw [← h]; rfl
        · exact ih _ _ _ _ e h
      · split at h
        · exact ih _ _ _ _ e h
        · simp only [Option.some.injEq] at h; rw [← h]; rfl

theorem Long.data (b : Bytes) : Long (parseData b) := by
  unfold parseData
  refine Long.bind Long.get fun c => Long.ite (Long.fail rfl) (Long.ite Long.panic (Long.ite Long.panic
    (Long.bind (Long.modify _) fun _ => Long.bind Long.get fun c => ?_)))
  unfold parseWith
  split
  · refine Long.bind Long.get (fun c => Long.rowLoop (fun i b => ?_) _ _ _)
    refine Long.bind Long.get fun c => Long.bind (Long.orErr rfl _) fun x => ?_
    obtain ⟨l, b'⟩ := x
    refine Long.bind (Long.orPanic _) fun dst => Long.bind (Long.modify _) fun _ => ?_
    cases h : (decodeRunlength (c.level.getD []) dst l.dropLast).2 with
    | none => exact Long.pure _
    | some e => exact Long.fail (rlLoop_long _ _ _ _ _ _ _ h)
  · refine Long.bind Long.get (fun c => Long.rowLoop (fun i b => ?_) _ _ _)
    refine Long.bind Long.get fun c => Long.ite Long.panic (Long.bind (Long.orErr rfl _) fun x => ?_)
    obtain ⟨l, b'⟩ := x
    exact Long.bind (Long.orPanic _) fun dst => Long.bind (Long.orErr rfl _) fun _ => Long.bind (Long.modify _) fun _ => Long.pure _
  · refine Long.bind Long.get (fun c => Long.rowLoop (fun i b => ?_) _ _ _)
    refine Long.bind Long.get fun c => Long.ite Long.panic (Long.bind (Long.orErr rfl _) fun x => ?_)
    obtain ⟨l, b'⟩ := x
    exact Long.bind (Long.orPanic _) fun dst => Long.bind (Long.orErr rfl _) fun _ => Long.bind (Long.modify _) fun _ => Long.pure _
  · exact Long.fail rfl

end Radolan
