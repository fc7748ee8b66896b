/- Lemmas about the parser monad, byte readers and slices. -/
import Verif.Model.Composite

namespace Radolan
open Go

@[simp] theorem M.pure_apply (a : α) (c : Composite) : (pure a : M α) c = .ok a c := rfl

@[simp] theorem pureM_apply (a : α) (c : Composite) : (Pure.pure a : M α) c = .ok a c := rfl
@[simp] theorem pureM_bind (a : α) (k : α → M β) (c : Composite) :
    ((Pure.pure a : M α) >>= k) c = k a c := rfl

theorem M.bind_apply (m : M α) (k : α → M β) (c : Composite) :
    (m >>= k) c = match m c with
      | .ok a c' => k a c'
      | .err e c' => .err e c'
      | .panic => .panic := rfl

theorem M.bind_ok {m : M α} {k : α → M β} {c c' : Composite} {a : α} (h : m c = .ok a c') :
    (m >>= k) c = k a c' := by rw [M.bind_apply, h]

theorem M.bind_err {m : M α} {k : α → M β} {c c' : Composite} {e : Err} (h : m c = .err e c') :
    (m >>= k) c = .err e c' := by rw [M.bind_apply, h]

theorem M.bind_panic {m : M α} {k : α → M β} {c : Composite} (h : m c = .panic) :
    (m >>= k) c = .panic := by rw [M.bind_apply, h]

@[simp] theorem M.fail_apply (e : Err) (c : Composite) : (M.fail e : M α) c = .err e c := rfl
@[simp] theorem M.panic_apply (c : Composite) : (M.panic : M α) c = .panic := rfl
@[simp] theorem M.modify_apply (g : Composite → Composite) (c : Composite) :
    M.modify g c = .ok () (g c) := rfl
@[simp] theorem M.get_apply (c : Composite) : M.get c = .ok c c := rfl
@[simp] theorem M.orErr_some (e : Err) (a : α) (c : Composite) : M.orErr e (some a) c = .ok a c := rfl
@[simp] theorem M.orErr_none (e : Err) (c : Composite) : (M.orErr e none : M α) c = .err e c := rfl
@[simp] theorem M.orPanic_some (a : α) (c : Composite) : M.orPanic (some a) c = .ok a c := rfl
@[simp] theorem M.orPanic_none (c : Composite) : (M.orPanic none : M α) c = .panic := rfl

@[simp] theorem M.modify_bind (g : Composite → Composite) (k : Unit → M β) (c : Composite) :
    (M.modify g >>= k) c = k () (g c) := rfl
@[simp] theorem M.get_bind (k : Composite → M β) (c : Composite) : (M.get >>= k) c = k c c := rfl
@[simp] theorem M.orErr_some_bind (e : Err) (a : α) (k : α → M β) (c : Composite) :
    (M.orErr e (some a) >>= k) c = k a c := rfl
@[simp] theorem M.orErr_none_bind (e : Err) (k : α → M β) (c : Composite) :
    (M.orErr e none >>= k) c = .err e c := rfl
@[simp] theorem M.orPanic_some_bind (a : α) (k : α → M β) (c : Composite) :
    (M.orPanic (some a) >>= k) c = k a c := rfl
@[simp] theorem M.orPanic_none_bind (k : α → M β) (c : Composite) :
    (M.orPanic none >>= k) c = .panic := rfl
@[simp] theorem M.pure_bind' (a : α) (k : α → M β) (c : Composite) :
    ((pure a : M α) >>= k) c = k a c := rfl
@[simp] theorem M.fail_bind (e : Err) (k : α → M β) (c : Composite) :
    ((M.fail e : M α) >>= k) c = .err e c := rfl
@[simp] theorem M.panic_bind (k : α → M β) (c : Composite) :
    ((M.panic : M α) >>= k) c = .panic := rfl

/-- Hoare-style description of a result. -/
def PRes.Sat (r : PRes α) (Q : α → Composite → Prop) (R : Err → Composite → Prop) (P : Prop) : Prop :=
  match r with
  | .ok a c => Q a c
  | .err e c => R e c
  | .panic => P

theorem Sat.bind {m : M α} {k : α → M β} {c : Composite}
    {Q : β → Composite → Prop} {R : Err → Composite → Prop} {P : Prop}
    (h : (m c).Sat (fun a c' => (k a c').Sat Q R P) R P) : ((m >>= k) c).Sat Q R P := by
  rw [M.bind_apply]
  cases hm : m c <;> simp_all [PRes.Sat]

theorem Sat.mono {r : PRes α} {Q Q' : α → Composite → Prop} {R R' : Err → Composite → Prop}
    {P P' : Prop} (h : r.Sat Q R P) (hQ : ∀ a c, Q a c → Q' a c) (hR : ∀ e c, R e c → R' e c)
    (hP : P → P') : r.Sat Q' R' P' := by
  cases r <;> simp_all [PRes.Sat]

/-! ### readers -/

theorem readDelim_some {d : UInt8} {b l r : Bytes} :
    readDelim d b = some (l, r) ↔ ∃ p, l = p ++ [d] ∧ b = p ++ d :: r ∧ d ∉ p := by
  induction b generalizing l r with
  | nil => simp [readDelim]
  | cons x xs ih =>
    unfold readDelim
    by_cases hx : x = d
    · subst hx
      simp only [if_true, Option.some.injEq, Prod.mk.injEq]
      constructor
      · rintro ⟨rfl, rfl⟩
        exact ⟨[], by simp⟩
      · rintro ⟨p, rfl, hb, hp⟩
        cases p with
        | nil => simp_all
        | cons y ys => simp_all
    · simp only [hx, if_false]
      cases hr : readDelim d xs with
      | none =>
        simp only [reduceCtorEq, false_iff]
        rintro ⟨p, rfl, hb, hp⟩
        cases p with
        | nil => simp_all
        | cons y ys =>
          simp only [List.cons_append, List.cons.injEq] at hb
          have := ih.mpr ⟨ys, rfl, hb.2, by simp_all⟩
          rw [hr] at this; simp at this
      | some q =>
        obtain ⟨l', r'⟩ := q
        obtain ⟨p, h1, h2, h3⟩ := ih.mp hr
        simp only [Option.some.injEq, Prod.mk.injEq]
        constructor
        · rintro ⟨rfl, rfl⟩
          exact ⟨x :: p, by simp [h1], by simp [h2], by simp [h3]; exact fun h => hx h.symm⟩
        · rintro ⟨p', rfl, hb, hp⟩
          cases p' with
          | nil => simp_all
          | cons y ys =>
            simp only [List.cons_append, List.cons.injEq] at hb
            have := ih.mpr ⟨ys, rfl, hb.2, by simp_all⟩
            rw [hr] at this
            simp only [Option.some.injEq, Prod.mk.injEq] at this
            simp [this.1, this.2, hb.1]

theorem readDelim_none {d : UInt8} {b : Bytes} : readDelim d b = none ↔ d ∉ b := by
  induction b with
  | nil => simp [readDelim]
  | cons x xs ih =>
    unfold readDelim
    by_cases hx : x = d
    · simp [hx]
    · simp only [hx, if_false]
      cases hr : readDelim d xs with
      | none =>
        have := ih.mp hr
        simp [this, Ne.symm hx]
      | some q =>
        have h2 : d ∈ xs := by
          by_contra hc; rw [ih.mpr hc] at hr; simp at hr
        simp [h2]

theorem readDelim_append {d : UInt8} {b l r : Bytes} (h : readDelim d b = some (l, r)) (t : Bytes) :
    readDelim d (b ++ t) = some (l, r ++ t) := by
  obtain ⟨p, h1, h2, h3⟩ := readDelim_some.mp h
  exact readDelim_some.mpr ⟨p, h1, by simp [h2], h3⟩

theorem readFull_some {n : Nat} {b l r : Bytes} :
    readFull n b = some (l, r) ↔ b = l ++ r ∧ l.length = n := by
  unfold readFull
  split
  · rename_i h
    simp only [Option.some.injEq, Prod.mk.injEq]
    constructor
    · rintro ⟨rfl, rfl⟩; simp [h]
    · rintro ⟨rfl, rfl⟩; simp
  · rename_i h
    simp only [reduceCtorEq, false_iff]
    rintro ⟨rfl, rfl⟩
    simp at h

theorem readFull_none {n : Nat} {b : Bytes} : readFull n b = none ↔ b.length < n := by
  unfold readFull; split <;> simp <;> omega

theorem readFull_append {n : Nat} {b l r : Bytes} (h : readFull n b = some (l, r)) (t : Bytes) :
    readFull n (b ++ t) = some (l, r ++ t) := by
  obtain ⟨h1, h2⟩ := readFull_some.mp h
  exact readFull_some.mpr ⟨by simp [h1], h2⟩

/-! ### slices and ints -/

theorem slice?_some {l : List α} {a b : Nat} (h : a ≤ b) (h2 : b ≤ l.length) :
    slice? l a b = some ((l.take b).drop a) := by simp [slice?, h, h2]

theorem slice?_length {l r : List α} {a b : Nat} (h : slice? l a b = some r) :
    r.length = b - a := by
  unfold slice? at h
  split at h
  · simp at h; rw [← h]; simp; omega
  · simp at h

theorem slice?_zero_pred {l : List α} : slice? l 0 (l.length - 1) = some l.dropLast := by
  rw [slice?_some (by omega) (by omega)]; simp [List.dropLast_eq_take]

theorem wrap64_id {x : Int} (h1 : -(2 ^ 63) ≤ x) (h2 : x < 2 ^ 63) : wrap64 x = x := by
  unfold wrap64
  rw [Int.bmod_eq_of_le] <;> simp <;> omega

theorem wrap64_range (x : Int) : -(2 ^ 63) ≤ wrap64 x ∧ wrap64 x < 2 ^ 63 := by
  unfold wrap64
  have h1 := @Int.le_bmod x (2 ^ 64) (by decide)
  have h2 := @Int.bmod_lt x (2 ^ 64) (by decide)
  constructor
  · refine le_trans ?_ h1; norm_num
  · refine lt_of_lt_of_le h2 ?_; norm_num

theorem makeOK_iff {size n : Int} : makeOK size n = true ↔ 0 ≤ n ∧ n * size ≤ 2 ^ 48 := by
  unfold makeOK maxAlloc; exact decide_eq_true_iff

theorem index?_nat (l : List α) (i : Nat) : index? l (i : Int) = l[i]? := by
  simp [index?]

end Radolan
