/-
Floating point evaluation as the Go specification permits it (section "Floating-point operators": an implementation may
combine several operations into one fused operation, possibly across statements, and produce a result that differs from
the one obtained by rounding every operation). The model evaluates every expression with each operation rounded; here
the same code is evaluated to the set of all results a conforming compiler may produce.
-/
import Verif.Model.Arith

namespace Spec.Fusion
open Go Radolan

/-- an intermediate result of a computation: a float64, or the exact result of an operation that has not been rounded -/
inductive Inter where
  | word (x : F64)
  | exact (q : ℚ)

/-- `u.Rounds x`: `x` may be what is left of `u` when it is rounded: on being stored, returned or passed to a function of
package math. An exact zero may become either of the two zeros. -/
def Inter.Rounds : Inter → F64 → Prop
  | .word x, y => y = x
  | .exact q, y => ∃ neg, y = Fl.mk f64 neg q

/-- `u.Is q`: the intermediate result is the finite number `q` -/
def Inter.Is : Inter → ℚ → Prop
  | .word x, q => x.isFin = true ∧ q = x.val
  | .exact p, q => q = p

/-- what an operation may make of two intermediate results: the operands are rounded and the operation is carried out in
float64, or the exact result of finite operands is kept, or it is rounded once -/
inductive Permitted (op : F64 → F64 → F64) (exactly : ℚ → ℚ → ℚ) (defined : ℚ → ℚ → Prop) (u v : Inter) : Inter → Prop where
  | separate {x y : F64} : u.Rounds x → v.Rounds y → Permitted op exactly defined u v (.word (op x y))
  | kept {p q : ℚ} : u.Is p → v.Is q → defined p q → Permitted op exactly defined u v (.exact (exactly p q))
  | fused {p q : ℚ} (neg : Bool) : u.Is p → v.Is q → defined p q →
      Permitted op exactly defined u v (.word (Fl.mk f64 neg (exactly p q)))

/-- all results of a binary operation on sets of intermediate results -/
def binary (op : F64 → F64 → F64) (exactly : ℚ → ℚ → ℚ) (defined : ℚ → ℚ → Prop) (a b : Inter → Prop) : Inter → Prop :=
  fun w => ∃ u v, a u ∧ b v ∧ Permitted op exactly defined u v w

/-- all results of calling a function of package math -/
def call (f : F64 → F64) (a : Inter → Prop) : Inter → Prop := fun w => ∃ u x, a u ∧ u.Rounds x ∧ w = .word (f x)

/-- exactly this float64 -/
def just (x : F64) : Inter → Prop := fun u => u = .word x

/-- the arithmetic of all permitted evaluations. Every use of a variable may see another of its possible values, which
is more than any implementation does. Constants are rounded. -/
def permittedArith (M : MathLib) : Arith (Inter → Prop) where
  add := binary Fl.add (· + ·) (fun _ _ => True)
  sub := binary Fl.sub (· - ·) (fun _ _ => True)
  mul := binary Fl.mul (· * ·) (fun _ _ => True)
  div := binary Fl.div (· / ·) (fun _ q => q ≠ 0)
  neg a w := ∃ u, a u ∧ match u with
    | .word x => w = .word (Fl.neg x)
    | .exact q => w = .exact (-q)
  lit q := just (Fl.lit f64 q)
  piMul q := just (Fl.lit f64 (goPi * q))
  ofInt n := just (Fl.lit f64 (n : ℚ))
  nan := just .nan
  sin := call M.sin
  cos := call M.cos
  tan := call M.tan
  pow a b w := ∃ u v x y, a u ∧ b v ∧ u.Rounds x ∧ v.Rounds y ∧ w = .word (M.pow x y)
  log10 := call M.log10

/-- `x` is a float64 that a user may see as the result of a computation -/
def Observable (a : Inter → Prop) (x : F64) : Prop := ∃ u, a u ∧ u.Rounds x

end Spec.Fusion
