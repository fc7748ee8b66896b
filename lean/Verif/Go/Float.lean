/-
Soft-float model of Go's float32 and float64 (IEEE 754, round to nearest even, no fused
multiply-add).  A value of type `Fl f` is exactly an IEEE datum of format `f`, except that all NaN
payloads are identified (the code of /repo never inspects NaN bits).
-/
import Verif.Go.Round

namespace Go

/-- `q` is a finite value of format `f`. -/
def IsRep (f : Fmt) (q : ℚ) : Prop := rnd f q = q ∧ |q| < pow2 f.emax

theorem IsRep.zero (f : Fmt) : IsRep f 0 := ⟨rnd_zero f, by simpa using pow2_pos _⟩

theorem IsRep.neg {f : Fmt} {q : ℚ} (h : IsRep f q) : IsRep f (-q) :=
  ⟨by rw [rnd_neg, h.1], by rw [abs_neg]; exact h.2⟩

theorem IsRep.rnd {f : Fmt} {q : ℚ} (h : |Go.rnd f q| < pow2 f.emax) : IsRep f (Go.rnd f q) :=
  ⟨rnd_idem f q, h⟩

/-- IEEE data: NaN, infinities, negative zero, and the other finite values (`fin 0` is `+0`). -/
inductive Fl (f : Fmt) where
  | nan
  | inf (neg : Bool)
  | nzero
  | fin (q : ℚ) (h : IsRep f q)

abbrev F32 := Fl f32
abbrev F64 := Fl f64

namespace Fl
variable {f g : Fmt}

def zero : Fl f := .fin 0 (IsRep.zero f)

instance : Inhabited (Fl f) := ⟨zero⟩

instance instDecidableEq : DecidableEq (Fl f) := fun a b =>
  match a, b with
  | .nan, .nan => .isTrue rfl
  | .inf a, .inf b => if h : a = b then .isTrue (by rw [h]) else .isFalse (by simpa using h)
  | .nzero, .nzero => .isTrue rfl
  | .fin q _, .fin r _ => if h : q = r then .isTrue (by subst h; rfl) else .isFalse (by simpa using h)
  | .nan, .inf _ => .isFalse (by simp)
  | .nan, .nzero => .isFalse (by simp)
  | .nan, .fin .. => .isFalse (by simp)
  | .inf _, .nan => .isFalse (by simp)
  | .inf _, .nzero => .isFalse (by simp)
  | .inf _, .fin .. => .isFalse (by simp)
  | .nzero, .nan => .isFalse (by simp)
  | .nzero, .inf _ => .isFalse (by simp)
  | .nzero, .fin .. => .isFalse (by simp)
  | .fin .., .nan => .isFalse (by simp)
  | .fin .., .inf _ => .isFalse (by simp)
  | .fin .., .nzero => .isFalse (by simp)

/-- finite (not NaN, not infinite) -/
def isFin : Fl f → Bool
  | .nzero => true
  | .fin .. => true
  | _ => false

/-- the rational value of a finite float (`0` for NaN and infinities, used only under `isFin`) -/
def val : Fl f → ℚ
  | .fin q _ => q
  | _ => 0

/-- sign bit -/
def sign : Fl f → Bool
  | .nan => false
  | .inf b => b
  | .nzero => true
  | .fin q _ => decide (q < 0)

/-- Correctly rounded result of an operation with exact value `q`; `neg` is the sign given to a zero. -/
def mk (f : Fmt) (neg : Bool) (q : ℚ) : Fl f :=
  if rnd f q = 0 then (if neg then .nzero else zero)
  else if h : |rnd f q| < pow2 f.emax then .fin (rnd f q) (IsRep.rnd h)
  else .inf (decide (rnd f q < 0))

/-- constants and integer conversions -/
def lit (f : Fmt) (q : ℚ) : Fl f := mk f false q

def neg : Fl f → Fl f
  | .nan => .nan
  | .inf b => .inf (!b)
  | .nzero => zero
  | .fin q h => if q = 0 then .nzero else .fin (-q) h.neg

def abs : Fl f → Fl f
  | .nan => .nan
  | .inf _ => .inf false
  | .nzero => zero
  | .fin q h => if q < 0 then .fin (-q) h.neg else .fin q h

def add (x y : Fl f) : Fl f :=
  match x, y with
  | .nan, _ => .nan
  | _, .nan => .nan
  | .inf a, .inf b => if a = b then .inf a else .nan
  | .inf a, _ => .inf a
  | _, .inf b => .inf b
  | x, y => mk f (x.sign && y.sign) (x.val + y.val)

def sub (x y : Fl f) : Fl f := add x (neg y)

def mul (x y : Fl f) : Fl f :=
  match x, y with
  | .nan, _ => .nan
  | _, .nan => .nan
  | .inf a, .inf b => .inf (a ^^ b)
  | .inf a, y => if y.val = 0 then .nan else .inf (a ^^ y.sign)
  | x, .inf b => if x.val = 0 then .nan else .inf (x.sign ^^ b)
  | x, y => mk f (x.sign ^^ y.sign) (x.val * y.val)

def div (x y : Fl f) : Fl f :=
  match x, y with
  | .nan, _ => .nan
  | _, .nan => .nan
  | .inf _, .inf _ => .nan
  | .inf a, y => .inf (a ^^ y.sign)
  | x, .inf b => if (x.sign ^^ b) then .nzero else zero
  | x, y =>
    if y.val = 0 then (if x.val = 0 then .nan else .inf (x.sign ^^ y.sign))
    else mk f (x.sign ^^ y.sign) (x.val / y.val)

/-- conversion between formats, Go's `float32(x)` / `float64(x)` -/
def conv (g : Fmt) : Fl f → Fl g
  | .nan => .nan
  | .inf b => .inf b
  | .nzero => .nzero
  | .fin q _ => mk g (decide (q < 0)) q

/-- Go's `x < y` -/
def lt (x y : Fl f) : Bool :=
  match x, y with
  | .nan, _ => false
  | _, .nan => false
  | .inf a, .inf b => a && !b
  | .inf a, _ => a
  | _, .inf b => !b
  | x, y => decide (x.val < y.val)

/-- Go's `x == y` -/
def beq (x y : Fl f) : Bool :=
  match x, y with
  | .nan, _ => false
  | _, .nan => false
  | .inf a, .inf b => a == b
  | .inf _, _ => false
  | _, .inf _ => false
  | x, y => decide (x.val = y.val)

/-- Go's `x <= y` -/
def le (x y : Fl f) : Bool := lt x y || beq x y

/-! ### Basic lemmas -/

theorem val_repr (x : Fl f) : IsRep f x.val := by
  cases x with
  | fin q h => exact h
  | _ => exact IsRep.zero f

theorem rnd_val (x : Fl f) : rnd f x.val = x.val := x.val_repr.1

theorem mk_fin {b : Bool} {q : ℚ} (h : |rnd f q| < pow2 f.emax) :
    (mk f b q).isFin = true ∧ (mk f b q).val = rnd f q := by
  unfold mk
  split
  · rename_i h0
    rw [h0]; cases b <;> simp [isFin, val, zero]
  · simp [isFin, val]

theorem mk_isFin_iff {b : Bool} {q : ℚ} : (mk f b q).isFin = true ↔ |rnd f q| < pow2 f.emax := by
  constructor
  · intro h
    unfold mk at h
    split at h
    · rename_i h0; rw [h0]; simpa using pow2_pos _
    · split at h
      · assumption
      · simp [isFin] at h
  · intro h; exact (mk_fin h).1

theorem mk_val_of_isFin {b : Bool} {q : ℚ} (h : (mk f b q).isFin = true) :
    (mk f b q).val = rnd f q := (mk_fin (mk_isFin_iff.mp h)).2

theorem mk_ne_nan {b : Bool} {q : ℚ} : mk f b q ≠ .nan := by
  unfold mk zero
  split
  · split <;> simp
  · split <;> simp

theorem mk_of_repr {b : Bool} {q : ℚ} (h : IsRep f q) (h0 : q ≠ 0) : mk f b q = .fin q h := by
  unfold mk
  have h1 := h.1
  have h2 := h.2
  simp only [h1, h0, if_false, h2, dif_pos]

theorem lit_of_repr {q : ℚ} (h : IsRep f q) : lit f q = .fin q h := by
  by_cases h0 : q = 0
  · subst h0; simp [lit, mk, zero]
  · exact mk_of_repr h h0

theorem isFin_cases {x : Fl f} (h : x.isFin = true) : x = .nzero ∨ ∃ q hq, x = .fin q hq := by
  cases x <;> simp_all [isFin]

theorem add_fin {x y : Fl f} (hx : x.isFin = true) (hy : y.isFin = true) :
    add x y = mk f (x.sign && y.sign) (x.val + y.val) := by
  cases x <;> cases y <;> simp_all [isFin, add]

theorem mul_fin {x y : Fl f} (hx : x.isFin = true) (hy : y.isFin = true) :
    mul x y = mk f (x.sign ^^ y.sign) (x.val * y.val) := by
  cases x <;> cases y <;> simp_all [isFin, mul]

theorem div_fin {x y : Fl f} (hx : x.isFin = true) (hy : y.isFin = true) (h0 : y.val ≠ 0) :
    div x y = mk f (x.sign ^^ y.sign) (x.val / y.val) := by
  cases x <;> cases y <;> simp_all [isFin, div]

theorem neg_isFin (x : Fl f) : (neg x).isFin = x.isFin := by
  cases x with
  | fin q h => unfold neg; simp only; split <;> rfl
  | _ => rfl

@[simp] theorem neg_val (x : Fl f) : (neg x).val = - x.val := by
  cases x with
  | fin q h =>
    unfold neg; simp only; split
    · rename_i h0; simp [val, h0]
    · rfl
  | _ => simp [neg, val, zero]

theorem neg_sign_of_ne_zero {x : Fl f} (h : x.val ≠ 0) : (neg x).sign = !x.sign := by
  cases x with
  | fin q hq =>
    simp only [val] at h
    simp only [neg, h, if_false, sign]
    by_cases hl : q < 0
    · simp [hl, hl.le]
    · have : 0 < q := lt_of_le_of_ne (not_lt.mp hl) (Ne.symm h)
      simp [hl, this]
  | _ => simp [val] at h

theorem sub_fin {x y : Fl f} (hx : x.isFin = true) (hy : y.isFin = true) :
    sub x y = mk f (x.sign && (neg y).sign) (x.val - y.val) := by
  unfold sub
  rw [add_fin hx (by rw [neg_isFin]; exact hy), neg_val, sub_eq_add_neg]

theorem abs_isFin (x : Fl f) : (abs x).isFin = x.isFin := by
  cases x with
  | fin q h => unfold abs; simp only; split <;> rfl
  | _ => rfl

@[simp] theorem abs_val (x : Fl f) : (abs x).val = |x.val| := by
  cases x with
  | fin q hq =>
    unfold abs; simp only; split
    · rename_i h; simp only [val]; rw [abs_of_neg h]
    · rename_i h; simp only [val]; rw [abs_of_nonneg (not_lt.mp h)]
  | _ => simp [abs, val, zero]

theorem lt_fin {x y : Fl f} (hx : x.isFin = true) (hy : y.isFin = true) :
    lt x y = decide (x.val < y.val) := by
  cases x <;> cases y <;> simp_all [isFin, lt]

theorem beq_self (x : Fl f) : beq x x = true ↔ x ≠ .nan := by
  cases x <;> simp [beq]

theorem isFin_ne_nan {x : Fl f} (h : x.isFin = true) : x ≠ .nan := by
  intro he; subst he; simp [isFin] at h

/-- a finite nonzero float is determined by its value -/
theorem eq_of_val {x y : Fl f} (hx : x.isFin = true) (hy : y.isFin = true)
    (h : x.val = y.val) (h0 : x.val ≠ 0) : x = y := by
  cases x <;> cases y <;> simp_all [isFin, val]

theorem conv_fin {x : Fl f} (hx : x.isFin = true) (h0 : x.val ≠ 0) :
    conv g x = mk g (x.sign) x.val := by
  cases x <;> simp_all [isFin, conv, val, sign]

theorem conv_val {x : Fl f} (hx : x.isFin = true) (h : |rnd g x.val| < pow2 g.emax) :
    (conv g x).isFin = true ∧ (conv g x).val = rnd g x.val := by
  by_cases h0 : x.val = 0
  · cases x <;> simp_all [isFin, conv, val, mk, zero]
  · rw [conv_fin hx h0]; exact mk_fin h

/-! ### Conversions to integers -/

/-- truncation toward zero of a rational -/
def ratTrunc (q : ℚ) : Int := if 0 ≤ q then q.floor else -((-q).floor)

/-- Go's `uint8(x)` for a float: truncation when the truncated value is representable; otherwise
the result is implementation-dependent (Go spec, "Conversions between numeric types"), modelled by
the arbitrary function `impl`. -/
def toU8 (impl : Fl f → UInt8) (x : Fl f) : UInt8 :=
  if x.isFin then
    if 0 ≤ ratTrunc x.val ∧ ratTrunc x.val ≤ 255 then UInt8.ofNat (ratTrunc x.val).toNat
    else impl x
  else impl x

/-- Go's `int(x)` for a float; out of range values are implementation-dependent. -/
def toInt (impl : Fl f → Int) (x : Fl f) : Int :=
  if x.isFin then
    if -(2 ^ 63) ≤ ratTrunc x.val ∧ ratTrunc x.val < 2 ^ 63 then ratTrunc x.val
    else impl x
  else impl x

/-! ### math functions with exact or table semantics -/

/-- `math.Mod` (fmod): exact remainder with the sign of the dividend. -/
def fmod (x y : Fl f) : Fl f :=
  match x, y with
  | .nan, _ => .nan
  | _, .nan => .nan
  | .inf _, _ => .nan
  | x, .inf _ => x
  | x, y =>
    if y.val = 0 then .nan
    else mk f x.sign (x.val - (ratTrunc (x.val / y.val) : ℚ) * y.val)

/-- `math.Pow10` of Go's math package (pow10.go): two table lookups and one operation; the tables
hold the float64 nearest to the decimal constants. -/
def pow10 (n : Int) : F64 :=
  if 0 ≤ n ∧ n ≤ 308 then
    mul (lit f64 ((10 ^ (32 * (n.toNat / 32)) : Nat) : ℚ)) (lit f64 ((10 ^ (n.toNat % 32) : Nat) : ℚ))
  else if -323 ≤ n ∧ n ≤ 0 then
    div (lit f64 (mkRat 1 (10 ^ (32 * ((-n).toNat / 32))))) (lit f64 ((10 ^ ((-n).toNat % 32) : Nat) : ℚ))
  else if 0 < n then .inf false
  else zero

end Fl
end Go
