/-
UTF-8, by encoding: the bytes of a code point. And header text that is not ASCII.
-/
import Verif.Spec.Calendar

namespace Spec
open Go (Bytes)

/-- Unicode scalar value: a code point that is not a surrogate -/
def scalar (cp : Nat) : Prop := cp < 0xD800 ∨ 0xE000 ≤ cp ∧ cp < 0x110000

/-- the bytes of a scalar value (RFC 3629) -/
def utf8 (cp : Nat) : Bytes :=
  if cp < 0x80 then [UInt8.ofNat cp]
  else if cp < 0x800 then [UInt8.ofNat (0xC0 + cp / 64), UInt8.ofNat (0x80 + cp % 64)]
  else if cp < 0x10000 then [UInt8.ofNat (0xE0 + cp / 4096), UInt8.ofNat (0x80 + cp / 64 % 64), UInt8.ofNat (0x80 + cp % 64)]
  else [UInt8.ofNat (0xF0 + cp / 262144), UInt8.ofNat (0x80 + cp / 4096 % 64), UInt8.ofNat (0x80 + cp / 64 % 64),
    UInt8.ofNat (0x80 + cp % 64)]

/-- Arbitrary bytes as the value of a header field: no header delimiter, no upper-case letter, ASCII or UTF-8 encoded
(`upperNA` tells which scalar values beyond ASCII are upper-case letters), and an ASCII character at the end. -/
def Calm (upperNA : Nat → Bool) (v : Bytes) : Prop :=
  (∀ b ∈ v, ¬ upper b ∧ b ≠ 3) ∧ (∀ cp, 128 ≤ cp → scalar cp → upperNA cp = true → ¬ utf8 cp <:+: v) ∧
  ∀ b ∈ v.getLast?, b < 128

/-- a field with any such value -/
def Field.WF8 (upperNA : Nat → Bool) (f : Field) : Prop :=
  f.key ≠ [] ∧ (∀ b ∈ f.key, upper b) ∧ f.val ≠ [] ∧ Calm upperNA f.val

/-- A field of a header with any text in it: no header delimiter, no ASCII upper-case letter and an ASCII character at
the end of the value, and nothing but ASCII in the values that are evaluated. Other than that the value may consist of
any bytes, UTF-8 or not. -/
def Field.Text (f : Field) : Prop :=
  f.key ≠ [] ∧ (∀ b ∈ f.key, upper b) ∧ f.val ≠ [] ∧ (∀ b ∈ f.val, ¬ upper b ∧ b ≠ 3) ∧ (∀ b ∈ f.val.getLast?, b < 128) ∧
    (f.key ∈ knownKeys → ∀ b ∈ f.val, b < 128)

instance (f : Field) : Decidable f.Text := by unfold Field.Text; infer_instance

end Spec
