/-
Which archives are read, and what is wrong with the others.
-/
import Verif.Spec.Status

namespace Spec
open Go (Bytes str)

/-- an entry of an archive that is read without an error -/
def GoodEntry (U : Nat → Bool) (b : Bytes) : Prop :=
  ∃ H data, Understood U H ∧ b = H.file data ∧ H.Fine data ∧ Listed H

/-- `text` tells what is wrong with an entry: there is no header, a check fails, or the label is not in the catalogue -/
def BadEntry (U : Nat → Bool) (b : Bytes) (text : String) : Prop :=
  ((3 : UInt8) ∉ b ∧ text = "radolan.parseHeader: header corrupted: too short") ∨
  ∃ H data, Understood U H ∧ b = H.file data ∧ (H.Wrong data text ∨
    H.Fine data ∧ ¬ Listed H ∧ text = "radolan.NewComposite: data unit not defined in catalog. data values can be incorrect")

/-- an entry with a header in order that declares impossible dimensions -/
def ImpossibleEntry (U : Nat → Bool) (b : Bytes) : Prop :=
  ∃ H data n rows cols, Understood U H ∧ b = H.file data ∧ H.Orderly n rows cols ∧ Head.Impossible rows cols

/-- the first entry that is not good is `b` -/
def FirstNotGood (U : Nat → Bool) (entries : List Bytes) (b : Bytes) : Prop :=
  ∃ pre post, entries = pre ++ b :: post ∧ ∀ p ∈ pre, GoodEntry U p

end Spec
