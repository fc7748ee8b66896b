/-
Specification of run-length coded lines.
-/
import Verif.Go.Float
import Verif.Spec.Header

namespace Spec
open Go

/-- value of a class code: code 0 and codes beyond the level table are missing data, code k is the k-th level -/
def classValue (levels : List F32) (k : Nat) : F32 := if k = 0 then .nan else (levels[k - 1]?).getD .nan

/-- number of pixels covered by runs (length, code) -/
def total : List (Nat × Nat) → Nat
  | [] => 0
  | r :: rs => r.1 + total rs

/-- the codes of a line: a gap of missing data, then the runs -/
def codes (gap : Nat) (runs : List (Nat × Nat)) : List Nat :=
  List.replicate gap 0 ++ runs.flatMap fun r => List.replicate r.1 r.2

/-- the row of `w` values given by codes from the left; pixels without code are missing data -/
def row (levels : List F32) (w : Nat) (cs : List Nat) : List F32 :=
  (List.range w).map fun i => classValue levels ((cs[i]?).getD 0)

/-- a run: length in the upper, class code in the lower four bits -/
def runByte (r : Nat × Nat) : UInt8 := UInt8.ofNat (r.1 * 16 + r.2)

/-- A line: a line number byte, the gap before the first run as offset bytes (16 + number of pixels, 255 meaning
that another offset byte follows), then the runs. -/
def RunLine (line : Bytes) (gap : Nat) (runs : List (Nat × Nat)) : Prop :=
  ∃ (nr : UInt8) (more : Nat) (last : UInt8), 16 ≤ last ∧ last < 255 ∧ (∀ r ∈ runs, r.1 < 16 ∧ r.2 < 16) ∧
    line = nr :: (List.replicate more 255 ++ last :: runs.map runByte) ∧ gap = more * 239 + (last.toNat - 16)

/-- a line that ends before its offset is complete: nothing, a line number, or continued offsets only -/
def BlankLine (line : Bytes) : Prop := line = [] ∨ ∃ (nr : UInt8) (more : Nat), line = nr :: List.replicate more 255

/-- the runs of a line fit into a row of `w` pixels (a gap without runs always fits) -/
def Fits (w gap : Nat) (runs : List (Nat × Nat)) : Prop := total runs = 0 ∨ gap + total runs ≤ w

/-- what a line means for a row of `w` pixels -/
def Decodes (levels : List F32) (w : Nat) (line : Bytes) (vals : List F32) : Prop :=
  (BlankLine line ∧ vals = row levels w []) ∨
  ∃ gap runs, RunLine line gap runs ∧ Fits w gap runs ∧ vals = row levels w (codes gap runs)

/-- lines terminated by a line feed -/
def lines (ls : List Bytes) : Bytes := (ls.map (· ++ [10])).flatten

/-! ### an encoder -/

/-- runs of equal codes, at most 15 long -/
def group : List Nat → List (Nat × Nat)
  | [] => []
  | k :: ks =>
    match group ks with
    | [] => [(1, k)]
    | (n, k') :: rs => if k = k' ∧ n < 15 then (n + 1, k) :: rs else (1, k) :: (n, k') :: rs

/-- encode a row of codes: leading missing data as gap, the rest as runs -/
def encodeLine (nr : UInt8) (cs : List Nat) : Bytes :=
  let gap := (cs.takeWhile (· = 0)).length
  nr :: (List.replicate (gap / 239) 255 ++ UInt8.ofNat (16 + gap % 239) ::
    (group (cs.dropWhile (· = 0))).map runByte)

end Spec
