/-
C110: the exception - a file whose reader returns a byte together with an error.
-/
import Verif.Props.BzAny

deriving instance DecidableEq for Radolan.Bz.BR
deriving instance DecidableEq for Radolan.Bz.Out
deriving instance DecidableEq for Radolan.Bz.Block
deriving instance DecidableEq for Radolan.Bz.Node
deriving instance DecidableEq for Radolan.Bz.Reader

namespace Props
open Go Radolan
open _root_.Spec _root_.Spec.Tar _root_.Spec.Bzip2

/-- a file that ends within a block, the code of the end symbol being a single zero -/
def cutFile : Bytes := [66, 90, 104, 57, 49, 65, 89, 38, 83, 89, 0, 0, 0, 0, 0, 0, 0, 1, 0, 32, 0, 32, 0, 224, 4, 97, 26]

namespace Cut

/-- its bits from `k` on -/
def b (k : Nat) : Bz.BR := ⟨(cutFile.flatMap Bz.byteBits).drop k, .eof, none⟩

def T : List Bz.Node := [⟨some 1, none, 0, 2⟩, ⟨none, none, 1, 0⟩, ⟨none, none, 0, 0⟩]

theorem tree : Bz.newTree [2, 2, 1] = .ok T := by
  have h1 : ([2, 2, 1] : List Nat).zipIdx.mergeSort Bz.shorter = [(1, 2), (2, 0), (2, 1)] := by
    simp [List.mergeSort, List.MergeSort.Internal.splitInTwo, Bz.shorter]
  have h2 : (Bz.assign [(2, 1), (2, 0), (1, 2)] 0 32).mergeSort (fun a b => decide (a.code ≤ b.code)) =
      Bz.assign [(2, 1), (2, 0), (1, 2)] 0 32 := by
    simp [List.mergeSort, List.MergeSort.Internal.splitInTwo, Bz.assign]
  unfold Bz.newTree
  rw [h1]
  simp only [List.reverse_cons, List.reverse_nil, List.nil_append, List.cons_append]
  rw [h2]
  decide +kernel

theorem trees : Bz.readTrees 3 2 (b 194) = .ok ([T, T], b 214) := by
  have h1 : Bz.readBits 5 (b 194) = (2, b 199) := by decide +kernel
  have h2 : Bz.codeLengths 3 2 (b 199) = .ok ([2, 2, 1], b 204) := by decide +kernel
  have h3 : Bz.readBits 5 (b 204) = (2, b 209) := by decide +kernel
  have h4 : Bz.codeLengths 3 2 (b 209) = .ok ([2, 2, 1], b 214) := by decide +kernel
  simp only [Bz.readTrees, h1, h2, h3, h4, tree, bind, Bz.Out.bind]

def last : Bz.BR := ⟨[], .eof, some .unexpectedEOF⟩

theorem block : Bz.readBlock 900000 (b 112) = .ok (⟨[97], 0, 0, none, 0, 0⟩, last) := by
  have h1 : Bz.readBits 1 (b 112) = (0, b 113) := by decide +kernel
  have h2 : Bz.readBits 24 (b 113) = (0, b 137) := by decide +kernel
  have h3 : Bz.usedBytes (b 137) = ([97], b 169) := by decide +kernel
  have h4 : Bz.readBits 3 (b 169) = (2, b 172) := by decide +kernel
  have h5 : Bz.readBits 15 (b 172) = (7, b 187) := by decide +kernel
  have h6 : Bz.selectors 2 7 (List.range 2) (b 187) = .ok ([0, 0, 0, 0, 0, 0, 0], b 194) := by decide +kernel
  have h7 : Bz.symbols [0, 0, 0, 0, 0, 0, 0] [T, T] 3 900000 408 ⟨1, 0, T, 0, 0, [97], [], b 214⟩ = .ok ([97], last) := by decide +kernel
  have h8 : Bz.inverseBWT [97] 0 (Bz.counts [97]) = .ok ([97], 0) := by decide +kernel
  unfold Bz.readBlock
  simp only [h1, h2, h3, h4, h5, h6, h7, h8, trees, bind, Bz.Out.bind, List.length_cons, List.length_nil, Nat.reduceAdd, Nat.reduceMul,
    Nat.reduceLT, Nat.reduceLeDiff, ne_eq, not_true_eq_false, if_false, or_self, List.getElem?_cons_zero, one_ne_zero]

/-- the reader in the block, after the byte of the block -/
def Z (pre : Bz.Block) (crc : Nat) : Bz.Reader := ⟨last, 0, crc, 0, true, 900000, pre, none⟩

theorem first_read : ∃ z, Bz.read (Bz.newReader cutFile .eof) 1 = .ok ([97], some .unexpectedEOF, z) ∧
    ∃ z', Bz.read z 1 = .ok ([], some Bz.structural, z') := by
  have h1 : Bz.setup true (Bz.newReader cutFile .eof) = (none, ⟨b 32, 0, 0, 0, false, 900000, ⟨[], 0, 0, none, 0, 0⟩, none⟩) := by decide +kernel
  have h2 : Bz.readFromBlock 2 1 ⟨[], 0, 0, none, 0, 0⟩ = .ok ([], ⟨[], 0, 0, none, 0, 0⟩) := by decide +kernel
  have h3 : Bz.readBits 48 (b 32) = (0x314159265359, b 80) := by decide +kernel
  have h4 : Bz.readBits 32 (b 80) = (0, b 112) := by decide +kernel
  have h5 : ∀ z : Bz.Reader, z = ⟨b 32, 0, 0, 0, true, 900000, ⟨[], 0, 0, none, 0, 0⟩, none⟩ → Bz.readLoop 185 1 z =
      Bz.readLoop 184 1 (Z ⟨[97], 0, 0, none, 0, 0⟩ 0) := by
    rintro z rfl
    rw [Bz.readLoop]
    simp only [List.length_nil, Nat.zero_add, Nat.reduceAdd, h2, h3, h4, block, bind, Bz.Out.bind, lt_irrefl, one_ne_zero, or_self, if_false,
      ne_eq, not_true_eq_false, if_true]
    rfl
  have h6 : Bz.readLoop 184 1 (Z ⟨[97], 0, 0, none, 0, 0⟩ 0) = .ok ([97], none, Z ⟨[97], 1, 0, some 97, 0, 0⟩ (Bz.updateCRC 0 [97])) := by
    decide +kernel
  refine ⟨Z ⟨[97], 1, 0, some 97, 0, 0⟩ (Bz.updateCRC 0 [97]), ?_, ?_⟩
  · have hl : (b 32).rest.length + 1 = 185 := by decide +kernel
    have hf : (Bz.newReader cutFile .eof).failed = none := rfl
    have hd : (Bz.newReader cutFile .eof).setupDone = false := rfl
    unfold Bz.read
    simp only [hf, hd, h1, Bool.false_eq_true, if_false]
    have he : (b 32).err = none := rfl
    simp only [he, hl, bind, Bz.Out.bind]
    rw [h5 _ rfl, h6]
    rfl
  · have : (match Bz.read (Z ⟨[97], 1, 0, some 97, 0, 0⟩ (Bz.updateCRC 0 [97])) 1 with
      | .ok (out, e, _) => decide (out = []) && decide (e = some Bz.structural)
      | _ => false) = true := by decide +kernel
    rcases h : Bz.read (Z ⟨[97], 1, 0, some 97, 0, 0⟩ (Bz.updateCRC 0 [97])) 1 with _ | _ | ⟨out, e, z'⟩
    · rw [h] at this; simp at this
    · rw [h] at this; simp at this
    · rw [h] at this
      simp only [Bool.and_eq_true, decide_eq_true_eq] at this
      exact ⟨z', by rw [this.1, this.2]⟩

end Cut

theorem source_read {z : Bz.Reader} {n : Nat} {x : Bytes × Option IOErr × Bz.Reader} (h : Bz.read z n = .ok x) : Bz.source.read z n = x := by
  change (match Bz.read z n with | .ok x => x | _ => ([], none, z)) = _
  rw [h]

/-- C110. The exception exists: the reader of some file returns a byte together with an error and afterwards another error; it
does not stand for one sequence of bytes and one error. -/
theorem C110_exception : ∃ file, BytesWithError (Bz.newReader file .eof) ∧
    ∀ data e, ¬ DeliversThen Bz.source (Bz.newReader file .eof) data e := by
  obtain ⟨z, h1, z', h2⟩ := Cut.first_read
  refine ⟨cutFile, .here (by decide) h1 (by simp), fun data e ⟨ok, rem, idle, hf, hok, _, he⟩ => ?_⟩
  have k1 : Bz.source.read (Bz.newReader cutFile .eof) 1 = ([97], some .unexpectedEOF, z) := source_read h1
  have k2 : Bz.source.read z 1 = ([], some Bz.structural, z') := source_read h2
  have e1 := he _ 1 .unexpectedEOF hok (by decide) (by rw [k1])
  have s1 := hf.stays _ 1 hok (by decide)
  rw [k1] at s1
  have e2 := he _ 1 Bz.structural s1 (by decide) (by rw [k2])
  rw [← e1] at e2
  exact absurd e2 (by decide)

end Props
