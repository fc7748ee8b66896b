/-
C107: the bzip2 decompressor, and with it NewComposites from the bytes of the file on.
-/
import Verif.Lemmas.BzStream
import Verif.Props.TarBytes

namespace Props
open Go Radolan Radolan.TarReader Spec Spec.Tar Spec.Bzip2

/-- C107. The reader that NewComposites puts around its argument delivers, for every file a bzip2 compressor can write for
some data (of one stream or several, whatever it chooses for the block size and the blocks, for the runs it codes, the
code tables and the selectors), exactly the data, in whatever portions it is asked for them, and then the error with which
its argument ends. No check fails. -/
theorem C107_decompressed {data file : Bytes} (h : Compressed data file) {e : IOErr} (he : e ≠ .bufferFull) :
    DeliversThen Bz.source (Bz.newReader file e) data e := Bz.delivers h he

/-- C107. NewComposites of a compressed archive parses exactly the contents of the members, in order. -/
theorem C107_archive {E : Env} {e : IOErr} {ms : Bytes} {cs : List Bytes}
    {sortSlice : (Composite → Composite → Bool) → List Composite → List Composite}
    {ext : Bytes → TarReader.State Bz.source → Option (TarNext × TarReader.State Bz.source)} {r : Bytes} {file : Bytes}
    (hm : Members ms cs) (hr : EndMark r ∨ (r = [] ∨ r = zeroBlock) ∧ e = .eof) (he : e ≠ .bufferFull)
    (hf : Compressed (ms ++ r) file) :
    NewCompositesTar E sortSlice (goTar Bz.source ext) (newReader (Bz.newReader file e)) =
      some (NewComposites E sortSlice ⟨cs, false⟩) :=
  C101_archive hm hr (C107_decompressed hf he)

/-! ### what the decompressor restores -/

/-- C107. The Huffman decoder: the code words of complete tables are read back. -/
theorem C107_code {lengths : List Nat} (h : Complete lengths) : ∃ nodes, Bz.newTree lengths = .ok nodes ∧
    ∀ v, v < lengths.length → ∀ (rest : List Bool) (e : IOErr),
      Bz.decode nodes 20 0 ⟨codeword lengths v ++ rest, e, none⟩ = .ok (v, ⟨rest, e, none⟩) := by
  obtain ⟨nodes, h1, _, h3⟩ := Bz.newTree_spec h
  refine ⟨nodes, h1, fun v hv rest e => Bz.decode_path (h3 v hv) 20 rest e none ?_⟩
  simp only [codeword, List.length_map, List.length_range]
  rw [List.getD_eq_getElem?_getD, List.getElem?_eq_getElem hv]
  exact (h.1 _ (List.getElem_mem hv)).2

/-- C107. The data of a file are determined by the file: no file can be read as two different texts. -/
theorem C107_unique {d1 d2 file : Bytes} (h1 : Compressed d1 file) (h2 : Compressed d2 file) : d1 = d2 :=
  Bz.compressed_unique h1 h2

/-! ### a file -/

/-- what bzip2 -9 writes for "aaaaaaab" -/
def sampleFile : Bytes := [66, 90, 104, 57, 49, 65, 89, 38, 83, 89, 109, 214, 200, 76, 0, 0, 2, 65, 0, 8, 0, 48, 0, 32, 0, 33, 38, 65,
  152, 66, 184, 187, 146, 41, 194, 132, 131, 110, 182, 66, 96]

def sampleData : Bytes := [97, 97, 97, 97, 97, 97, 97, 98]

theorem sample_block : Spec.Bzip2.Block 900000 sampleData (bits 1 0 ++ bits 24 4 ++
    usedBits (fun b => ([97, 97, 97, 97, 98, 3] : Bytes).contains (UInt8.ofNat b)) ++ bits 3 2 ++ bits 15 1 ++
      [false] ++ [[2, 3, 2, 2, 3], [3, 3, 2, 2, 2]].flatMap tableBits ++ symbolBits [[2, 3, 2, 2, 3], [3, 3, 2, 2, 2]] [0] [2, 0, 0, 3, 3, 4]) := by
  refine ⟨[97, 97, 97, 97, 3, 98], [97, 97, 97, 97, 98, 3], 4, [[2, 3, 2, 2, 3], [3, 3, 2, 2, 2]], [0], [2, 0, 0, 3, 3, 4], [false],
    by decide, ?_, ?_, by decide, ?_⟩
  · exact Runs.long (b := 97) (k := 3) (data := [98]) (code := [98]) (by decide) (by decide)
      (Runs.short (b := 98) (k := 1) (data := []) (code := []) (by decide) (by decide) (by decide) .nil)
  · exact ⟨[[3, 98, 97, 97, 97, 97], [97, 3, 98, 97, 97, 97], [97, 97, 3, 98, 97, 97], [97, 97, 97, 3, 98, 97],
      [97, 97, 97, 97, 3, 98], [98, 97, 97, 97, 97, 3]], by decide +kernel, by decide +kernel, rfl, rfl⟩
  · have ha : (List.range 256).filter (fun b => ([97, 97, 97, 97, 98, 3] : Bytes).contains (UInt8.ofNat b)) = [3, 97, 98] := by decide +kernel
    simp only [ha]
    refine ⟨?_, by decide, by decide, ?_, by decide, by decide, ?_, rfl⟩
    · exact .byte (m := [3, 97, 98]) (b := 97) (i := 0) (data := [97, 97, 97, 98, 3]) (syms := [0, 0, 3, 3, 4]) rfl
        (.run (m := [97, 3, 98]) (b := 97) (ds := [0, 0]) (data := [98, 3]) (syms := [3, 3, 4]) rfl (by decide) (by decide) (by decide)
          (.byte (m := [97, 3, 98]) (b := 98) (i := 1) (data := [3]) (syms := [3, 4]) rfl
            (.byte (m := [98, 97, 3]) (b := 3) (i := 1) (data := []) (syms := [4]) rfl .done)))
    · intro t ht
      rcases List.mem_cons.mp ht with rfl | ht
      · exact ⟨⟨by decide, by decide⟩, rfl⟩
      · rw [List.mem_singleton] at ht
        subst ht
        exact ⟨⟨by decide, by decide⟩, rfl⟩
    · exact .cons (m := [0, 1]) (c := 0) (s := 0) (sels := []) (w := []) rfl .nil

theorem sample_compressed : Compressed sampleData sampleFile := by
  have hc : crc sampleData = 1842792524 := by decide +kernel
  have hb := Blocks.block (c := 0) sample_block (Blocks.done)
  rw [List.append_nil] at hb
  exact .one (level := 9) (pad := [false, false, false]) (by decide) (by decide) hb (by decide) (by rw [hc]; decide +kernel)

example : DeliversThen Bz.source (Bz.newReader sampleFile .eof) sampleData .eof := C107_decompressed sample_compressed (by decide)

example : Compressed (sampleData ++ sampleData) (sampleFile ++ sampleFile) := .more sample_compressed sample_compressed

end Props
