/-
C110: a compressed file, whatever it consists of, stands for one sequence of bytes and one error.
-/
import Verif.Lemmas.BzAny
import Verif.Props.BzSums
import Verif.Props.TarBytes

namespace Props
open Go Radolan
open _root_.Spec _root_.Spec.Tar _root_.Spec.Bzip2

/-- reads with buffers of any sizes but zero, the last of which returns bytes together with an error -/
inductive BytesWithError : Bz.Reader → Prop
  | here {z n out e z'} : 0 < n → Bz.read z n = .ok (out, some e, z') → out ≠ [] → BytesWithError z
  | later {z n out z'} : 0 < n → Bz.read z n = .ok (out, none, z') → BytesWithError z' → BytesWithError z

theorem bytesWithError_iff (z : Bz.Reader) : BytesWithError z ↔ Bz.Mix z := by
  constructor
  · intro h
    induction h with
    | here a b c => exact .here a b c
    | later a b _ ih => exact .step a b ih
  · intro h
    induction h with
    | here a b c => exact .here a b c
    | step a b _ ih => exact .later a b ih

/-- C110. Whatever a file consists of - complete, truncated, damaged or not compressed at all -: unless reads of it can return
bytes together with an error, it stands for one sequence of bytes and one error, which its reader delivers whatever the sizes
of the buffers; and if the error is io.EOF, the bytes passed the test of the checksums. -/
theorem C110_any_file (file : Bytes) {e0 : IOErr} (h0 : e0 ≠ .bufferFull) (hno : ¬ BytesWithError (Bz.newReader file e0)) :
    ∃ data e, DeliversThen Bz.source (Bz.newReader file e0) data e ∧ (e = .eof → Vouched data (fileBits file)) := by
  rw [bytesWithError_iff] at hno
  obtain ⟨e, out, he, h⟩ := Bz.any_exists file e0 h0 hno
  refine ⟨out, e, Bz.any_delivers h0 he h, fun hx => ?_⟩
  subst hx
  obtain ⟨z', z'', h1, h2⟩ := Bz.any_drain h0 (Delivered file e0) (fun _ _ _ _ _ hd hr => .next hd hr) _ [] _ out (le_refl _) .start h
  exact (C109_vouched h1 h2).2

/-- C110. NewComposites with such a file: it returns, and the result is that for a sequence of entries and damage determined
by the bytes and the error the file stands for. -/
theorem C110_composites : ∃ archiveOf : Bytes → IOErr → Archive, ∀ (file : Bytes) (e0 : IOErr), e0 ≠ .bufferFull →
    ¬ BytesWithError (Bz.newReader file e0) →
    ∃ data e, DeliversThen Bz.source (Bz.newReader file e0) data e ∧ (e = .eof → Vouched data (fileBits file)) ∧
      (NoExtensions data → ∀ (E : Env) (ext : Bytes → TarReader.State Bz.source → Option (TarNext × TarReader.State Bz.source))
        (sortSlice : (Composite → Composite → Bool) → List Composite → List Composite),
        NewCompositesTar E sortSlice (TarReader.goTar Bz.source ext) (TarReader.newReader (S := Bz.source) (Bz.newReader file e0)) =
          some (NewComposites E sortSlice (archiveOf data e))) := by
  obtain ⟨f, hf⟩ := C101_any_stream
  refine ⟨f, fun file e0 h0 hno => ?_⟩
  obtain ⟨data, e, h1, h2⟩ := C110_any_file file h0 hno
  exact ⟨data, e, h1, h2, fun hx E ext sortSlice => hf E Bz.source _ data e ext sortSlice h1 hx⟩

/-! ### the hypotheses are met -/

/-- by the file of any data -/
theorem compressed_no_bytesWithError {data file : Bytes} (h : Compressed data file) (e : IOErr) :
    ¬ BytesWithError (Bz.newReader file e) := by
  have key : ∀ {z : Bz.Reader}, BytesWithError z → ∀ out, Bz.Left e z out → False := by
    intro z hz
    induction hz with
    | here a b c =>
      intro out ho
      rcases Bz.read_spec _ _ _ ho a with ⟨_, z', a1, _⟩ | ⟨k, z', _, _, _, a1, _⟩
      · rw [a1] at b; cases b; exact c rfl
      · rw [a1] at b; cases b
    | later a b _ ih =>
      intro out ho
      rcases Bz.read_spec _ _ _ ho a with ⟨_, z', a1, _⟩ | ⟨k, z', _, _, _, a1, a2⟩
      · rw [a1] at b; cases b
      · rw [a1] at b; cases b; exact ih _ a2
  exact fun hz => key hz _ (Or.inr (Or.inr ⟨rfl, rfl, file, h, rfl⟩))

/-- and of a file that is not compressed at all -/
theorem plain_no_bytesWithError : ¬ BytesWithError (Bz.newReader [83, 70, 32, 32] .eof) := by
  have key : ∀ n, ∃ z', Bz.read (Bz.newReader [83, 70, 32, 32] .eof) n = .ok ([], some Bz.structural, z') := fun n => ⟨_, rfl⟩
  intro h
  cases h with
  | @here _ n _ _ _ _ b c => obtain ⟨z', k⟩ := key n; rw [k] at b; cases b; exact c rfl
  | @later _ n _ _ _ b _ => obtain ⟨z', k⟩ := key n; rw [k] at b; cases b

example : ∃ data e, DeliversThen Bz.source (Bz.newReader sampleFile .eof) data e ∧ (e = .eof → Vouched data (fileBits sampleFile)) :=
  C110_any_file sampleFile (by simp) (compressed_no_bytesWithError sample_compressed .eof)

example : ∃ data e, DeliversThen Bz.source (Bz.newReader [83, 70, 32, 32] .eof) data e ∧ (e = .eof → Vouched data (fileBits [83, 70, 32, 32])) :=
  C110_any_file _ (by simp) plain_no_bytesWithError

end Props
