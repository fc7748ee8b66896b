/-
C109: what the checksums of a compressed archive vouch for.
-/
import Verif.Lemmas.BzSums
import Verif.Props.BzSafe

namespace Props
open Go Radolan
open _root_.Spec.Bzip2

/-- reads of a file, with buffers of any sizes, that reported no error and returned `data` in all -/
inductive Delivered (file : Bytes) (e : IOErr) : Bytes → Bz.Reader → Prop
  | start : Delivered file e [] (Bz.newReader file e)
  | next {data z n out z'} : Delivered file e data z → Bz.read z n = .ok (out, none, z') → Delivered file e (data ++ out) z'

theorem Delivered.opened {file : Bytes} {e : IOErr} {data : Bytes} {z : Bz.Reader} (h : Delivered file e data z) :
    Bz.Open (fileBits file) data z := by
  induction h with
  | start => exact Bz.open_new file e
  | @next data z n out z' _ hr ih =>
    have := Bz.read_sums ih n
    rw [hr] at this
    exact this.2 rfl

theorem Delivered.reached {file : Bytes} {e : IOErr} {data : Bytes} {z : Bz.Reader} (h : Delivered file e data z) :
    Reached file e z := by
  induction h with
  | start => exact .start
  | next _ hr ih => exact .next ih hr

/-- C109. Whatever the file consists of: when Read reports the end of the data (io.EOF), it comes without bytes, and the data
delivered before are those of one or several complete streams - every portion has the checksum that stands in the file before
its block, and the checksums together have the sum that stands at the end of their stream; behind the last stream there is
nothing but the rest of a byte. A truncated file or one that does not pass the test ends with another error. -/
theorem C109_vouched {file : Bytes} {e : IOErr} {data : Bytes} {z : Bz.Reader} (h : Delivered file e data z) {n : Nat} {out : Bytes}
    {z' : Bz.Reader} (hr : Bz.read z n = .ok (out, some .eof, z')) : out = [] ∧ Vouched data (fileBits file) := by
  have := Bz.read_sums h.opened n
  rw [hr] at this
  exact this.1 rfl

/-- C109. A file that no data pass the test of never ends with io.EOF: after any reads without an error a further read returns
without an error or with another one. -/
theorem C109_corrupt {file : Bytes} (hbad : ∀ data, ¬ Vouched data (fileBits file)) {e : IOErr} {data : Bytes} {z : Bz.Reader}
    (h : Delivered file e data z) (n : Nat) : ∃ out err z', Bz.read z n = .ok (out, err, z') ∧ err ≠ some .eof := by
  obtain ⟨out, err, z', h1, _⟩ := C108_never_panics h.reached n
  refine ⟨out, err, z', h1, fun he => ?_⟩
  subst he
  exact hbad data (C109_vouched h h1).2

/-- C109. What the test is worth: data that deviate from the original only within 32 successive bits have another checksum. -/
theorem C109_burst {d d' : Bytes} {p x y s : List Bool} (h : fileBits d = p ++ x ++ s) (h' : fileBits d' = p ++ y ++ s)
    (hl : x.length = y.length) (h32 : x.length ≤ 32) (hne : x ≠ y) : crc d ≠ crc d' := Bz.crc_burst h h' hl h32 hne

/-! ### the hypotheses are met -/

theorem sums_of_blocks {size c : Nat} {data : Bytes} {w : List Bool} (h : Blocks size c data w) : Sums c data w := by
  induction h with
  | done => exact .done
  | block _ _ ih => exact .block _ ih

theorem vouched_append {d d' : Bytes} {F F' : List Bool} (h : Vouched d F) (h' : Vouched d' F') : Vouched (d ++ d') (F ++ F') := by
  induction h with
  | last h1 h9 hs hp => exact .more h1 h9 hs hp h'
  | more h1 h9 hs hp _ ih =>
    rw [List.append_assoc, List.append_assoc]
    exact .more h1 h9 hs hp ih

/-- the data of a compressed file pass the test -/
theorem vouched_of_compressed {data file : Bytes} (h : Compressed data file) : Vouched data (fileBits file) := by
  induction h with
  | one h1 h9 hb hp hf => rw [hf]; exact .last h1 h9 (sums_of_blocks hb) hp
  | more _ _ ih ih' => rw [Bz.fileBits_append]; exact vouched_append ih ih'

example : Vouched sampleData (fileBits sampleFile) := vouched_of_compressed sample_compressed

/-- a file of less than 14 bytes does not pass it, for any data -/
theorem vouched_length {data : Bytes} {F : List Bool} (h : Vouched data F) : 112 ≤ F.length := by
  have key : ∀ {c data w}, Sums c data w → 80 ≤ w.length := by
    intro c data w h
    induction h with
    | done => simp [bits]
    | block w _ ih => simp only [List.length_append]; omega
  cases h with
  | last _ _ hs _ => have := key hs; simp only [List.length_append, bits, List.length_map, List.length_range]; omega
  | more _ _ hs _ _ => have := key hs; simp only [List.length_append, bits, List.length_map, List.length_range]; omega

example (n : Nat) : ∃ out err z', Bz.read (Bz.newReader (sampleFile.take 13) .eof) n = .ok (out, err, z') ∧ err ≠ some .eof :=
  C109_corrupt (fun _ h => by have := vouched_length h; rw [Bz.fileBits_length] at this; simp [sampleFile] at this) .start n

example : crc [1, 2, 3, 4, 5] ≠ crc [1, 2, 7, 4, 5] :=
  C109_burst (p := fileBits [1, 2]) (x := fileBits [3]) (y := fileBits [7]) (s := fileBits [4, 5]) rfl rfl rfl (by decide) (by decide)

end Props
