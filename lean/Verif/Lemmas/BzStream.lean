/- Whole bzip2 files. -/
import Verif.Lemmas.BzHeader
import Verif.Lemmas.BzBlock
import Verif.Spec.Tar

namespace Radolan.Bz
open Go
open _root_.Spec.Tar (DeliversThen)
open _root_.Spec.Bzip2 (codeNumber codeword Complete bits SelectorBits lengthBits tableBits usedBits symbolBits fileBits crcStep crc combine
  Blocks Compressed Moved Runs Transformed)

/-! ### the checksum -/

theorem crcStep_lt (c : Nat) (b : Bool) : crcStep c b < 2 ^ 32 := by
  unfold crcStep
  simp only []
  have h : 2 * c % 2 ^ 32 < 2 ^ 32 := Nat.mod_lt _ (by positivity)
  split
  · exact Nat.xor_lt_two_pow h (by norm_num)
  · exact h

theorem crcStep_xor {c y : Nat} {b : Bool} (hy : y < 2 ^ 31) : crcStep (c ^^^ y) b = crcStep c b ^^^ (2 * y) := by
  have h1 : (c ^^^ y).testBit 31 = c.testBit 31 := by
    rw [Nat.testBit_xor, Nat.testBit_lt_two_pow hy, Bool.xor_false]
  have h2 : 2 * (c ^^^ y) % 2 ^ 32 = (2 * c % 2 ^ 32) ^^^ (2 * y) := by
    apply Nat.eq_of_testBit_eq
    intro i
    rw [Nat.testBit_mod_two_pow, Nat.testBit_xor, Nat.testBit_mod_two_pow]
    have e : ∀ x i, (2 * x).testBit (i + 1) = x.testBit i := by
      intro x i; rw [Nat.testBit_succ, Nat.mul_div_cancel_left _ (by norm_num)]
    have e0 : ∀ x, (2 * x).testBit 0 = false := by intro x; simp [Nat.testBit_zero]
    cases i with
    | zero => simp only [e0]; simp
    | succ i =>
      simp only [e, Nat.testBit_xor]
      by_cases hi : i + 1 < 32
      · simp [hi]
      · simp only [hi, decide_false, Bool.false_and, Bool.false_xor]
        rw [Nat.testBit_lt_two_pow (lt_of_lt_of_le hy (Nat.pow_le_pow_right (by norm_num) (by omega)))]
  unfold crcStep
  simp only [h1, h2]
  split
  · rw [Nat.xor_assoc, Nat.xor_comm (2 * y), ← Nat.xor_assoc]
  · rfl

theorem crcStep_top {c : Nat} {b : Bool} : crcStep (c ^^^ (b.toNat * 2 ^ 31)) false = crcStep c b := by
  cases b
  · simp
  · have h2 : 2 * (c ^^^ 2 ^ 31) % 2 ^ 32 = 2 * c % 2 ^ 32 := by
      apply Nat.eq_of_testBit_eq
      intro i
      rw [Nat.testBit_mod_two_pow, Nat.testBit_mod_two_pow]
      have e : ∀ x i, (2 * x).testBit (i + 1) = x.testBit i := by
        intro x i; rw [Nat.testBit_succ, Nat.mul_div_cancel_left _ (by norm_num)]
      have e0 : ∀ x, (2 * x).testBit 0 = false := by intro x; simp [Nat.testBit_zero]
      cases i with
      | zero => simp only [e0]
      | succ i =>
        simp only [e, Nat.testBit_xor, Nat.testBit_two_pow]
        by_cases hi : i + 1 < 32
        · have : ¬ 31 = i := by omega
          simp [this]
        · simp [hi]
    have h1 : (c ^^^ 2 ^ 31).testBit 31 = !c.testBit 31 := by
      rw [Nat.testBit_xor, Nat.testBit_two_pow]; simp
    unfold crcStep
    simp only [Bool.toNat_true, Nat.one_mul, h1, h2]
    cases c.testBit 31 <;> rfl

theorem bits_succ (k x : Nat) : bits (k + 1) x = x.testBit k :: bits k x := by
  rw [bits, List.range_succ_eq_map, List.map_cons, List.map_map, bits]
  congr 1
  apply List.map_congr_left
  intro i hi
  simp only [Function.comp]
  congr 1; omega

theorem crc_bits (j : Nat) : j ≤ 32 → ∀ c v, (List.range j).foldl (fun c _ => crcStep c false) (c ^^^ ((v % 2 ^ j) * 2 ^ (32 - j))) =
    (bits j v).foldl crcStep c := by
  induction j with
  | zero => intro _ c v; simp [Nat.mod_one, bits]
  | succ j ih =>
    intro hj c v
    rw [List.range_succ_eq_map, List.foldl_cons, List.foldl_map, bits_succ, List.foldl_cons, ← ih (by omega)]
    congr 1
    have h2 : (v % 2 ^ (j + 1)) * 2 ^ (32 - (j + 1)) = ((v.testBit j).toNat * 2 ^ 31) ^^^ ((v % 2 ^ j) * 2 ^ (32 - (j + 1))) := by
      have e1 : v % 2 ^ (j + 1) = v % 2 ^ j + 2 ^ j * (v.testBit j).toNat := by
        rw [Nat.pow_succ, Nat.mod_mul, Nat.testBit_eq_decide_div_mod_eq]
        rcases Nat.mod_two_eq_zero_or_one (v / 2 ^ j) with h | h <;> simp [h]
      have e2 : (v % 2 ^ j) * 2 ^ (32 - (j + 1)) < 2 ^ 31 := by
        calc (v % 2 ^ j) * 2 ^ (32 - (j + 1)) < 2 ^ j * 2 ^ (32 - (j + 1)) :=
              Nat.mul_lt_mul_of_pos_right (Nat.mod_lt _ (by positivity)) (by positivity)
          _ = 2 ^ 31 := by rw [← pow_add]; congr 1; omega
      have e3 : 2 ^ j * 2 ^ (32 - (j + 1)) = 2 ^ 31 := by rw [← pow_add]; congr 1; omega
      rw [e1, Nat.add_mul, Nat.mul_comm (2 ^ j), Nat.mul_assoc, e3, Nat.mul_comm _ (2 ^ 31), Nat.add_comm]
      have dis := Nat.two_pow_add_eq_or_of_lt e2 (v.testBit j).toNat
      rw [dis]
      apply Nat.eq_of_testBit_eq
      intro i
      rw [Nat.testBit_or, Nat.testBit_xor]
      by_cases hi : i < 31
      · rw [Nat.testBit_two_pow_mul]
        have : ¬ i ≥ 31 := by omega
        simp [this]
      · rw [Nat.testBit_lt_two_pow (lt_of_lt_of_le e2 (Nat.pow_le_pow_right (by norm_num) (by omega : 31 ≤ i)))]
        simp
    have e2 : (v % 2 ^ j) * 2 ^ (32 - (j + 1)) < 2 ^ 31 := by
      calc (v % 2 ^ j) * 2 ^ (32 - (j + 1)) < 2 ^ j * 2 ^ (32 - (j + 1)) :=
            Nat.mul_lt_mul_of_pos_right (Nat.mod_lt _ (by positivity)) (by positivity)
        _ = 2 ^ 31 := by rw [← pow_add]; congr 1; omega
    rw [h2, ← Nat.xor_assoc, crcStep_xor e2, crcStep_top]
    congr 1
    rw [show 32 - j = (32 - (j + 1)) + 1 by omega, Nat.pow_succ]
    ring

theorem crcByte_eq {c : Nat} (hc : c < 2 ^ 32) (v : UInt8) : crcByte c v = (bits 8 v.toNat).foldl crcStep c := by
  have hv : v.toNat % 2 ^ 8 = v.toNat := Nat.mod_eq_of_lt v.toNat_lt
  rw [← crc_bits 8 (by omega), hv, crcByte]
  have hs : c ^^^ v.toNat * 2 ^ 24 < 2 ^ 32 := Nat.xor_lt_two_pow hc (by have := v.toNat_lt; omega)
  have : ∀ (l : List Nat) (x : Nat), x < 2 ^ 32 → l.foldl (fun c _ => if c.testBit 31 then (2 * c % 2 ^ 32) ^^^ 0x04c11db7 else 2 * c) x =
      l.foldl (fun c _ => crcStep c false) x := by
    intro l
    induction l with
    | nil => intro x _; rfl
    | cons _ l ih =>
      intro x hx
      rw [List.foldl_cons, List.foldl_cons]
      have e : (if x.testBit 31 then (2 * x % 2 ^ 32) ^^^ 0x04c11db7 else 2 * x) = crcStep x false := by
        unfold crcStep
        simp only []
        cases h : x.testBit 31
        · have : x < 2 ^ 31 := by
            by_contra hlt
            have h1 : x / 2 ^ 31 = 1 := by omega
            rw [Nat.testBit_eq_decide_div_mod_eq, h1] at h
            simp at h
          simp; omega
        · simp
      rw [e]
      exact ih _ (crcStep_lt _ _)
  exact this _ _ hs

theorem flip_xor {x : Nat} (h : x < 2 ^ 32) : x ^^^ (2 ^ 32 - 1) = 2 ^ 32 - 1 - x := by
  apply Nat.eq_of_testBit_eq
  intro i
  rw [Nat.testBit_xor, Nat.testBit_two_pow_sub_one, Nat.sub_sub, Nat.add_comm 1 x, Nat.testBit_two_pow_sub_succ h]
  by_cases hi : i < 32
  · simp [hi]
  · rw [Nat.testBit_lt_two_pow (lt_of_lt_of_le h (Nat.pow_le_pow_right (by norm_num) (by omega : 32 ≤ i)))]
    simp [hi]

/-- the register after some bytes -/
def register (c : Nat) (b : Bytes) : Nat := (fileBits b).foldl crcStep c

theorem register_lt {b : Bytes} {c : Nat} (hc : c < 2 ^ 32) : register c b < 2 ^ 32 := by
  unfold register
  generalize fileBits b = l
  induction l generalizing c with
  | nil => exact hc
  | cons x l ih => rw [List.foldl_cons]; exact ih (crcStep_lt _ _)

theorem register_cons (c : Nat) (x : UInt8) (b : Bytes) : register c (x :: b) = register (register c [x]) b := by
  simp [register, fileBits]

theorem register_append (c : Nat) (a b : Bytes) : register c (a ++ b) = register (register c a) b := by
  simp [register, fileBits]

theorem updateCRC_eq {val : Nat} (hv : val < 2 ^ 32) (b : Bytes) : updateCRC val b = 2 ^ 32 - 1 - register (2 ^ 32 - 1 - val) b := by
  rw [updateCRC]
  have : ∀ (b : Bytes) (c : Nat), c < 2 ^ 32 → b.foldl crcByte c = register c b := by
    intro b
    induction b with
    | nil => intro c _; rfl
    | cons x b ih =>
      intro c hc
      rw [List.foldl_cons, crcByte_eq hc, register_cons]
      have e : (bits 8 x.toNat).foldl crcStep c = register c [x] := by simp [register, fileBits]
      rw [e]
      exact ih _ (register_lt hc)
  rw [this b _ (by omega), flip_xor (register_lt (by omega))]

theorem updateCRC_lt {val : Nat} (hv : val < 2 ^ 32) (b : Bytes) : updateCRC val b < 2 ^ 32 := by
  rw [updateCRC_eq hv]; omega

theorem updateCRC_append {val : Nat} (hv : val < 2 ^ 32) (a b : Bytes) : updateCRC (updateCRC val a) b = updateCRC val (a ++ b) := by
  rw [updateCRC_eq (updateCRC_lt hv a), updateCRC_eq hv, updateCRC_eq hv, register_append]
  have := register_lt (b := a) (c := 2 ^ 32 - 1 - val) (by omega)
  congr 2; omega

theorem updateCRC_nil {val : Nat} (hv : val < 2 ^ 32) : updateCRC val [] = val := by
  rw [updateCRC_eq hv]
  have : register (2 ^ 32 - 1 - val) [] = 2 ^ 32 - 1 - val := rfl
  omega

theorem updateCRC_data (data : Bytes) : updateCRC 0 data = crc data := by
  rw [updateCRC_eq (by norm_num), crc]; rfl

theorem crc_lt (data : Bytes) : crc data < 2 ^ 32 := by rw [← updateCRC_data]; exact updateCRC_lt (by norm_num) _

theorem combine_lt {c k : Nat} (hc : c < 2 ^ 32) (hk : k < 2 ^ 32) : combine c k < 2 ^ 32 := by
  unfold combine
  refine Nat.xor_lt_two_pow ?_ hk
  omega

theorem combine_eq {c k : Nat} (hc : c < 2 ^ 32) : ((2 * c % 2 ^ 32) ||| (c / 2 ^ 31)) ^^^ k = combine c k := by
  unfold combine
  congr 1
  have h1 : 2 * c % 2 ^ 32 = 2 ^ 1 * (c % 2 ^ 31) := by omega
  have h2 : c / 2 ^ 31 < 2 ^ 1 := by omega
  rw [h1, Nat.two_pow_add_eq_or_of_lt h2]

/-! ### a block -/

theorem readBlock_spec {size : Nat} (hs : size ≤ 900000) {data : Bytes} {w : List Bool} (h : Spec.Bzip2.Block size data w)
    (r : List Bool) (f : IOErr) (e : Option IOErr) :
    ∃ b, readBlock size ⟨w ++ r, f, e⟩ = .ok (b, ⟨r, f, e⟩) ∧ Holds b data := by
  obtain ⟨code, L, o, tables, sels, syms, sw, h0, h1, h2, h3, h4, h5, h6, h7, h8, h9, h10, rfl⟩ := h
  simp only [List.append_assoc]
  obtain ⟨tt, p, i1, i2⟩ := holds_block h1 h2 (by omega)
  have hL : L.length = code.length := by
    obtain ⟨R, q1, _, _, q4⟩ := h2
    rw [q4, List.length_map, q1.length_eq, List.length_map, List.length_range]
  have ho : o < code.length := by
    obtain ⟨R, q1, _, q3, _⟩ := h2
    have := (List.getElem?_eq_some_iff.mp q3).1
    rw [q1.length_eq, List.length_map, List.length_range] at this
    exact this
  set alphabet := (List.range 256).filter fun b => L.contains (UInt8.ofNat b) with ha
  have hl0 : 0 < alphabet.length := by
    obtain ⟨x, L', rfl⟩ : ∃ x L', L = x :: L' := by
      cases L with
      | nil => simp at hL; omega
      | cons x L' => exact ⟨x, L', rfl⟩
    apply List.length_pos_of_mem (a := x.toNat)
    rw [ha, List.mem_filter]
    exact ⟨List.mem_range.mpr x.toNat_lt, by simp⟩
  have hsy := moved_pos h4
  obtain ⟨trees, t1, t2, t3⟩ := readTrees_spec h7 (symbolBits tables sels syms ++ r) f e
  have short : ∀ t ∈ tables, ∀ v, (codeword t v).length ≤ 20 := by
    intro t ht v
    simp only [codeword, List.length_map, List.length_range]
    rw [List.getD_eq_getElem?_getD]
    rcases h : t[v]? with _ | l
    · simp
    · exact ((h7 t ht).1.1 l (List.mem_of_getElem? h)).2
  have coding : Coding sels tables trees (alphabet.length + 2) :=
    ⟨t2, fun s hs => List.mem_range.mp (selectors_mem h10 s hs), fun t ht => (h7 t ht).2, t3, short⟩
  have hq : 0 < sels.length := by omega
  have hsel0 := coding.sel _ (List.getElem_mem hq)
  have htree0 : sels[0] < trees.length := by omega
  have sym := symbols_spec (bs := size) coding (by simpa using h4) (by omega) (by simp) (by omega) (i := 0)
    (fuel := 51 * sels.length + 51) (s := ⟨1, 0, trees[sels[0]], 0, 0, alphabet, [], ⟨symbolBits tables sels syms ++ r, f, e⟩⟩) (r := r)
    ⟨le_refl _, rfl, by simp, fun _ => ⟨sels[0], List.getElem?_eq_getElem hq, List.getElem?_eq_getElem htree0⟩⟩
    (by omega) (by omega) (by simp only []; rw [bitsFrom_eq]; rfl)
    (by
      simp only [List.map_map]
      rw [List.map_congr_left (g := id)]
      · simp
      · intro x hx
        rw [ha, List.mem_filter, List.mem_range] at hx
        simp only [Function.comp, UInt8.toNat_ofNat', id]
        omega)
    (by simp; omega) (by simp)
  refine ⟨_, ?_, i2⟩
  rw [readBlock, readBits_bits (by norm_num)]
  simp only [ne_eq, not_true_eq_false, if_false]
  rw [readBits_bits (by omega)]
  simp only []
  rw [usedBytes_spec]
  simp only [← ha]
  rw [if_neg (by omega), readBits_bits (by omega)]
  simp only []
  rw [if_neg (by omega), readBits_bits h8]
  simp only [bind, Out.bind]
  rw [selectors_spec h10 (by simp)]
  simp only [t1, List.getElem?_eq_getElem hq, List.getElem?_eq_getElem htree0, sym]
  simp only [List.replicate_zero, List.append_nil, List.nil_append, List.length_map]
  rw [if_neg (by omega), i1]

/-! ### streams -/

/-- a state of a reader that has `out` and then the error `e` to deliver -/
structure Ready (e : IOErr) (z : Reader) (cur rest : Bytes) : Prop where
  fine : z.br.err = none
  last : z.br.final = e
  size : z.blockSize ≤ 900000
  file : z.fileCRC < 2 ^ 32
  crc : z.blockCRC < 2 ^ 32
  want : updateCRC z.blockCRC cur = z.wantBlockCRC
  cur : Holds z.block cur
  after : ∃ ws pad more file' data', z.br.rest = ws ++ pad ++ fileBits file' ∧ pad.length < 8 ∧ Blocks z.blockSize z.fileCRC more ws ∧
    (file' = [] ∧ data' = [] ∨ Compressed data' file') ∧ rest = more ++ data'

theorem fileBits_length (b : Bytes) : (fileBits b).length = 8 * b.length := by
  induction b with
  | nil => rfl
  | cons x b ih =>
    rw [fileBits, List.flatMap_cons, List.length_append, ← fileBits, ih, List.length_cons, bits, List.length_map, List.length_range]; omega

theorem fileBits_append (a b : Bytes) : fileBits (a ++ b) = fileBits a ++ fileBits b := by simp [fileBits]

/-- the header and the rest of a compressed file -/
theorem compressed_head {data file : Bytes} (h : Compressed data file) : ∃ level w pad more file' data', 1 ≤ level ∧ level ≤ 9 ∧
    fileBits file = bits 16 0x425a ++ (bits 8 0x68 ++ (bits 8 (0x30 + level) ++ (w ++ pad ++ fileBits file'))) ∧ pad.length < 8 ∧
    Blocks (100000 * level) 0 more w ∧ (file' = [] ∧ data' = [] ∨ Compressed data' file') ∧ data = more ++ data' := by
  induction h with
  | @one data file w pad level h1 h2 h3 h4 h5 =>
    exact ⟨level, w, pad, data, [], [], h1, h2, by rw [h5]; simp [fileBits], h4, h3, Or.inl ⟨rfl, rfl⟩, by simp⟩
  | @more data file data' file' _ h' ih _ =>
    obtain ⟨level, w, pad, m, f', d', i1, i2, i3, i4, i5, i6, i7⟩ := ih
    refine ⟨level, w, pad, m, f' ++ file', d' ++ data', i1, i2, ?_, i4, i5, Or.inr ?_, by rw [i7, List.append_assoc]⟩
    · rw [fileBits_append, i3, fileBits_append]; simp
    · rcases i6 with ⟨rfl, rfl⟩ | h
      · exact h'
      · exact .more h h'

theorem setup_spec {data file : Bytes} (h : Compressed data file) {z : Reader} {e : IOErr} {n : Bool}
    (hn : n = true ∧ z.br.rest = fileBits file ∨ n = false ∧ bits 16 0x425a ++ z.br.rest = fileBits file)
    (h1 : z.br.err = none) (h2 : z.br.final = e) (h3 : z.blockCRC < 2 ^ 32) (h4 : updateCRC z.blockCRC [] = z.wantBlockCRC)
    (h5 : Holds z.block []) :
    ∃ z', setup n z = (none, z') ∧ Ready e z' [] data ∧ z'.setupDone = z.setupDone ∧ z'.failed = z.failed ∧
      z'.br.rest.length ≤ z.br.rest.length ∧ z'.block = z.block := by
  obtain ⟨level, w, pad, more, file', data', i1, i2, i3, i4, i5, i6, i7⟩ := compressed_head h
  obtain ⟨⟨rest, fin, er⟩, fc, bc, wc, sd, bs, blk, fl⟩ := z
  simp only at hn h1 h2 h3 h4 h5
  subst h1 h2
  have hm : (if n then readBits 16 ⟨rest, fin, none⟩ else (0x425a, ⟨rest, fin, none⟩)) =
      (0x425a, ⟨bits 8 0x68 ++ (bits 8 (0x30 + level) ++ (w ++ pad ++ fileBits file')), fin, none⟩) ∧
      (w ++ pad ++ fileBits file').length ≤ rest.length := by
    rcases hn with ⟨rfl, hr⟩ | ⟨rfl, hr⟩
    · rw [if_pos rfl, hr, i3, readBits_bits (by norm_num)]
      exact ⟨rfl, by simp; omega⟩
    · rw [if_neg (by simp)]
      rw [i3] at hr
      rw [List.append_cancel_left hr]
      exact ⟨rfl, by simp; omega⟩
  obtain ⟨hm, hlen⟩ := hm
  refine ⟨⟨⟨w ++ pad ++ fileBits file', fin, none⟩, 0, bc, wc, sd, 100 * 1000 * level, blk, fl⟩, ?_,
    ⟨rfl, rfl, by simp only; omega, by simp, h3, h4, h5, ?_⟩, rfl, rfl, hlen, rfl⟩
  · unfold setup
    simp only [hm]
    rw [if_neg (by simp), readBits_bits (by norm_num)]
    simp only []
    rw [if_neg (by simp), readBits_bits (by omega)]
    simp only []
    rw [if_neg (by omega)]
    congr 3; omega
  · exact ⟨w, pad, more, file', data', rfl, i4, by simpa using i5, i6, i7⟩

theorem readLoop_spec {e : IOErr} {n : Nat} (hn : 0 < n) : ∀ (fuel : Nat) (z : Reader) (cur rest : Bytes), Ready e z cur rest →
    z.br.rest.length < fuel →
    (cur ++ rest ≠ [] ∧ ∃ z' cur' rest' k, readLoop fuel n z = .ok ((cur ++ rest).take k, none, z') ∧ 0 < k ∧ k ≤ n ∧ k ≤ (cur ++ rest).length ∧
      Ready e z' cur' rest' ∧ (cur ++ rest).drop k = cur' ++ rest' ∧ z'.setupDone = z.setupDone ∧ z'.failed = z.failed) ∨
    (cur ++ rest = [] ∧ ∃ z', readLoop fuel n z = .ok ([], some e, z') ∧ z'.br.err = some e) := by
  intro fuel
  induction fuel with
  | zero => intro z cur rest _ h; omega
  | succ fuel ih =>
    intro z cur rest hz hf
    obtain ⟨b', b1, b2, b3⟩ := readFromBlock_spec (z.block.pre.length + n + 1) n z.block cur hz.cur (by omega)
    by_cases hc : cur = []
    · subst hc
      obtain ⟨⟨br, fin, er⟩, fc, bc, wc, sd, bs, blk, fl⟩ := z
      obtain ⟨c1, c2, c3, c4, c5, c6, c7, ws, pad, more, file', data', d1, d2, d3, d4, d5⟩ := hz
      simp only at c1 c2 c3 c4 c5 c6 c7 d1 d3 b1 hf b3
      subst c1 c2 d1
      rw [updateCRC_nil c5] at c6
      subst c6
      simp only [List.take_nil, List.drop_nil] at b1 b2
      rw [readLoop]
      simp only [bind, Out.bind, b1]
      rw [if_neg (by simp; omega), if_neg (by simp)]
      cases d3 with
      | done =>
        rw [List.append_assoc, List.append_assoc, readBits_bits (by norm_num)]
        simp only []
        rw [if_neg (by norm_num), if_pos trivial, readBits_bits c4]
        simp only [ne_eq, not_true_eq_false, if_false]
        have hlen : (pad ++ fileBits file').length % 8 = pad.length := by
          rw [List.length_append, fileBits_length]; omega
        rw [hlen, List.drop_left]
        rcases d4 with ⟨rfl, rfl⟩ | d4
        · right
          subst d5
          refine ⟨rfl, _, by rw [if_pos (by rfl)], rfl⟩
        · obtain ⟨level, w, pad', more', file'', data'', i1, i2, i3, i4, i5, i6, i7⟩ := compressed_head d4
          have ne : fileBits file' ≠ [] := by
            rw [i3]; simp [bits]
          have lng : ¬ (fileBits file').length < 16 := by
            rw [i3]; simp [bits]
          have tk : (fileBits file').take 16 = bits 16 0x425a := by
            rw [i3]; rw [List.take_append_of_le_length (by simp [bits])]; exact List.take_of_length_le (by simp [bits])
          have magic : byteBits 0x42 ++ byteBits 0x5a = bits 16 0x425a := by decide
          rw [if_neg ne, if_neg lng, tk, if_neg (by rw [magic]; simp)]
          obtain ⟨z', s1, s2, s3, s4, s5, _⟩ := setup_spec d4 (e := fin) (n := false)
            (z := ⟨⟨(fileBits file').drop 16, fin, none⟩, fc, bc, bc, sd, bs, b', fl⟩)
            (Or.inr ⟨rfl, by simp only; rw [← tk, List.take_append_drop]⟩) rfl rfl c5 (updateCRC_nil c5) b2
          simp only at s3 s4 s5
          rw [s1]
          simp only []
          have lt : z'.br.rest.length < fuel := by
            simp only [List.length_append, List.length_drop] at hf s5 ⊢
            have : (bits 48 0x177245385090).length = 48 := by simp [bits]
            omega
          rw [List.nil_append] at d5
          subst d5
          rcases ih z' [] rest s2 lt with ⟨k0, z2, cur', rest', k, k1, k2, k3, k4, k5, k6, k7, k8⟩ | ⟨k0, z2, k1, k2⟩
          · left
            exact ⟨k0, z2, cur', rest', k, k1, k2, k3, k4, k5, k6, by rw [k7, s3], by rw [k8, s4]⟩
          · right
            exact ⟨k0, z2, k1, k2⟩
      | @block _ data w more ws hb hbs =>
        have hcrc := crc_lt data
        simp only [List.append_assoc]
        rw [readBits_bits (by norm_num)]
        simp only []
        rw [if_pos trivial, readBits_bits hcrc]
        simp only []
        obtain ⟨blk', r1, r2⟩ := readBlock_spec c3 hb (ws ++ (pad ++ fileBits file')) fin none
        rw [r1]
        simp only []
        rw [combine_eq c4]
        have ready : Ready fin ⟨⟨ws ++ (pad ++ fileBits file'), fin, none⟩, combine fc (crc data), 0, crc data, sd, bs, blk', fl⟩ data (more ++ data') :=
          ⟨rfl, rfl, c3, combine_lt c4 hcrc, by norm_num, updateCRC_data data, r2, ws, pad, more, file', data', by simp, d2, hbs, d4, rfl⟩
        have lt : (ws ++ (pad ++ fileBits file')).length < fuel := by
          simp only [List.length_append] at hf ⊢
          have : (bits 48 0x314159265359).length = 48 := by simp [bits]
          omega
        have d5' : rest = data ++ (more ++ data') := by rw [d5, List.append_assoc]
        subst d5'
        rcases ih _ data (more ++ data') ready lt with ⟨k0, z2, cur', rest', k, k1, k2, k3, k4, k5, k6, k7, k8⟩ | ⟨k0, z2, k1, k2⟩
        · left
          exact ⟨k0, z2, cur', rest', k, k1, k2, k3, k4, k5, k6, k7, k8⟩
        · right
          exact ⟨k0, z2, k1, k2⟩
    · left
      have hl : 0 < cur.length := List.length_pos_iff.mpr hc
      refine ⟨by simp [hc], ⟨z.br, z.fileCRC, updateCRC z.blockCRC (cur.take n), z.wantBlockCRC, z.setupDone, z.blockSize, b', z.failed⟩,
        cur.drop n, rest, min n cur.length, ?_, by omega, by omega, by rw [List.length_append]; omega,
        ⟨hz.fine, hz.last, hz.size, hz.file, updateCRC_lt hz.crc _, ?_, b2, hz.after⟩, ?_, rfl, rfl⟩
      · rw [readLoop]
        simp only [bind, Out.bind, b1]
        rw [if_pos (by left; rw [List.length_take]; omega)]
        congr 2
        rw [List.take_append_of_le_length (by omega)]
        by_cases h : n ≤ cur.length
        · rw [Nat.min_eq_left h]
        · rw [Nat.min_eq_right (by omega), List.take_of_length_le (by omega), List.take_of_length_le (by omega)]
      · rw [updateCRC_append hz.crc, List.take_append_drop]; exact hz.want
      · rw [List.drop_append_of_le_length (by omega)]
        congr 1
        by_cases h : n ≤ cur.length
        · rw [Nat.min_eq_left h]
        · rw [Nat.min_eq_right (by omega), List.drop_eq_nil_of_le (by omega), List.drop_eq_nil_of_le (by omega)]

/-! ### as a reader -/

/-- a relation between states and what is left to be delivered -/
theorem rel_unique {S : Source} {e : IOErr} (R : S.State → Bytes → Prop)
    (step : ∀ s out n, R s out → 0 < n →
      (out = [] ∧ ∃ s', S.read s n = ([], some e, s') ∧ R s' []) ∨
      (∃ k s', 0 < k ∧ k ≤ n ∧ k ≤ out.length ∧ S.read s n = (out.take k, none, s') ∧ R s' (out.drop k)))
    : ∀ m s o1 o2, o1.length ≤ m → R s o1 → R s o2 → o1 = o2 := by
  intro m
  induction m with
  | zero =>
    intro s o1 o2 hm h1 h2
    have : o1 = [] := List.length_eq_zero_iff.mp (by omega)
    subst this
    rcases step s [] 1 h1 (by omega) with ⟨_, s', a1, _⟩ | ⟨k, s', k1, _, k3, _⟩
    · rcases step s o2 1 h2 (by omega) with ⟨b0, _⟩ | ⟨k, s2, k1, k2, k3, k4, k5⟩
      · exact b0.symm
      · rw [a1] at k4; simp at k4
    · simp at k3; omega
  | succ m ih =>
    intro s o1 o2 hm h1 h2
    rcases step s o1 1 h1 (by omega) with ⟨a0, s', a1, _⟩ | ⟨k, s', k1, k2, k3, k4, k5⟩
    · rcases step s o2 1 h2 (by omega) with ⟨b0, _⟩ | ⟨k, s2, k1, k2, k3, k4, k5⟩
      · rw [a0, b0]
      · rw [a1] at k4; simp at k4
    · rcases step s o2 1 h2 (by omega) with ⟨b0, s2, b1, _⟩ | ⟨k', s2, j1, j2, j3, j4, j5⟩
      · rw [b1] at k4; simp at k4
      · rw [k4] at j4
        have hk : k = 1 := by omega
        have hk' : k' = 1 := by omega
        subst hk hk'
        simp only [Prod.mk.injEq, true_and] at j4
        obtain ⟨j4, rfl⟩ := j4
        have := ih s' _ _ (by rw [List.length_drop]; omega) k5 j5
        rw [← List.take_append_drop 1 o1, ← List.take_append_drop 1 o2, j4, this]

/-- a relation between states and what is left to be delivered -/
theorem delivers_of_rel {S : Source} {e : IOErr} (he : e ≠ .bufferFull) (R : S.State → Bytes → Prop)
    (step : ∀ s out n, R s out → 0 < n →
      (out = [] ∧ ∃ s', S.read s n = ([], some e, s') ∧ R s' []) ∨
      (∃ k s', 0 < k ∧ k ≤ n ∧ k ≤ out.length ∧ S.read s n = (out.take k, none, s') ∧ R s' (out.drop k)))
    {s : S.State} {b : Bytes} (h : R s b) : DeliversThen S s b e := by
  have uniq := rel_unique R step
  classical
  let rem : S.State → Bytes := fun s => if h : ∃ o, R s o then h.choose else []
  have hrem : ∀ s o, R s o → rem s = o := by
    intro s o h
    have hex : ∃ o, R s o := ⟨o, h⟩
    have : rem s = hex.choose := dif_pos hex
    rw [this]
    exact uniq _ s _ _ (le_refl _) hex.choose_spec h
  refine ⟨fun s => ∃ o, R s o, rem, fun _ => 0, ⟨?_, ?_, ?_, ?_, ?_, ?_⟩, ⟨b, h⟩, hrem s b h, ?_⟩
  · rintro s n ⟨o, ho⟩ hn
    rcases step s o n ho hn with ⟨_, s', a1, a2⟩ | ⟨k, s', _, _, _, k4, k5⟩
    · rw [a1]; exact ⟨_, a2⟩
    · rw [k4]; exact ⟨_, k5⟩
  · rintro s n ⟨o, ho⟩ hn
    rcases step s o n ho hn with ⟨_, s', a1, a2⟩ | ⟨k, s', _, k2, _, k4, k5⟩
    · rw [a1]; simp
    · rw [k4]; exact le_trans (List.length_take_le _ _) k2
  · rintro s n ⟨o, ho⟩ hn
    rw [hrem s o ho]
    rcases step s o n ho hn with ⟨a0, s', a1, a2⟩ | ⟨k, s', _, _, _, k4, k5⟩
    · rw [a1]; simp only [hrem s' _ a2, a0, List.append_nil]
    · rw [k4]; simp only [hrem s' _ k5, List.take_append_drop]
  · rintro s n e' ⟨o, ho⟩ hn he'
    rcases step s o n ho hn with ⟨a0, s', a1, a2⟩ | ⟨k, s', _, _, _, k4, k5⟩
    · rw [a1] at he' ⊢
      simp only [Option.some.injEq] at he'
      subst he'
      exact ⟨hrem s' _ a2, he⟩
    · rw [k4] at he'; simp at he'
  · rintro s n ⟨o, ho⟩ hn h1 h2
    rcases step s o n ho hn with ⟨a0, s', a1, a2⟩ | ⟨k, s', k1, _, k3, k4, k5⟩
    · rw [a1] at h1; simp at h1
    · rw [k4] at h2
      have := congrArg List.length h2
      rw [List.length_take, List.length_nil] at this
      omega
  · intro s _; omega
  · rintro s n e' ⟨o, ho⟩ hn he'
    rcases step s o n ho hn with ⟨a0, s', a1, a2⟩ | ⟨k, s', k1, _, k3, k4, k5⟩
    · rw [a1] at he'; simp at he'; exact he'.symm
    · rw [k4] at he'; simp at he'

/-- the states of a reader of a compressed file -/
def Left (e : IOErr) (z : Reader) (out : Bytes) : Prop :=
  (z.failed = some e ∧ out = []) ∨
  (z.failed = none ∧ z.setupDone = true ∧ ∃ cur rest, Ready e z cur rest ∧ out = cur ++ rest) ∨
  (z.failed = none ∧ z.setupDone = false ∧ ∃ file, Compressed out file ∧ z = newReader file e)

theorem holds_empty : Holds ⟨[], 0, 0, none, 0, 0⟩ [] := ⟨[], .nil _, rfl, rfl⟩

theorem read_ready {e : IOErr} {z : Reader} {cur rest : Bytes} (h : Ready e z cur rest) {n : Nat} (hn : 0 < n) (h1 : z.failed = none)
    (h2 : z.setupDone = true) (f : Nat) (hf : z.br.rest.length < f) :
    (cur ++ rest = [] ∧ ∃ z', (readLoop f n z = .ok ([], some e, z') ∧ z'.br.err = some e)) ∨
    (∃ k z', 0 < k ∧ k ≤ n ∧ k ≤ (cur ++ rest).length ∧ readLoop f n z = .ok ((cur ++ rest).take k, none, z') ∧ z'.br.err = none ∧
      Left e { z' with failed := none } ((cur ++ rest).drop k)) := by
  rcases readLoop_spec hn f z cur rest h hf with ⟨_, z', cur', rest', k, k1, k2, k3, k4, k5, k6, k7, k8⟩ | ⟨k0, z', k1, k2⟩
  · right
    refine ⟨k, z', k2, k3, k4, k1, k5.fine, Or.inr (Or.inl ⟨rfl, by simp [k7, h2], cur', rest', ?_, k6⟩)⟩
    exact ⟨k5.fine, k5.last, k5.size, k5.file, k5.crc, k5.want, k5.cur, k5.after⟩
  · left
    exact ⟨k0, z', k1, k2⟩

theorem read_spec {e : IOErr} (z : Reader) (out : Bytes) (n : Nat) (h : Left e z out) (hn : 0 < n) :
    (out = [] ∧ ∃ z', read z n = .ok ([], some e, z') ∧ Left e z' []) ∨
    (∃ k z', 0 < k ∧ k ≤ n ∧ k ≤ out.length ∧ read z n = .ok (out.take k, none, z') ∧ Left e z' (out.drop k)) := by
  rcases h with ⟨h1, h2⟩ | ⟨h1, h2, cur, rest, h3, rfl⟩ | ⟨h1, h2, file, h3, rfl⟩
  · left
    refine ⟨h2, z, ?_, Or.inl ⟨h1, rfl⟩⟩
    unfold read
    rw [h1]
  · obtain ⟨br, fc, bc, wc, sd, bs, blk, fl⟩ := z
    simp only at h1 h2
    subst h1 h2
    rcases read_ready h3 hn rfl rfl (br.rest.length + 1) (by simp only; omega) with ⟨a0, z', a1, a2⟩ | ⟨k, z', k1, k2, k3, k4, k5, k6⟩
    · left
      refine ⟨a0, { z' with failed := some e }, ?_, Or.inl ⟨rfl, rfl⟩⟩
      unfold read
      simp only [if_true, bind, Out.bind, a1, a2, if_true]
    · right
      refine ⟨k, { z' with failed := none }, k1, k2, k3, ?_, k6⟩
      unfold read
      simp only [if_true, bind, Out.bind, k4, k5, ite_self]
  · obtain ⟨z1, s1, s2, s3, s4, s5, _⟩ := setup_spec h3 (z := newReader file e) (e := e) (n := true)
      (Or.inl ⟨rfl, rfl⟩) rfl rfl (by simp [newReader]) (updateCRC_nil (by simp [newReader])) holds_empty
    have ready : Ready e { z1 with setupDone := true } [] out :=
      ⟨s2.fine, s2.last, s2.size, s2.file, s2.crc, s2.want, s2.cur, s2.after⟩
    have hnf : (newReader file e).failed = none := rfl
    have hns : (newReader file e).setupDone = false := rfl
    rw [hns] at s3
    rw [hnf] at s4
    have hfine := s2.fine
    rcases read_ready ready hn s4 rfl (z1.br.rest.length + 1) (by simp only; omega) with ⟨a0, z', a1, a2⟩ | ⟨k, z', k1, k2, k3, k4, k5, k6⟩
    · left
      refine ⟨a0, { z' with failed := some e }, ?_, Or.inl ⟨rfl, rfl⟩⟩
      unfold read
      simp only [hnf, hns, s1, s3, hfine, Bool.false_eq_true, if_false, bind, Out.bind, a1, a2, if_true]
    · right
      refine ⟨k, { z' with failed := none }, k1, k2, k3, ?_, k6⟩
      unfold read
      simp only [hnf, hns, s1, s3, hfine, Bool.false_eq_true, if_false, bind, Out.bind, k4, k5, List.nil_append, ite_self]

theorem left_step {e : IOErr} (s : source.State) (out : Bytes) (n : Nat) (hs : Left e s out) (hn : 0 < n) :
    (out = [] ∧ ∃ s', source.read s n = ([], some e, s') ∧ Left e s' []) ∨
    (∃ k s', 0 < k ∧ k ≤ n ∧ k ≤ out.length ∧ source.read s n = (out.take k, none, s') ∧ Left e s' (out.drop k)) := by
  rcases read_spec s out n hs hn with ⟨a0, z', a1, a2⟩ | ⟨k, z', k1, k2, k3, k4, k5⟩
  · left
    refine ⟨a0, z', ?_, a2⟩
    change (match read s n with | .ok x => x | _ => ([], none, s)) = _
    rw [a1]; rfl
  · right
    refine ⟨k, z', k1, k2, k3, ?_, k5⟩
    change (match read s n with | .ok x => x | _ => ([], none, s)) = _
    rw [k4]; rfl

theorem compressed_unique {d1 d2 file : Bytes} (h1 : Compressed d1 file) (h2 : Compressed d2 file) : d1 = d2 :=
  rel_unique (S := source) (e := .eof) (Left .eof) left_step _ (newReader file .eof) d1 d2 (le_refl _)
    (Or.inr (Or.inr ⟨rfl, rfl, file, h1, rfl⟩)) (Or.inr (Or.inr ⟨rfl, rfl, file, h2, rfl⟩))

/-- the reader of a compressed file delivers the data, in whatever portions it is asked for -/
theorem delivers {data file : Bytes} (h : Compressed data file) {e : IOErr} (he : e ≠ .bufferFull) :
    DeliversThen source (newReader file e) data e :=
  delivers_of_rel he (S := source) (Left e) left_step (Or.inr (Or.inr ⟨rfl, rfl, file, h, rfl⟩))

end Radolan.Bz
