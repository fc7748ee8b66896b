/- Every file stands for one sequence of bytes and one error, whatever the sizes of the buffers it is read with. -/
import Verif.Lemmas.BzSums

namespace Radolan.Bz
open Go _root_.Spec.Bzip2 _root_.Spec _root_.Spec.Tar

/-- the state of the decompressor without the current block -/
structure Core where
  br : BR
  fileCRC : Nat
  blockCRC : Nat
  want : Nat
  size : Nat

def core (z : Reader) : Core := ⟨z.br, z.fileCRC, z.blockCRC, z.wantBlockCRC, z.blockSize⟩

/-- after the bytes `b` of the block -/
def Core.fed (k : Core) (b : Bytes) : Core := { k with blockCRC := updateCRC k.blockCRC b }

/-- what happens at the end of a block: an error, or another block (`none`: a new stream began, no block yet) -/
inductive Turn where
  | stop (e : IOErr)
  | go (k : Core) (b : Option Block)

/-- at the end of a block -/
def turn (k : Core) : Turn :=
  if k.blockCRC ≠ k.want then .stop structural
  else
    let (magic, br) := readBits 48 k.br
    if magic = 0x314159265359 then
      let (crc, br) := readBits 32 br
      match readBlock k.size br with
      | .panic => .stop structural
      | .err e => .stop (br.err.getD e)
      | .ok (block, br') => .go ⟨br', ((2 * k.fileCRC % 2 ^ 32) ||| (k.fileCRC / 2 ^ 31)) ^^^ crc, 0, crc, k.size⟩ (some block)
    else if magic = 0x177245385090 then
      let (crc, br) := readBits 32 br
      match br.err with
      | some e => .stop e
      | none =>
        if k.fileCRC ≠ crc then .stop structural else
        let rest := br.rest.drop (br.rest.length % 8)
        if rest = [] then .stop br.final
        else if rest.length < 16 then .stop (if br.final = .eof then .unexpectedEOF else br.final)
        else if rest.take 16 ≠ byteBits 0x42 ++ byteBits 0x5a then .stop structural
        else
          match setup false ⟨⟨rest.drop 16, br.final, none⟩, k.fileCRC, k.blockCRC, k.want, true, k.size, ⟨[], 0, 0, none, 0, 0⟩, none⟩ with
          | (some e, z) => .stop (z.br.err.getD e)
          | (none, z) => .go (core z) none
    else .stop (br.err.getD structural)

theorem setup_frame (n : Bool) (br : BR) (f b w s : Nat) (d d' : Bool) (B B' : Block) (l l' : Option IOErr) :
    (setup n ⟨br, f, b, w, d, s, B, l⟩).1 = (setup n ⟨br, f, b, w, d', s, B', l'⟩).1 ∧
    core (setup n ⟨br, f, b, w, d, s, B, l⟩).2 = core (setup n ⟨br, f, b, w, d', s, B', l'⟩).2 ∧
    (setup n ⟨br, f, b, w, d, s, B, l⟩).2.setupDone = d ∧ (setup n ⟨br, f, b, w, d, s, B, l⟩).2.block = B ∧
    (setup n ⟨br, f, b, w, d, s, B, l⟩).2.failed = l := by
  unfold setup
  simp only []
  generalize (if n then readBits 16 br else (0x425a, br)) = x
  obtain ⟨m, b1⟩ := x
  simp only
  by_cases h1 : m ≠ 0x425a
  · simp only [if_pos h1]; refine ⟨?_, ?_, ?_, ?_, ?_⟩ <;> first | rfl | trivial
  simp only [if_neg h1]
  generalize readBits 8 b1 = x
  obtain ⟨t, b2⟩ := x
  simp only
  by_cases h2 : t ≠ 0x68
  · simp only [if_pos h2]; refine ⟨?_, ?_, ?_, ?_, ?_⟩ <;> first | rfl | trivial
  simp only [if_neg h2]
  generalize readBits 8 b2 = x
  obtain ⟨lv, b3⟩ := x
  simp only
  by_cases h3 : lv < 0x31 ∨ 0x39 < lv
  · simp only [if_pos h3]; refine ⟨?_, ?_, ?_, ?_, ?_⟩ <;> first | rfl | trivial
  · simp only [if_neg h3]; refine ⟨?_, ?_, ?_, ?_, ?_⟩ <;> first | rfl | trivial

/-- the bounds that hold of all states -/
structure Core.Ok (k : Core) : Prop where
  file : k.fileCRC < 2 ^ 32
  blk : k.blockCRC < 2 ^ 32
  size : k.size ≤ 900000
  final : k.br.final ≠ .bufferFull
  err : k.br.err ≠ some .bufferFull

theorem Core.Ok.fed {k : Core} (h : k.Ok) (b : Bytes) : (k.fed b).Ok := ⟨h.file, updateCRC_lt h.blk b, h.size, h.final, h.err⟩

/-- a state from its parts -/
def Core.with (k : Core) (B : Block) (d : Bool) (l : Option IOErr) : Reader := ⟨k.br, k.fileCRC, k.blockCRC, k.want, d, k.size, B, l⟩

/-- at the end of a block, the loop does what `turn` says -/
theorem readLoop_turn {k : Core} (hk : k.Ok) {B : Block} (hB : Holds B []) {n : Nat} (hn : 0 < n) (d : Bool) (l : Option IOErr) :
    match turn k with
    | .stop e => e ≠ .bufferFull ∧ ∀ f, ∃ e0 z', readLoop (f + 1) n (k.with B d l) = .ok ([], some e0, z') ∧ z'.br.err.getD e0 = e
    | .go k' none => k'.Ok ∧ k'.br.rest.length < k.br.rest.length ∧ ∃ B', Holds B' [] ∧
        ∀ f, readLoop (f + 1) n (k.with B d l) = readLoop f n (k'.with B' d l)
    | .go k' (some b) => k'.Ok ∧ k'.br.rest.length < k.br.rest.length ∧ (∃ out, Holds b out) ∧
        ∀ f, readLoop (f + 1) n (k.with B d l) = readLoop f n (k'.with b d l) := by
  obtain ⟨B', b1, b2, _⟩ := readFromBlock_spec (B.pre.length + n + 1) n B [] hB (by omega)
  rw [List.take_nil] at b1
  rw [List.drop_nil] at b2
  obtain ⟨br, fc, bc, w, sz⟩ := k
  have hno : ¬ (0 < 0 ∨ n = 0) := by omega
  unfold turn
  by_cases hcrc : bc ≠ w
  · simp only [if_pos hcrc]
    refine ⟨by simp [structural], fun f => ⟨structural, ⟨{ br with err := some structural }, fc, bc, w, d, sz, B', l⟩, ?_, rfl⟩⟩
    simp only [readLoop, Core.with, bind, Out.bind, b1, List.length_nil, if_neg hno]
    exact if_pos hcrc
  simp only [if_neg hcrc]
  have s1 := readBits_steps 48 br
  have n1 := readBits_ne (k := 48) (br := br)
  rcases h1 : readBits 48 br with ⟨magic, br1⟩
  rw [h1] at s1 n1
  simp only at s1 n1 ⊢
  by_cases hm : magic = 0x314159265359
  · simp only [if_pos hm]
    have n1 := n1 (by rw [hm]; norm_num)
    have s2 := readBits_steps 32 br1
    have k2 := readBits_lt 32 br1
    rcases h2 : readBits 32 br1 with ⟨crc', br2⟩
    rw [h2] at s2 k2
    simp only at s2 k2 ⊢
    have l2 := s2.rest.length_le
    have e2 := (s1.trans s2).buf hk.final hk.err
    have f2 : br2.final ≠ .bufferFull := by rw [(s1.trans s2).final]; exact hk.final
    have hb := readBlock_safe hk.size br2
    have hg := readBlock_steps sz br2
    simp only at hb
    rcases h3 : readBlock sz br2 with _ | e | ⟨b, br3⟩
    · rw [h3] at hb; exact hb.elim
    · rw [h3] at hg
      simp only
      refine ⟨?_, fun f => ⟨e, ?_⟩⟩
      · cases he : br2.err with
        | none => exact hg.2 f2 e2
        | some x => rw [he] at e2; simpa using e2
      · simp only [readLoop, Core.with, bind, Out.bind, b1, List.length_nil, if_neg hno, if_neg hcrc, h1, if_pos hm, h2, h3]
        exact ⟨_, rfl, rfl⟩
    · rw [h3] at hb hg
      have hg : Steps br2 br3 := hg
      obtain ⟨hb1, hb2, _⟩ := hb
      simp only at hb1 hb2 ⊢
      refine ⟨⟨?_, by norm_num, hk.size, by rw [hg.final]; exact f2, hg.buf f2 e2⟩, by omega, hb1, fun f => ?_⟩
      · rw [combine_eq hk.file]; exact combine_lt hk.file k2
      · simp only [readLoop, Core.with, bind, Out.bind, b1, List.length_nil, if_neg hno, if_neg hcrc, h1, if_pos hm, h2, h3]
  simp only [if_neg hm]
  by_cases hm2 : magic = 0x177245385090
  · simp only [if_pos hm2]
    have n1 := n1 (by rw [hm2]; norm_num)
    have s2 := readBits_steps 32 br1
    rcases h2 : readBits 32 br1 with ⟨crc', br2⟩
    rw [h2] at s2
    simp only at s2 ⊢
    have l2 := s2.rest.length_le
    have e2 := (s1.trans s2).buf hk.final hk.err
    have f2 : br2.final ≠ .bufferFull := by rw [(s1.trans s2).final]; exact hk.final
    rcases h3 : br2.err with _ | x
    · simp only
      by_cases hfc : fc ≠ crc'
      · simp only [if_pos hfc]
        refine ⟨by simp [structural], fun f => ⟨structural, ?_⟩⟩
        simp only [readLoop, Core.with, bind, Out.bind, b1, List.length_nil, if_neg hno, if_neg hcrc, h1, if_neg hm, if_pos hm2, h2, h3, if_pos hfc]
        exact ⟨_, rfl, rfl⟩
      simp only [if_neg hfc]
      have lr : (br2.rest.drop (br2.rest.length % 8)).length ≤ br2.rest.length := by rw [List.length_drop]; omega
      generalize hrest : br2.rest.drop (br2.rest.length % 8) = rest at lr ⊢
      by_cases hr0 : rest = []
      · simp only [if_pos hr0]
        refine ⟨f2, fun f => ⟨br2.final, ?_⟩⟩
        simp only [readLoop, Core.with, bind, Out.bind, b1, List.length_nil, if_neg hno, if_neg hcrc, h1, if_neg hm, if_pos hm2, h2, h3, if_neg hfc, hrest, if_pos hr0]
        exact ⟨_, rfl, rfl⟩
      simp only [if_neg hr0]
      by_cases h16 : rest.length < 16
      · simp only [if_pos h16]
        refine ⟨by split <;> simp_all, fun f => ⟨if br2.final = .eof then .unexpectedEOF else br2.final, ?_⟩⟩
        simp only [readLoop, Core.with, bind, Out.bind, b1, List.length_nil, if_neg hno, if_neg hcrc, h1, if_neg hm, if_pos hm2, h2, h3, if_neg hfc, hrest, if_neg hr0, if_pos h16]
        exact ⟨_, rfl, rfl⟩
      simp only [if_neg h16]
      by_cases hbz : rest.take 16 ≠ byteBits 0x42 ++ byteBits 0x5a
      · simp only [if_pos hbz]
        refine ⟨by simp [structural], fun f => ⟨structural, ?_⟩⟩
        simp only [readLoop, Core.with, bind, Out.bind, b1, List.length_nil, if_neg hno, if_neg hcrc, h1, if_neg hm, if_pos hm2, h2, h3, if_neg hfc, hrest, if_neg hr0, if_neg h16, if_pos hbz]
        exact ⟨_, rfl, rfl⟩
      simp only [if_neg hbz]
      have fr := setup_frame false ⟨rest.drop 16, br2.final, none⟩ fc bc w sz d true B' ⟨[], 0, 0, none, 0, 0⟩ l none
      rcases setup_steps false ⟨⟨rest.drop 16, br2.final, none⟩, fc, bc, w, d, sz, B', l⟩ with
        ⟨z3, q1, q2⟩ | ⟨b3, level, l1, l9, q2, q1, _⟩
      · rw [q1] at fr
        generalize setup false ⟨⟨rest.drop 16, br2.final, none⟩, fc, bc, w, true, sz, ⟨[], 0, 0, none, 0, 0⟩, none⟩ = y at fr
        obtain ⟨y1, y2⟩ := y
        obtain ⟨fr1, fr2, _⟩ := fr
        simp only at fr1 fr2
        subst fr1
        have hbr : z3.br = y2.br := congrArg Core.br fr2
        simp only
        have e3 := q2.buf f2 (by simp)
        refine ⟨?_, fun f => ⟨structural, z3, ?_, by rw [hbr]⟩⟩
        · rw [← hbr]
          cases he : z3.br.err with
          | none => simp [structural]
          | some x => rw [he] at e3; simpa using e3
        · simp only [readLoop, Core.with, bind, Out.bind, b1, List.length_nil, if_neg hno, if_neg hcrc, h1, if_neg hm, if_pos hm2, h2, h3, if_neg hfc, hrest, if_neg hr0, if_neg h16, if_neg hbz, q1]
      · rw [q1] at fr
        generalize setup false ⟨⟨rest.drop 16, br2.final, none⟩, fc, bc, w, true, sz, ⟨[], 0, 0, none, 0, 0⟩, none⟩ = y at fr
        obtain ⟨y1, y2⟩ := y
        obtain ⟨fr1, fr2, _⟩ := fr
        simp only at fr1 fr2
        subst fr1
        simp only
        rw [← fr2]
        have l3 := q2.rest.length_le
        simp only [List.length_drop] at l3
        refine ⟨⟨by simp [core], hk.blk, by simp only [core]; omega, by simp only [core]; rw [q2.final]; exact f2, q2.buf f2 (by simp)⟩,
          by simp only [core]; omega, B', b2, fun f => ?_⟩
        simp only [readLoop, Core.with, core, bind, Out.bind, b1, List.length_nil, if_neg hno, if_neg hcrc, h1, if_neg hm, if_pos hm2, h2, h3, if_neg hfc, hrest, if_neg hr0, if_neg h16, if_neg hbz, q1]
    · simp only
      refine ⟨by rw [h3] at e2; simpa using e2, fun f => ⟨x, ?_⟩⟩
      simp only [readLoop, Core.with, bind, Out.bind, b1, List.length_nil, if_neg hno, if_neg hcrc, h1, if_neg hm, if_pos hm2, h2, h3]
      exact ⟨_, rfl, by simp [h3]⟩
  · simp only [if_neg hm2]
    have e1 := s1.buf hk.final hk.err
    refine ⟨?_, fun f => ⟨structural, ?_⟩⟩
    · cases he : br1.err with
      | none => simp [structural]
      | some x => rw [he] at e1; simpa using e1
    · simp only [readLoop, Core.with, bind, Out.bind, b1, List.length_nil, if_neg hno, if_neg hcrc, h1, if_neg hm, if_neg hm2]
      exact ⟨_, rfl, rfl⟩

/-! ### what a state still delivers -/

/-- in the state `k`, with the rest `cur` of the block, `out` is still to come, and then the error `e` -/
inductive Yields (e : IOErr) : Core → Bytes → Bytes → Prop
  | stop {k cur} : (cur ≠ [] → k.br.err = none) → turn (k.fed cur) = .stop e → Yields e k cur cur
  | keep {k cur k' rest} : (cur ≠ [] → k.br.err = none) → turn (k.fed cur) = .go k' none → Yields e k' [] rest → Yields e k cur (cur ++ rest)
  | next {k cur k' b new rest} : (cur ≠ [] → k.br.err = none) → turn (k.fed cur) = .go k' (some b) → Holds b new → Yields e k' new rest →
      Yields e k cur (cur ++ rest)

theorem fed_fed {k : Core} (hk : k.Ok) (a b : Bytes) : (k.fed a).fed b = k.fed (a ++ b) := by
  simp only [Core.fed, updateCRC_append hk.blk]

theorem fed_nil {k : Core} (hk : k.Ok) : k.fed [] = k := by
  simp only [Core.fed, updateCRC_nil hk.blk]

theorem yields_prefix {e : IOErr} {k : Core} {cur out : Bytes} (h : Yields e k cur out) : ∃ r, out = cur ++ r := by
  cases h with
  | stop => exact ⟨[], by simp⟩
  | keep => exact ⟨_, rfl⟩
  | next => exact ⟨_, rfl⟩

theorem yields_drop {e : IOErr} {k : Core} {cur out : Bytes} (hk : k.Ok) (h : Yields e k cur out) (hc : cur ≠ []) (n : Nat) :
    Yields e (k.fed (cur.take n)) (cur.drop n) (out.drop (min n cur.length)) := by
  have e0 : ∀ rest : Bytes, (cur ++ rest).drop (min n cur.length) = cur.drop n ++ rest := by
    intro rest
    rw [List.drop_append_of_le_length (by omega)]
    congr 1
    rcases Nat.le_total n cur.length with h | h
    · rw [Nat.min_eq_left h]
    · rw [Nat.min_eq_right h, List.drop_length, List.drop_eq_nil_of_le h]
  have ht : (k.fed (cur.take n)).fed (cur.drop n) = k.fed cur := by rw [fed_fed hk, List.take_append_drop]
  cases h with
  | stop h1 h2 =>
    have := e0 []
    rw [List.append_nil, List.append_nil] at this
    rw [this]
    exact .stop (fun _ => h1 hc) (by rw [ht]; exact h2)
  | keep h1 h2 h3 => rw [e0]; exact .keep (fun _ => h1 hc) (by rw [ht]; exact h2) h3
  | next h1 h2 h3 h4 => rw [e0]; exact .next (fun _ => h1 hc) (by rw [ht]; exact h2) h3 h4

/-- the loop with bytes of the block left -/
theorem readLoop_some {k : Core} {B : Block} {cur : Bytes} (hB : Holds B cur) {n : Nat} (hn : 0 < n) (hc : cur ≠ []) (d : Bool) (l : Option IOErr) :
    ∃ B', Holds B' (cur.drop n) ∧ ∀ f, readLoop (f + 1) n (k.with B d l) = .ok (cur.take n, none, (k.fed (cur.take n)).with B' d l) := by
  obtain ⟨B', b1, b2, _⟩ := readFromBlock_spec (B.pre.length + n + 1) n B cur hB (by omega)
  refine ⟨B', b2, fun f => ?_⟩
  have hl : 0 < (cur.take n).length := by
    rw [List.length_take]
    have := List.length_pos_iff.mpr hc
    omega
  rw [readLoop]
  simp only [Core.with, bind, Out.bind, b1]
  rw [if_pos (Or.inl hl)]
  rfl

/-- reading, in a state that yields `out` -/
theorem loop_yields {e : IOErr} {n : Nat} (hn : 0 < n) (d : Bool) (l : Option IOErr) {k : Core} {cur out : Bytes} (h : Yields e k cur out) :
    ∀ {B : Block}, k.Ok → Holds B cur → ∀ f, k.br.rest.length < f →
    (out = [] ∧ e ≠ .bufferFull ∧ ∃ e0 z', readLoop f n (k.with B d l) = .ok ([], some e0, z') ∧ z'.br.err.getD e0 = e) ∨
    (∃ j k' B' cur', 0 < j ∧ j ≤ n ∧ j ≤ out.length ∧ readLoop f n (k.with B d l) = .ok (out.take j, none, k'.with B' d l) ∧
      k'.br.err = none ∧ k'.Ok ∧ Holds B' cur' ∧ Yields e k' cur' (out.drop j)) := by
  have some' : ∀ {k : Core} {cur out : Bytes} {B : Block}, Yields e k cur out → k.Ok → Holds B cur → cur ≠ [] → k.br.err = none → ∀ f, k.br.rest.length < f →
      (∃ j k' B' cur', 0 < j ∧ j ≤ n ∧ j ≤ out.length ∧ readLoop f n (k.with B d l) = .ok (out.take j, none, k'.with B' d l) ∧
      k'.br.err = none ∧ k'.Ok ∧ Holds B' cur' ∧ Yields e k' cur' (out.drop j)) := by
    intro k cur out B h hk hB hc he f hf
    obtain ⟨B', b1, b2⟩ := readLoop_some (k := k) hB hn hc d l
    obtain ⟨r, rfl⟩ := yields_prefix h
    obtain ⟨f, rfl⟩ : ∃ g, f = g + 1 := ⟨f - 1, by omega⟩
    have hl := List.length_pos_iff.mpr hc
    refine ⟨min n cur.length, k.fed (cur.take n), B', cur.drop n, by omega, by omega, by rw [List.length_append]; omega, ?_, he, hk.fed _, b1,
      yields_drop hk h hc n⟩
    rw [b2]
    congr 2
    rw [List.take_append_of_le_length (by omega)]
    rcases Nat.le_total n cur.length with h | h
    · rw [Nat.min_eq_left h]
    · rw [Nat.min_eq_right h, List.take_length, List.take_of_length_le h]
  induction h with
  | @stop k cur h1 h2 =>
    intro B hk hB f hf
    by_cases hc : cur = []
    · subst hc
      left
      rw [fed_nil hk] at h2
      have := readLoop_turn hk hB hn d l
      rw [h2] at this
      obtain ⟨f, rfl⟩ : ∃ g, f = g + 1 := ⟨f - 1, by omega⟩
      exact ⟨rfl, this.1, this.2 f⟩
    · exact .inr (some' (.stop h1 h2) hk hB hc (h1 hc) f hf)
  | @keep k cur k' rest h1 h2 h3 ih =>
    intro B hk hB f hf
    by_cases hc : cur = []
    · subst hc
      rw [fed_nil hk] at h2
      have := readLoop_turn hk hB hn d l
      rw [h2] at this
      obtain ⟨t1, t2, B', t3, t4⟩ := this
      obtain ⟨f, rfl⟩ : ∃ g, f = g + 1 := ⟨f - 1, by omega⟩
      rw [t4, List.nil_append]
      exact ih t1 t3 f (by omega)
    · exact .inr (some' (.keep h1 h2 h3) hk hB hc (h1 hc) f hf)
  | @next k cur k' b new rest h1 h2 h3 h4 ih =>
    intro B hk hB f hf
    by_cases hc : cur = []
    · subst hc
      rw [fed_nil hk] at h2
      have := readLoop_turn hk hB hn d l
      rw [h2] at this
      obtain ⟨t1, t2, _, t4⟩ := this
      obtain ⟨f, rfl⟩ : ∃ g, f = g + 1 := ⟨f - 1, by omega⟩
      rw [t4, List.nil_append]
      exact ih t1 h3 f (by omega)
    · exact .inr (some' (.next h1 h2 h3 h4) hk hB hc (h1 hc) f hf)

/-! ### or else a read returns bytes together with an error -/

/-- calls without an error, and then one that returns bytes and an error -/
inductive Mix : Reader → Prop
  | here {z n out e z'} : 0 < n → read z n = .ok (out, some e, z') → out ≠ [] → Mix z
  | step {z n out z'} : 0 < n → read z n = .ok (out, none, z') → Mix z' → Mix z

/-- the same, for a state within a call -/
def MixIn (k : Core) (cur : Bytes) : Prop :=
  ∃ n, 0 < n ∧ ∀ B, Holds B cur → ∃ out k' B',
    (∀ f, k.br.rest.length < f → readLoop f n (k.with B true none) = .ok (out, none, Core.with k' B' true none)) ∧
    ((out ≠ [] ∧ k'.br.err ≠ none) ∨ (k'.br.err = none ∧ Mix (k'.with B' true none)))

theorem MixIn.mix {k : Core} {B : Block} {cur : Bytes} (h : MixIn k cur) (hB : Holds B cur) : Mix (k.with B true none) := by
  obtain ⟨n, hn, h⟩ := h
  obtain ⟨out, k', B', h1, h2⟩ := h B hB
  have h1 := h1 (k.br.rest.length + 1) (by omega)
  have key : read (k.with B true none) n = .ok (out, k'.br.err, { k'.with B' true none with failed := if out = [] then k'.br.err else none }) := by
    unfold read
    simp only [Core.with, if_true] at h1 ⊢
    rw [h1]
    simp only [bind, Out.bind]
    cases k'.br.err <;> rfl
  rcases h2 with ⟨h2, h3⟩ | ⟨h2, h3⟩
  · cases he : k'.br.err with
    | none => exact absurd he h3
    | some x =>
      rw [he] at key
      exact .here hn key h2
  · rw [h2] at key
    simp only [ite_self] at key
    exact .step hn key h3

theorem yields_or_mix : ∀ (m : Nat) (k : Core) (cur : Bytes), k.br.rest.length ≤ m → k.Ok → (∃ B, Holds B cur) →
    (∃ e out, Yields e k cur out) ∨ MixIn k cur := by
  intro m
  induction m using Nat.strongRecOn with
  | ind m ih =>
    intro k cur hm hk hB
    have empty : ∀ (k : Core), k.br.rest.length ≤ m → k.Ok → (∃ B, Holds B []) → (∃ e out, Yields e k [] out) ∨ MixIn k [] := by
      intro k hm hk hB
      obtain ⟨B, hB⟩ := hB
      have key := readLoop_turn hk hB (n := 1) (by omega) true none
      cases ht : turn k with
      | stop e => exact .inl ⟨e, [], .stop (fun h => absurd rfl h) (by rw [fed_nil hk]; exact ht)⟩
      | go k' b =>
        cases b with
        | none =>
          rw [ht] at key
          obtain ⟨t1, t2, B', t3, t4⟩ := key
          rcases ih _ (by omega) k' [] (le_refl _) t1 ⟨B', t3⟩ with ⟨e, out, h⟩ | ⟨n, hn, h⟩
          · exact .inl ⟨e, _, .keep (fun h => absurd rfl h) (by rw [fed_nil hk]; exact ht) h⟩
          · refine .inr ⟨n, hn, fun B hB => ?_⟩
            have key := readLoop_turn hk hB hn true none
            rw [ht] at key
            obtain ⟨_, _, B', t3, t4⟩ := key
            obtain ⟨out, k2, B2, u1, u2⟩ := h B' t3
            refine ⟨out, k2, B2, fun f hf => ?_, u2⟩
            obtain ⟨f, rfl⟩ : ∃ g, f = g + 1 := ⟨f - 1, by omega⟩
            rw [t4]
            exact u1 f (by omega)
        | some b =>
          rw [ht] at key
          obtain ⟨t1, t2, ⟨new, t3⟩, t4⟩ := key
          rcases ih _ (by omega) k' new (le_refl _) t1 ⟨b, t3⟩ with ⟨e, out, h⟩ | ⟨n, hn, h⟩
          · exact .inl ⟨e, _, .next (fun h => absurd rfl h) (by rw [fed_nil hk]; exact ht) t3 h⟩
          · refine .inr ⟨n, hn, fun B hB => ?_⟩
            have key := readLoop_turn hk hB hn true none
            rw [ht] at key
            obtain ⟨_, _, _, t4⟩ := key
            obtain ⟨out, k2, B2, u1, u2⟩ := h b t3
            refine ⟨out, k2, B2, fun f hf => ?_, u2⟩
            obtain ⟨f, rfl⟩ : ∃ g, f = g + 1 := ⟨f - 1, by omega⟩
            rw [t4]
            exact u1 f (by omega)
    by_cases hc : cur = []
    · subst hc; exact empty k hm hk hB
    by_cases he : k.br.err = none
    · have hl := List.length_pos_iff.mpr hc
      obtain ⟨B, hB⟩ := hB
      obtain ⟨B1, b1, _⟩ := readLoop_some (k := k) hB hl hc true none
      rw [List.drop_length] at b1
      rcases empty (k.fed cur) hm (hk.fed cur) ⟨B1, b1⟩ with ⟨e, out, h⟩ | h
      · left
        have hf := fed_nil (hk.fed cur)
        cases h with
        | stop _ h2 => rw [hf] at h2; exact ⟨e, _, .stop (fun _ => he) h2⟩
        | keep _ h2 h3 => rw [hf] at h2; exact ⟨e, _, .keep (fun _ => he) h2 h3⟩
        | next _ h2 h3 h4 => rw [hf] at h2; exact ⟨e, _, .next (fun _ => he) h2 h3 h4⟩
      · refine .inr ⟨cur.length, hl, fun B hB => ?_⟩
        obtain ⟨B', b1, b2⟩ := readLoop_some (k := k) hB hl hc true none
        rw [List.drop_length] at b1
        rw [List.take_length] at b2
        refine ⟨cur, k.fed cur, B', fun f hf => ?_, .inr ⟨he, h.mix b1⟩⟩
        obtain ⟨f, rfl⟩ : ∃ g, f = g + 1 := ⟨f - 1, by omega⟩
        exact b2 f
    · refine .inr ⟨1, by omega, fun B hB => ?_⟩
      obtain ⟨B', b1, b2⟩ := readLoop_some (k := k) hB (n := 1) (by omega) hc true none
      refine ⟨cur.take 1, k.fed (cur.take 1), B', fun f hf => ?_, .inl ⟨?_, he⟩⟩
      · obtain ⟨f, rfl⟩ : ∃ g, f = g + 1 := ⟨f - 1, by omega⟩
        exact b2 f
      · cases cur with
        | nil => exact absurd rfl hc
        | cons a t => simp

theorem yields_ne {e : IOErr} {k : Core} {cur out : Bytes} (h : Yields e k cur out) : k.Ok → e ≠ .bufferFull := by
  induction h with
  | @stop k cur _ h2 =>
    intro hk
    have := readLoop_turn (hk.fed cur) holds_empty (n := 1) (by omega) true none
    rw [h2] at this
    exact this.1
  | @keep k cur k' rest _ h2 _ ih =>
    intro hk
    have := readLoop_turn (hk.fed cur) holds_empty (n := 1) (by omega) true none
    rw [h2] at this
    exact ih this.1
  | @next k cur k' b new rest _ h2 _ _ ih =>
    intro hk
    have := readLoop_turn (hk.fed cur) holds_empty (n := 1) (by omega) true none
    rw [h2] at this
    exact ih this.1

/-- what the first call does before it enters the loop -/
def begin (file : Bytes) (e0 : IOErr) : Option IOErr × Core :=
  let (e, z) := setup true (newReader file e0)
  (match z.br.err with | some e' => some e' | none => e, core z)

theorem read_new (file : Bytes) (e0 : IOErr) (h0 : e0 ≠ .bufferFull) :
    match begin file e0 with
    | (some e, _) => e ≠ .bufferFull ∧ ∀ n, ∃ z', read (newReader file e0) n = .ok ([], some e, z') ∧ z'.failed = some e
    | (none, k) => k.Ok ∧ ∃ B, Holds B [] ∧ ∀ n, read (newReader file e0) n = read (k.with B true none) n := by
  have key : ∀ n, read (newReader file e0) n =
      match setup true (newReader file e0) with
      | (e, z) =>
        match (if z.setupDone then e else (match z.br.err with | some e' => some e' | none => e)) with
        | some e => .ok ([], some e, { z with failed := some e })
        | none => (readLoop (z.br.rest.length + 1) n { z with setupDone := true }).bind fun y =>
          .ok (y.1, (match y.2.2.br.err with | some e' => some e' | none => y.2.1),
            { y.2.2 with failed := if y.1 = [] then (match y.2.2.br.err with | some e' => some e' | none => y.2.1) else none }) := fun n => rfl
  unfold begin
  rcases setup_steps true (newReader file e0) with ⟨z, h, hs⟩ | ⟨br, level, l1, l9, hs, h, _⟩
  · have hd : z.setupDone = false := by
      have := (setup_frame true (newReader file e0).br 0 0 0 0 false false ⟨[], 0, 0, none, 0, 0⟩ ⟨[], 0, 0, none, 0, 0⟩ none none).2.2.1
      change (setup true (newReader file e0)).2.setupDone = false at this
      rw [h] at this
      exact this
    have e1 := hs.buf h0 (by simp [newReader])
    simp only [h, hd, Bool.false_eq_true, if_false] at key ⊢
    cases hx : z.br.err with
    | none =>
      simp only [hx] at key ⊢
      exact ⟨by simp [structural], fun n => ⟨_, key n, rfl⟩⟩
    | some x =>
      simp only [hx] at key ⊢
      rw [hx] at e1
      exact ⟨by simpa using e1, fun n => ⟨_, key n, rfl⟩⟩
  · have e1 := hs.buf h0 (by simp [newReader])
    have f1 : br.final = e0 := hs.final
    have hd : (newReader file e0).setupDone = false := rfl
    simp only [h, hd, Bool.false_eq_true, if_false] at key ⊢
    cases hx : br.err with
    | some x =>
      simp only [hx] at key ⊢
      rw [hx] at e1
      exact ⟨by simpa using e1, fun n => ⟨_, key n, rfl⟩⟩
    | none =>
      simp only [hx] at key ⊢
      refine ⟨⟨by simp [core], by simp [core, newReader], by simp only [core]; omega, by simp only [core]; rw [f1]; exact h0, e1⟩, _, holds_empty, fun n => ?_⟩
      rw [key n]
      rfl

/-- the states of a reader of a file -/
def Any (file : Bytes) (e0 e : IOErr) (z : Reader) (out : Bytes) : Prop :=
  (z.failed = some e ∧ out = []) ∨
  (∃ k B cur, z = Core.with k B true none ∧ k.Ok ∧ Holds B cur ∧ Yields e k cur out) ∨
  (z = newReader file e0 ∧ ((∃ k, begin file e0 = (some e, k) ∧ out = []) ∨ ∃ k, begin file e0 = (none, k) ∧ Yields e k [] out))

theorem any_step {file : Bytes} {e0 e : IOErr} (h0 : e0 ≠ .bufferFull) {z : Reader} {out : Bytes} {n : Nat} (hz : Any file e0 e z out) (hn : 0 < n) :
    (out = [] ∧ ∃ z', read z n = .ok ([], some e, z') ∧ Any file e0 e z' []) ∨
    (∃ j z', 0 < j ∧ j ≤ n ∧ j ≤ out.length ∧ read z n = .ok (out.take j, none, z') ∧ Any file e0 e z' (out.drop j)) := by
  have mid : ∀ {k : Core} {B : Block} {cur : Bytes}, k.Ok → Holds B cur → Yields e k cur out →
      (out = [] ∧ ∃ z', read (k.with B true none) n = .ok ([], some e, z') ∧ Any file e0 e z' []) ∨
      (∃ j z', 0 < j ∧ j ≤ n ∧ j ≤ out.length ∧ read (k.with B true none) n = .ok (out.take j, none, z') ∧ Any file e0 e z' (out.drop j)) := by
    intro k B cur hk hB hy
    rcases loop_yields hn true none hy hk hB (k.br.rest.length + 1) (by omega) with ⟨h1, _, x, z', h2, h3⟩ | ⟨j, k', B', cur', j1, j2, j3, j4, j5, j6, j7, j8⟩
    · left
      refine ⟨h1, { z' with failed := some e }, ?_, .inl ⟨rfl, rfl⟩⟩
      unfold read
      simp only [Core.with, if_true] at h2 ⊢
      rw [h2]
      simp only [bind, Out.bind, if_true]
      cases hx : z'.br.err with
      | none => rw [hx] at h3; simp only [Option.getD_none] at h3; subst h3; rfl
      | some y => rw [hx] at h3; simp only [Option.getD_some] at h3; subst h3; rfl
    · right
      refine ⟨j, k'.with B' true none, j1, j2, j3, ?_, .inr (.inl ⟨k', B', cur', rfl, j6, j7, j8⟩)⟩
      unfold read
      simp only [Core.with, if_true] at j4 ⊢
      rw [j4]
      simp only [bind, Out.bind, j5, ite_self]
  rcases hz with ⟨h1, h2⟩ | ⟨k, B, cur, rfl, hk, hB, hy⟩ | ⟨rfl, h⟩
  · left
    refine ⟨h2, z, ?_, .inl ⟨h1, rfl⟩⟩
    unfold read
    simp only [h1]
  · exact mid hk hB hy
  · have key := read_new file e0 h0
    rcases h with ⟨k, h1, h2⟩ | ⟨k, h1, h2⟩
    · rw [h1] at key
      obtain ⟨z', k1, k2⟩ := key.2 n
      exact .inl ⟨h2, z', k1, .inl ⟨k2, rfl⟩⟩
    · rw [h1] at key
      obtain ⟨k1, B, k2, k3⟩ := key
      rw [k3 n]
      exact mid k1 k2 h2

theorem any_exists (file : Bytes) (e0 : IOErr) (h0 : e0 ≠ .bufferFull) (hno : ¬ Mix (newReader file e0)) :
    ∃ e out, e ≠ .bufferFull ∧ Any file e0 e (newReader file e0) out := by
  have key := read_new file e0 h0
  rcases h : begin file e0 with ⟨_ | e, k⟩
  · rw [h] at key
    obtain ⟨k1, B, k2, k3⟩ := key
    rcases yields_or_mix _ k [] (le_refl _) k1 ⟨B, k2⟩ with ⟨e, out, hy⟩ | hm
    · exact ⟨e, out, yields_ne hy k1, .inr (.inr ⟨rfl, .inr ⟨k, h, hy⟩⟩)⟩
    · refine absurd ?_ hno
      cases hm.mix k2 with
      | here a b c => exact .here a (by rw [k3]; exact b) c
      | step a b c => exact .step a (by rw [k3]; exact b) c
  · rw [h] at key
    exact ⟨e, [], key.1, .inr (.inr ⟨rfl, .inl ⟨k, h, rfl⟩⟩)⟩

theorem any_delivers {file : Bytes} {e0 e : IOErr} (h0 : e0 ≠ .bufferFull) (he : e ≠ .bufferFull) {out : Bytes}
    (h : Any file e0 e (newReader file e0) out) : DeliversThen source (newReader file e0) out e := by
  refine delivers_of_rel he (S := source) (Any file e0 e) (fun s out n hs hn => ?_) h
  rcases any_step h0 hs hn with ⟨a0, z', a1, a2⟩ | ⟨k, z', k1, k2, k3, k4, k5⟩
  · left
    refine ⟨a0, z', ?_, a2⟩
    change (match read s n with | .ok x => x | _ => ([], none, s)) = _
    rw [a1]; rfl
  · right
    refine ⟨k, z', k1, k2, k3, ?_, k5⟩
    change (match read s n with | .ok x => x | _ => ([], none, s)) = _
    rw [k4]; rfl

/-- all the bytes, and then the error -/
theorem any_drain {file : Bytes} {e0 e : IOErr} (h0 : e0 ≠ .bufferFull) (P : Bytes → Reader → Prop)
    (hP : ∀ d z n out z', P d z → read z n = .ok (out, none, z') → P (d ++ out) z') :
    ∀ (m : Nat) (d : Bytes) (z : Reader) (out : Bytes), out.length ≤ m → P d z → Any file e0 e z out →
    ∃ z' z'', P (d ++ out) z' ∧ read z' 1 = .ok ([], some e, z'') := by
  intro m
  induction m with
  | zero =>
    intro d z out hm hd hz
    rcases any_step h0 hz (n := 1) (by omega) with ⟨rfl, z', a1, _⟩ | ⟨j, z', j1, _, j3, _⟩
    · exact ⟨z, z', by rw [List.append_nil]; exact hd, a1⟩
    · omega
  | succ m ih =>
    intro d z out hm hd hz
    rcases any_step h0 hz (n := 1) (by omega) with ⟨rfl, z', a1, _⟩ | ⟨j, z', j1, _, j3, j4, j5⟩
    · exact ⟨z, z', by rw [List.append_nil]; exact hd, a1⟩
    · have := ih (d ++ out.take j) z' (out.drop j) (by rw [List.length_drop]; omega) (hP _ _ _ _ _ hd j4) j5
      rwa [List.append_assoc, List.take_append_drop] at this

end Radolan.Bz
