/- The bzip2 decompressor reports the end of the data only after checksums that are right. -/
import Verif.Lemmas.BzSafe
import Verif.Spec.BzSums

namespace Radolan.Bz
open Go _root_.Spec.Bzip2

/-! ### reading goes forward -/

/-- from one state of the bit reader to a later one -/
structure Steps (a b : BR) : Prop where
  rest : b.rest <:+ a.rest
  final : b.final = a.final
  err : b.err = none → a.err = none
  eof : a.err ≠ some .eof → b.err ≠ some .eof
  buf : a.final ≠ .bufferFull → a.err ≠ some .bufferFull → b.err ≠ some .bufferFull

theorem Steps.refl (a : BR) : Steps a a := ⟨List.suffix_refl _, rfl, id, id, fun _ h => h⟩

theorem Steps.trans {a b c : BR} (h : Steps a b) (k : Steps b c) : Steps a c :=
  ⟨k.rest.trans h.rest, k.final.trans h.final, fun x => h.err (k.err x), fun x => k.eof (h.eof x), fun x y => k.buf (by rwa [h.final]) (h.buf x y)⟩

/-- a computation that reads from `br`: an error is not `eof`, a value comes with a later state -/
def Went {α : Type} (br : BR) (f : α → BR) : Out α → Prop
  | .panic => True
  | .err e => (br.err ≠ some .eof → e ≠ .eof) ∧ (br.final ≠ .bufferFull → br.err ≠ some .bufferFull → e ≠ .bufferFull)
  | .ok a => Steps br (f a)

theorem Went.bind {α β : Type} {br : BR} {f : α → BR} {g : β → BR} {x : Out α} {k : α → Out β} (h : Went br f x)
    (hk : ∀ a, Steps br (f a) → Went br g (k a)) : Went br g (x >>= k) := by
  cases x with
  | panic => trivial
  | err e => exact h
  | ok a => exact hk a h

theorem Went.from {α : Type} {a b : BR} {f : α → BR} {x : Out α} (h : Steps a b) (k : Went b f x) : Went a f x := by
  cases x with
  | panic => trivial
  | err e => exact ⟨fun x => k.1 (h.eof x), fun x y => k.2 (by rwa [h.final]) (h.buf x y)⟩
  | ok v => exact h.trans k

theorem Went.fail {α : Type} {br br' : BR} {f : α → BR} (h : Steps br br') : Went br f (Bz.fail br' : Out α) := by
  refine ⟨fun hb => ?_, fun hf hb => ?_⟩
  · have := h.eof hb
    cases he : br'.err with
    | none => simp [structural]
    | some e => rw [he] at this; simpa using this
  · have := h.buf hf hb
    cases he : br'.err with
    | none => simp [structural]
    | some e => rw [he] at this; simpa using this

theorem readBits_steps (k : Nat) (br : BR) : Steps br (readBits k br).2 := by
  unfold readBits
  split
  · exact ⟨List.drop_suffix _ _, rfl, id, id, fun _ h => h⟩
  · refine ⟨List.suffix_refl _, rfl, fun h => by simp at h, fun _ => ?_, fun hf _ => ?_⟩
    · simp only
      split
      · simp
      · rename_i h; simpa using h
    · simp only
      split
      · simp
      · simpa using hf

theorem ofBits_bits (w : List Bool) : bits w.length (ofBits w) = w := by
  apply List.ext_getElem (by simp [bits])
  intro j h1 h2
  have := ofBits_testBit w j h2
  rw [List.getD_eq_getElem?_getD, List.getElem?_eq_getElem h2] at this
  simpa [bits] using this

theorem readBits_val {k : Nat} {br : BR} (h : (readBits k br).1 ≠ 0 ∨ (readBits k br).2.err = none) :
    br.rest = bits k (readBits k br).1 ++ (readBits k br).2.rest := by
  unfold readBits at h ⊢
  by_cases hk : k ≤ br.rest.length
  · simp only [if_pos hk]
    have := ofBits_bits (br.rest.take k)
    rw [List.length_take, Nat.min_eq_left hk] at this
    rw [this, List.take_append_drop]
  · simp [if_neg hk] at h

theorem unary_steps (fuel : Nat) : ∀ (br : BR) (c : Nat), Steps br (unary fuel br c).2 := by
  induction fuel with
  | zero => intro br c; exact Steps.refl _
  | succ fuel ih =>
    intro br c
    rw [unary]
    have h := readBits_steps 1 br
    generalize readBits 1 br = x at h
    obtain ⟨v, br'⟩ := x
    simp only at h ⊢
    split
    · exact h
    · exact h.trans (ih _ _)

theorem usedBytes_steps (br : BR) : Steps br (usedBytes br).2 := by
  unfold usedBytes
  have h := readBits_steps 16 br
  generalize readBits 16 br = x at h
  obtain ⟨ranges, br'⟩ := x
  simp only at h ⊢
  have key : ∀ (l : List Nat) (s : List Nat × BR), Steps br s.2 →
      Steps br (l.foldl (fun (s : List Nat × BR) i =>
        if ranges.testBit (15 - i) then
          let (bits, br) := readBits 16 s.2
          (s.1 ++ ((List.range 16).filter fun j => bits.testBit (15 - j)).map (16 * i + ·), br)
        else s) s).2 := by
    intro l
    induction l with
    | nil => intro s h1; exact h1
    | cons i l ih =>
      intro s h1
      rw [List.foldl_cons]
      apply ih
      split
      · exact h1.trans (readBits_steps 16 s.2)
      · exact h1
  exact key _ _ h

theorem mtf_bind {β : Type} {br : BR} {g : β → BR} {m : List Nat} {c : Nat} {k : Nat × List Nat → Out β}
    (hk : ∀ a, Went br g (k a)) : Went br g (mtfDecode m c >>= k) := by
  unfold mtfDecode
  cases m[c]? with
  | none => trivial
  | some b => exact hk _

theorem selectors_steps {T : Nat} : ∀ (k : Nat) (m : List Nat) (br : BR), Went br (·.2) (selectors T k m br) := by
  intro k
  induction k with
  | zero => intro m br; exact Steps.refl _
  | succ k ih =>
    intro m br
    rw [selectors]
    have h := unary_steps (br.rest.length + 1) br 0
    generalize unary (br.rest.length + 1) br 0 = x at h
    obtain ⟨c, br'⟩ := x
    simp only at h ⊢
    split
    · exact Went.fail h
    · exact mtf_bind fun x => (Went.from h (ih x.2 br')).bind fun y hy => hy

theorem nextLength_steps : ∀ (fuel l : Nat) (br : BR), Went br (·.2) (nextLength fuel l br) := by
  intro fuel
  induction fuel with
  | zero => intro l br; trivial
  | succ fuel ih =>
    intro l br
    rw [nextLength]
    split
    · exact Went.fail (Steps.refl _)
    · have h := readBits_steps 1 br
      generalize readBits 1 br = x at h
      obtain ⟨go, br'⟩ := x
      simp only at h ⊢
      split
      · exact h
      · have h3 := readBits_steps 1 br'
        generalize readBits 1 br' = x at h3
        obtain ⟨down, br''⟩ := x
        simp only at h3 ⊢
        exact Went.from (h.trans h3) (ih _ br'')

theorem codeLengths_steps : ∀ (k l : Nat) (br : BR), Went br (·.2) (codeLengths k l br) := by
  intro k
  induction k with
  | zero => intro l br; exact Steps.refl _
  | succ k ih =>
    intro l br
    rw [codeLengths]
    exact (nextLength_steps _ l br).bind fun x hx => (Went.from hx (ih x.1 x.2)).bind fun y hy => hy

theorem decode_steps {nodes : List Node} : ∀ (fuel i : Nat) (br : BR), Went br (·.2) (decode nodes fuel i br) := by
  intro fuel
  induction fuel with
  | zero => intro i br; trivial
  | succ fuel ih =>
    intro i br
    rw [decode]
    split
    · trivial
    · rename_i node _
      have hb := readBits_steps 1 br
      generalize readBits 1 br = x at hb
      obtain ⟨bit, br'⟩ := x
      simp only at hb ⊢
      split
      · exact Went.from hb (ih _ br')
      · exact hb

theorem readTrees_steps {n : Nat} : ∀ (k : Nat) (br : BR), Went br (·.2) (readTrees n k br) := by
  intro k
  induction k with
  | zero => intro br; exact Steps.refl _
  | succ k ih =>
    intro br
    rw [readTrees]
    have h := readBits_steps 5 br
    generalize readBits 5 br = x at h
    obtain ⟨l, br'⟩ := x
    simp only at h ⊢
    refine (Went.from h (codeLengths_steps n l br')).bind fun x hx => ?_
    cases newTree x.1 with
    | panic => trivial
    | err e => exact Went.fail hx
    | ok t => exact (Went.from hx (ih x.2)).bind fun y hy => hy

theorem round_steps {sels : List Nat} {trees : List (List Node)} {n bs fuel : Nat}
    (ih : ∀ s, Went s.br (·.2) (symbols sels trees n bs fuel s)) (v : Nat) (s : Sym) :
    Went s.br (·.2) (round sels trees n bs fuel v s) := by
  unfold round
  by_cases hv2 : v < 2
  · rw [if_pos hv2]
    simp only []
    generalize (if s.repeat' = 0 then 1 else s.repeatPower) = pw
    split
    · exact Went.fail (Steps.refl _)
    · exact ih _
  · rw [if_neg hv2]
    by_cases hrep : 0 < s.repeat' ∧ bs - s.tt.length < s.repeat'
    · rw [if_pos hrep]; exact Went.fail (Steps.refl _)
    · rw [if_neg hrep]
      have cont : ∀ s' : Sym, s'.br = s.br → Went s.br (·.2)
          (if v = n - 1 then .ok (s'.tt, s'.br)
           else do
            let (b, m) ← mtfDecode s'.mtf (v - 1)
            if bs ≤ s'.tt.length then Bz.fail s'.br
            else symbols sels trees n bs fuel (put { s' with mtf := m } b 1)) := by
        intro s' hs'
        rw [← hs']
        split
        · exact Steps.refl _
        · refine mtf_bind fun x => ?_
          simp only []
          split
          · exact Went.fail (Steps.refl _)
          · exact ih (put { s' with mtf := x.2 } x.1 1)
      by_cases h0 : 0 < s.repeat'
      · rw [if_pos h0]
        cases s.mtf[0]? with
        | none => trivial
        | some b => exact cont (put { s with repeat' := 0 } b s.repeat') rfl
      · rw [if_neg h0]
        exact cont s rfl

theorem symbols_steps {sels : List Nat} {trees : List (List Node)} {n bs : Nat} :
    ∀ (fuel : Nat) (s : Sym), Went s.br (·.2) (symbols sels trees n bs fuel s) := by
  intro fuel
  induction fuel with
  | zero => intro s; trivial
  | succ fuel ih =>
    intro s
    have cont : ∀ s1 : Sym, s1.br = s.br → Went s.br (·.2)
        (decode s1.tree (s1.tree.length + 33) 0 s1.br >>= fun x => round sels trees n bs fuel x.1 { s1 with br := x.2, decoded := s1.decoded + 1 }) := by
      intro s1 h1
      rw [← h1]
      exact (decode_steps (s1.tree.length + 33) 0 s1.br).bind fun x hx =>
        Went.from hx (round_steps ih x.1 { s1 with br := x.2, decoded := s1.decoded + 1 })
    rw [symbols]
    by_cases h50 : s.decoded = 50
    · rw [if_pos h50]
      cases hsel : sels[s.selectorIndex]? with
      | none => exact Went.fail (Steps.refl _)
      | some i =>
        simp only []
        cases htr : trees[i]? with
        | none => exact Went.fail (Steps.refl _)
        | some t => exact cont { s with tree := t, selectorIndex := s.selectorIndex + 1, decoded := 0 } rfl
    · rw [if_neg h50]
      exact cont s rfl

theorem link_noerr : ∀ (k i : Nat) (tt c : List Nat), ∀ e, link k i tt c ≠ .err e := by
  intro k
  induction k with
  | zero => intro i tt c e h; simp [link] at h
  | succ k ih =>
    intro i tt c e h
    rw [link] at h
    unfold index at h
    cases h1 : tt[i]? with
    | none => rw [h1] at h; simp [bind, Out.bind] at h
    | some x =>
      rw [h1] at h
      simp only [bind, Out.bind] at h
      cases h2 : c[x % 256]? with
      | none => rw [h2] at h; simp at h
      | some p =>
        rw [h2] at h
        simp only at h
        cases h3 : tt[p]? with
        | none => rw [h3] at h; simp at h
        | some y =>
          rw [h3] at h
          exact ih _ _ _ e h

theorem readBlock_steps (size : Nat) (br : BR) : Went br (·.2) (readBlock size br) := by
  rw [readBlock]
  have g1 := readBits_steps 1 br
  generalize readBits 1 br = x at g1
  obtain ⟨rnd, b1⟩ := x
  simp only at g1 ⊢
  split
  · exact Went.fail g1
  have g2 := g1.trans (readBits_steps 24 b1)
  generalize readBits 24 b1 = x at g2
  obtain ⟨o, b2⟩ := x
  simp only at g2 ⊢
  have g3 := g2.trans (usedBytes_steps b2)
  generalize usedBytes b2 = x at g3
  obtain ⟨used, b3⟩ := x
  simp only at g3 ⊢
  split
  · exact Went.fail g3
  have g4 := g3.trans (readBits_steps 3 b3)
  generalize readBits 3 b3 = x at g4
  obtain ⟨T, b4⟩ := x
  simp only at g4 ⊢
  split
  · exact Went.fail g4
  have g5 := g4.trans (readBits_steps 15 b4)
  generalize readBits 15 b4 = x at g5
  obtain ⟨S, b5⟩ := x
  simp only at g5 ⊢
  refine (Went.from g5 (selectors_steps S (List.range T) b5)).bind fun x hx => ?_
  refine (Went.from hx (readTrees_steps T x.2)).bind fun y hy => ?_
  cases x.1[0]? with
  | none => exact Went.fail hy
  | some i =>
    simp only []
    cases y.1[i]? with
    | none => exact Went.fail hy
    | some t =>
      simp only []
      refine (Went.from hy (symbols_steps (51 * x.1.length + 51)
        (⟨1, 0, t, 0, 0, used, [], y.2⟩ : Sym))).bind fun z hz => ?_
      split
      · exact Went.fail hz
      · rw [inverseBWT]
        have := link_noerr z.1.length 0 z.1 (cumulate (counts z.1) 0)
        generalize link z.1.length 0 z.1 (cumulate (counts z.1) 0) = l at this
        cases l with
        | panic => trivial
        | err e => exact absurd rfl (this e)
        | ok tt =>
          simp only [bind, Out.bind, index]
          cases tt[o]? with
          | none => trivial
          | some p => exact hz

/-! ### what stands in the file from here on -/

/-- the rest of a stream and the streams after it -/
inductive Tail : Nat → Bytes → List Bool → Prop
  | last {c data w pad} : Sums c data w → pad.length < 8 → Tail c data (w ++ pad)
  | more {c data w pad data' ws} : Sums c data w → pad.length < 8 → Vouched data' ws → Tail c (data ++ data') (w ++ pad ++ ws)

theorem Tail.block {c : Nat} {d more : Bytes} {t : List Bool} (w : List Bool) (h : Tail (combine c (crc d)) more t) :
    Tail c (d ++ more) (bits 48 0x314159265359 ++ bits 32 (crc d) ++ w ++ t) := by
  cases h with
  | last hs hp => have := Tail.last (Sums.block w hs) hp; simpa only [List.append_assoc] using this
  | more hs hp hv => have := Tail.more (Sums.block w hs) hp hv; simpa only [List.append_assoc] using this

theorem Tail.vouched {level : Nat} {more : Bytes} {t : List Bool} (h1 : 1 ≤ level) (h9 : level ≤ 9) (h : Tail 0 more t) :
    Vouched more (bits 16 0x425a ++ bits 8 0x68 ++ bits 8 (0x30 + level) ++ t) := by
  cases h with
  | last hs hp => have := Vouched.last h1 h9 hs hp; simpa only [List.append_assoc] using this
  | more hs hp hv => have := Vouched.more h1 h9 hs hp hv; simpa only [List.append_assoc] using this

/-- the state after the delivery of `data` from the file `F`: if the checksums still to come are right, all are -/
structure Going (F : List Bool) (data : Bytes) (z : Reader) : Prop where
  done : z.setupDone = true
  file : z.fileCRC < 2 ^ 32
  blk : z.blockCRC < 2 ^ 32
  size : z.blockSize ≤ 900000
  eof : z.br.err ≠ some .eof
  left : ∃ rem, Holds z.block rem ∧ (z.br.err = none → updateCRC z.blockCRC rem = z.wantBlockCRC →
    ∀ more, Tail z.fileCRC more z.br.rest → Vouched (data ++ rem ++ more) F)

theorem setup_steps (n : Bool) (z : Reader) :
    (∃ z', setup n z = (some structural, z') ∧ Steps z.br z'.br) ∨
    ∃ br level, 1 ≤ level ∧ level ≤ 9 ∧ Steps z.br br ∧
      setup n z = (none, { z with br := br, fileCRC := 0, blockSize := 100 * 1000 * level }) ∧
      z.br.rest = (if n then bits 16 0x425a else []) ++ (bits 8 0x68 ++ (bits 8 (0x30 + level) ++ br.rest)) := by
  unfold setup
  have g1 : Steps z.br (if n then readBits 16 z.br else (0x425a, z.br)).2 := by
    split
    · exact readBits_steps _ _
    · exact Steps.refl _
  have v1 : (if n then readBits 16 z.br else (0x425a, z.br)).1 = 0x425a →
      z.br.rest = (if n then bits 16 0x425a else []) ++ (if n then readBits 16 z.br else (0x425a, z.br)).2.rest := by
    cases n with
    | true =>
      intro h
      simp only [if_true] at h ⊢
      have := readBits_val (k := 16) (br := z.br) (.inl (by rw [h]; norm_num))
      rwa [h] at this
    | false => intro _; simp
  generalize (if n then readBits 16 z.br else (0x425a, z.br)) = x at g1 v1
  obtain ⟨m, b1⟩ := x
  simp only at g1 v1 ⊢
  split
  · exact .inl ⟨_, rfl, g1⟩
  rename_i hm
  have v1 := v1 (by simpa using hm)
  have g2 := readBits_steps 8 b1
  have v2 := readBits_val (k := 8) (br := b1)
  generalize readBits 8 b1 = x at g2 v2
  obtain ⟨t, b2⟩ := x
  simp only at g2 v2 ⊢
  split
  · exact .inl ⟨_, rfl, g1.trans g2⟩
  rename_i ht
  have ht : t = 0x68 := by simpa using ht
  have v2 := v2 (.inl (by rw [ht]; norm_num))
  have g3 := readBits_steps 8 b2
  have v3 := readBits_val (k := 8) (br := b2)
  generalize readBits 8 b2 = x at g3 v3
  obtain ⟨l, b3⟩ := x
  simp only at g3 v3 ⊢
  split
  · exact .inl ⟨_, rfl, g1.trans (g2.trans g3)⟩
  · refine .inr ⟨b3, l - 0x30, by omega, by omega, g1.trans (g2.trans g3), rfl, ?_⟩
    rw [v1, v2, v3 (.inl (by omega)), ht, show 0x30 + (l - 0x30) = l by omega]

/-- what a call of Read leaves: `eof` vouches for the data, and without an error reading goes on -/
def Post (F : List Bool) (data : Bytes) (x : Bytes × Option IOErr × Reader) : Prop :=
  (x.2.1 = some .eof ∨ x.2.2.br.err = some .eof → x.1 = [] ∧ Vouched data F) ∧ (x.2.1 = none → Going F (data ++ x.1) x.2.2)

theorem post_err {F : List Bool} {data : Bytes} {e : IOErr} {z : Reader} (he : e ≠ .eof) (hz : z.br.err ≠ some .eof) :
    Post F data ([], some e, z) :=
  ⟨fun h => by rcases h with h | h <;> simp_all, fun h => by simp at h⟩

theorem readLoop_sums {F : List Bool} {data : Bytes} (n : Nat) : ∀ (fuel : Nat) (z : Reader), Going F data z → z.br.rest.length < fuel →
    Always (Post F data) (readLoop fuel n z) := by
  intro fuel
  induction fuel with
  | zero => intro z _ h; omega
  | succ fuel ih =>
    intro z hz hf
    obtain ⟨rem, ho, hcl⟩ := hz.left
    obtain ⟨b', b1, b2, _⟩ := readFromBlock_spec (z.block.pre.length + n + 1) n z.block rem ho (by omega)
    rw [readLoop]
    simp only [bind, Out.bind, b1]
    by_cases hout : 0 < (rem.take n).length ∨ n = 0
    · rw [if_pos hout]
      refine ⟨fun h => ?_, fun _ => ⟨hz.done, hz.file, updateCRC_lt hz.blk _, hz.size, hz.eof, _, b2, fun he hc more ht => ?_⟩⟩
      · rcases h with h | h
        · simp at h
        · exact absurd h hz.eof
      · simp only at he hc ht ⊢
        rw [updateCRC_append hz.blk, List.take_append_drop] at hc
        have := hcl he hc more ht
        rw [List.append_assoc data, List.take_append_drop]
        exact this
    rw [if_neg hout]
    have hrem : rem = [] := by
      push Not at hout
      have h1 := hout.1
      simp only [List.length_take, Nat.le_zero, Nat.min_eq_zero_iff] at h1
      rcases h1 with h1 | h1
      · exact absurd h1 hout.2
      · exact List.length_eq_zero_iff.mp h1
    subst hrem
    rw [updateCRC_nil hz.blk, List.append_nil] at hcl
    rw [List.drop_nil] at b2
    by_cases hcrc : z.blockCRC ≠ z.wantBlockCRC
    · rw [if_pos hcrc]
      exact post_err (by simp [structural]) (by simp [structural])
    rw [if_neg hcrc]
    have hcrc : z.blockCRC = z.wantBlockCRC := by simpa using hcrc
    have g1 := readBits_steps 48 z.br
    have v1 := readBits_val (k := 48) (br := z.br)
    have l1 := readBits_ne (k := 48) (br := z.br)
    generalize readBits 48 z.br = x at g1 v1 l1
    obtain ⟨magic, br⟩ := x
    simp only at g1 v1 l1 ⊢
    by_cases hm : magic = 0x314159265359
    · rw [if_pos hm]
      have v1 := v1 (.inl (by rw [hm]; norm_num))
      have l1 := l1 (by rw [hm]; norm_num)
      have g2 := readBits_steps 32 br
      have v2 := readBits_val (k := 32) (br := br)
      have k2 := readBits_lt 32 br
      generalize readBits 32 br = x at g2 v2 k2
      obtain ⟨crc', br2⟩ := x
      simp only at g2 v2 k2 ⊢
      have hb := readBlock_safe hz.size br2
      have hg := readBlock_steps z.blockSize br2
      generalize readBlock z.blockSize br2 = y at hb hg
      cases y with
      | panic => exact hb.elim
      | err e => exact post_err (hg.1 ((g1.trans g2).eof hz.eof)) ((g1.trans g2).eof hz.eof)
      | ok y =>
        obtain ⟨⟨rem', hr⟩, hb2, _⟩ := hb
        have hg : Steps br2 y.2 := hg
        have gall := (g1.trans g2).trans hg
        have hl2 := g2.rest.length_le
        have hcl2 : y.2.err = none → updateCRC 0 rem' = crc' → ∀ more, Tail (combine z.fileCRC crc') more y.2.rest →
            Vouched (data ++ rem' ++ more) F := by
          intro he hc more ht
          rw [updateCRC_data] at hc
          subst hc
          obtain ⟨w, hw⟩ := hg.rest
          have := hcl (gall.err he) hcrc (rem' ++ more) (by
            rw [v1, v2 (.inr (hg.err he)), ← hw, hm]
            have := ht.block w
            simpa only [List.append_assoc] using this)
          simpa only [List.append_assoc, List.append_nil] using this
        rw [combine_eq hz.file]
        exact ih _ ⟨hz.done, combine_lt hz.file k2, by norm_num, hz.size, gall.eof hz.eof, rem', hr, hcl2⟩ (by simp only; omega)
    rw [if_neg hm]
    by_cases hm2 : magic = 0x177245385090
    · rw [if_pos hm2]
      have v1 := v1 (.inl (by rw [hm2]; norm_num))
      have l1 := l1 (by rw [hm2]; norm_num)
      have g2 := readBits_steps 32 br
      have v2 := readBits_val (k := 32) (br := br)
      generalize readBits 32 br = x at g2 v2
      obtain ⟨crc', br2⟩ := x
      simp only at g2 v2 ⊢
      have hl2 := g2.rest.length_le
      have e2 := (g1.trans g2).eof hz.eof
      cases herr : br2.err with
      | some e =>
        rw [herr] at e2
        exact post_err (by simpa using e2) (by simp only; rw [herr]; exact e2)
      | none =>
        have v2 := v2 (.inr herr)
        have e0 := (g1.trans g2).err herr
        simp only []
        by_cases hfc : z.fileCRC ≠ crc'
        · rw [if_pos hfc]; exact post_err (by simp [structural]) (by simp [structural])
        rw [if_neg hfc]
        have hfc : z.fileCRC = crc' := by simpa using hfc
        have hsplit := List.take_append_drop (br2.rest.length % 8) br2.rest
        have hpad : (br2.rest.take (br2.rest.length % 8)).length < 8 := by
          rw [List.length_take]; omega
        generalize br2.rest.take (br2.rest.length % 8) = pad at hsplit hpad
        have hlr : (br2.rest.drop (br2.rest.length % 8)).length ≤ br2.rest.length := by rw [List.length_drop]; omega
        generalize br2.rest.drop (br2.rest.length % 8) = rest at hsplit hlr
        have hfile : z.br.rest = bits 48 0x177245385090 ++ bits 32 z.fileCRC ++ pad ++ rest := by
          rw [v1, v2, ← hsplit, hm2, hfc]; simp only [List.append_assoc]
        by_cases hr0 : rest = []
        · rw [if_pos hr0]
          subst hr0
          refine ⟨fun _ => ⟨rfl, ?_⟩, fun h => by simp at h⟩
          have := hcl e0 hcrc [] (by
            rw [hfile, List.append_nil]
            exact Tail.last .done hpad)
          simpa using this
        rw [if_neg hr0]
        have hne : (if br2.final = .eof then IOErr.unexpectedEOF else br2.final) ≠ .eof := by
          split
          · simp
          · assumption
        by_cases h16 : rest.length < 16
        · rw [if_pos h16]
          exact post_err hne (by simpa using hne)
        rw [if_neg h16]
        by_cases hbz : rest.take 16 ≠ byteBits 0x42 ++ byteBits 0x5a
        · rw [if_pos hbz]
          exact post_err (by simp [structural]) (by simp)
        rw [if_neg hbz]
        have hbz : rest.take 16 = byteBits 0x42 ++ byteBits 0x5a := by simpa using hbz
        have hbits : rest = bits 16 0x425a ++ rest.drop 16 := by
          conv_lhs => rw [← List.take_append_drop 16 rest, hbz]
          congr 1
        rcases setup_steps false ⟨⟨rest.drop 16, br2.final, none⟩, z.fileCRC, z.blockCRC, z.wantBlockCRC, z.setupDone, z.blockSize, b', z.failed⟩ with
          ⟨z3, s1, s2⟩ | ⟨b3, level, q1, q9, s2, s1, s3⟩
        · rw [s1]
          exact post_err (by simp [structural]) (s2.eof (by simp))
        · rw [s1]
          have hl3 := s2.rest.length_le
          simp only [List.length_drop] at hl3
          refine ih _ ⟨hz.done, by norm_num, hz.blk, by simp only; omega, s2.eof (by simp), [], b2, fun he _ more ht => ?_⟩ (by simp only; omega)
          simp only [Bool.false_eq_true, if_false, List.nil_append] at s3 ht
          rw [List.append_nil]
          have hv := ht.vouched q1 q9
          have := hcl e0 hcrc more (by
            rw [hfile, hbits, s3]
            have := Tail.more (c := z.fileCRC) .done hpad hv
            simpa only [List.append_assoc, List.nil_append] using this)
          simpa using this
    · rw [if_neg hm2]
      exact post_err (by simp [structural]) (g1.eof hz.eof)

/-- between calls, after no error -/
def Open (F : List Bool) (data : Bytes) (z : Reader) : Prop :=
  z.br.err = none ∧ z.failed = none ∧
  ((z.setupDone = true ∧ Going F data z) ∨
   (z.setupDone = false ∧ data = [] ∧ z.br.rest = F ∧ z.blockCRC = 0 ∧ z.wantBlockCRC = 0 ∧ Holds z.block []))

theorem read_sums {F : List Bool} {data : Bytes} {z : Reader} (h : Open F data z) (n : Nat) :
    Always (fun x => (x.2.1 = some .eof → x.1 = [] ∧ Vouched data F) ∧ (x.2.1 = none → Open F (data ++ x.1) x.2.2)) (read z n) := by
  obtain ⟨he, hf, hz⟩ := h
  unfold read
  rw [hf]
  have key : ∀ (z : Reader), Going F data { z with setupDone := true } → Always (fun x => (x.2.1 = some .eof → x.1 = [] ∧ Vouched data F) ∧ (x.2.1 = none → Open F (data ++ x.1) x.2.2))
      (do
         let (out, e, z) ← readLoop (z.br.rest.length + 1) n { z with setupDone := true }
         let e := match z.br.err with | some e' => some e' | none => e
         Out.ok (out, e, { z with failed := if out = [] then e else none })) := by
    intro z hz
    refine (readLoop_sums n (z.br.rest.length + 1) { z with setupDone := true } hz (by simp)).bind fun x hx => ?_
    obtain ⟨p1, p2⟩ := hx
    simp only
    cases hbe : x.2.2.br.err with
    | some e =>
      refine ⟨fun h => p1 (.inr (by rw [hbe]; exact h)), fun h => by simp at h⟩
    | none =>
      refine ⟨fun h => p1 (.inl h), fun h => ?_⟩
      simp only at h
      have := p2 h
      refine ⟨hbe, by simp [h], .inl ⟨this.done, this.done, this.file, this.blk, this.size, this.eof, this.left⟩⟩
  rcases hz with ⟨hd, hz⟩ | ⟨hd, rfl, hF, hb, hw, hh⟩
  · simp only [hd, if_true]
    exact key z ⟨rfl, hz.file, hz.blk, hz.size, hz.eof, hz.left⟩
  · simp only [hd, if_false, Bool.false_eq_true]
    rcases setup_steps true z with ⟨z', s1, s2⟩ | ⟨br, level, q1, q9, s2, s1, s3⟩
    · rw [s1]
      have hne := s2.eof (by rw [he]; simp)
      simp only
      cases hd' : z'.setupDone with
      | true => exact ⟨fun h => by simp [structural] at h, fun h => by simp at h⟩
      | false =>
        simp only [Bool.false_eq_true, if_false]
        cases hbe : z'.br.err with
        | none => exact ⟨fun h => by simp [structural] at h, fun h => by simp at h⟩
        | some e =>
          rw [hbe] at hne
          exact ⟨fun h => absurd h hne, fun h => by simp at h⟩
    · rw [s1]
      simp only [hd, Bool.false_eq_true, if_false]
      have fin : br.err ≠ some .eof := s2.eof (by rw [he]; simp)
      cases hbe : br.err with
      | some e =>
        rw [hbe] at fin
        exact ⟨fun h => absurd h fin, fun h => by simp at h⟩
      | none =>
        refine key { z with br := br, fileCRC := 0, blockSize := 100 * 1000 * level } ⟨rfl, by norm_num, by simp only; rw [hb]; norm_num, by simp only; omega, by simp [hbe], [], hh, fun _ _ more ht => ?_⟩
        have := ht.vouched q1 q9
        rw [← hF, s3]
        simpa only [if_true, List.nil_append, List.append_assoc] using this

theorem open_new (file : Bytes) (e : IOErr) : Open (fileBits file) [] (newReader file e) :=
  ⟨rfl, rfl, .inr ⟨rfl, rfl, rfl, rfl, rfl, holds_empty⟩⟩

/-! ### a burst of errors changes the checksum -/

theorem xor_cancel {a b c : Nat} (h : a ^^^ c = b ^^^ c) : a = b := by
  have := congrArg (· ^^^ c) h
  simpa only [Nat.xor_assoc, Nat.xor_self, Nat.xor_zero] using this

theorem crcStep_inj {c d : Nat} {b : Bool} (hc : c < 2 ^ 32) (hd : d < 2 ^ 32) (h : crcStep c b = crcStep d b) : c = d := by
  have low : ∀ c, (crcStep c b).testBit 0 = (c.testBit 31 != b) := by
    intro c
    have h0 : (2 * c % 2 ^ 32).testBit 0 = false := by
      rw [Nat.testBit_mod_two_pow]; simp [Nat.testBit_zero]
    unfold crcStep
    simp only []
    split
    · rename_i hh
      rw [Nat.testBit_xor, h0, hh]; decide
    · rename_i hh
      rw [h0]; simpa using hh
  have htop : (c.testBit 31 != b) = (d.testBit 31 != b) := by rw [← low, ← low, h]
  have h2 : 2 * c % 2 ^ 32 = 2 * d % 2 ^ 32 := by
    unfold crcStep at h
    simp only [htop] at h
    split at h
    · exact xor_cancel h
    · exact h
  have htop : c.testBit 31 = d.testBit 31 := by
    revert htop
    generalize c.testBit 31 = u
    generalize d.testBit 31 = v
    clear low h
    revert u v b
    decide
  rw [Nat.testBit_eq_decide_div_mod_eq, Nat.testBit_eq_decide_div_mod_eq, decide_eq_decide] at htop
  omega

theorem steps_inj (w : List Bool) : ∀ {c d : Nat}, c < 2 ^ 32 → d < 2 ^ 32 → w.foldl crcStep c = w.foldl crcStep d → c = d := by
  induction w with
  | nil => intro c d _ _ h; exact h
  | cons b w ih => intro c d hc hd h; exact crcStep_inj hc hd (ih (crcStep_lt _ _) (crcStep_lt _ _) h)

theorem steps_lt (w : List Bool) : ∀ {c : Nat}, c < 2 ^ 32 → w.foldl crcStep c < 2 ^ 32 := by
  induction w with
  | nil => intro c h; exact h
  | cons b w ih => intro c _; exact ih (crcStep_lt _ _)

theorem zeros_inj (j : Nat) {c d : Nat} (hc : c < 2 ^ 32) (hd : d < 2 ^ 32)
    (h : (List.range j).foldl (fun c _ => crcStep c false) c = (List.range j).foldl (fun c _ => crcStep c false) d) : c = d := by
  have e : ∀ c, (List.range j).foldl (fun c _ => crcStep c false) c = (List.replicate j false).foldl crcStep c := by
    intro c
    rw [← List.foldl_map (f := fun _ => false) (g := crcStep)]
    congr 1
    apply List.ext_getElem <;> simp
  rw [e, e] at h
  exact steps_inj _ hc hd h

theorem crc_burst {d d' : Bytes} {p x y s : List Bool} (h : fileBits d = p ++ x ++ s) (h' : fileBits d' = p ++ y ++ s)
    (hl : x.length = y.length) (h32 : x.length ≤ 32) (hne : x ≠ y) : crc d ≠ crc d' := by
  intro hc
  apply hne
  have hp : p.foldl crcStep (2 ^ 32 - 1) < 2 ^ 32 := steps_lt _ (by norm_num)
  have l1 := steps_lt (p ++ x ++ s) (c := 2 ^ 32 - 1) (by norm_num)
  have l2 := steps_lt (p ++ y ++ s) (c := 2 ^ 32 - 1) (by norm_num)
  unfold crc at hc
  rw [h, h'] at hc
  have e : (p ++ x ++ s).foldl crcStep (2 ^ 32 - 1) = (p ++ y ++ s).foldl crcStep (2 ^ 32 - 1) := by omega
  rw [List.foldl_append, List.foldl_append, List.foldl_append, List.foldl_append] at e
  generalize p.foldl crcStep (2 ^ 32 - 1) = c at e hp
  have e := steps_inj s (steps_lt x hp) (steps_lt y hp) e
  have hx := ofBits_lt x
  have hy := ofBits_lt y
  have bx := ofBits_bits x
  have bY := ofBits_bits y
  rw [← bx, ← bY, ← crc_bits _ h32, ← crc_bits _ (by omega), ← hl] at e
  rw [← hl] at hy bY
  rw [Nat.mod_eq_of_lt hx, Nat.mod_eq_of_lt hy] at e
  have lt : ∀ v, v < 2 ^ x.length → v * 2 ^ (32 - x.length) < 2 ^ 32 := by
    intro v hv
    calc v * 2 ^ (32 - x.length) < 2 ^ x.length * 2 ^ (32 - x.length) := Nat.mul_lt_mul_of_pos_right hv (by positivity)
      _ = 2 ^ 32 := by rw [← pow_add]; congr 1; omega
  have e := zeros_inj _ (Nat.xor_lt_two_pow hp (lt _ hx)) (Nat.xor_lt_two_pow hp (lt _ hy)) e
  rw [Nat.xor_comm c, Nat.xor_comm c] at e
  have e := Nat.eq_of_mul_eq_mul_right (Nat.two_pow_pos (32 - x.length)) (xor_cancel e)
  rw [← bx, ← bY, e]

end Radolan.Bz
