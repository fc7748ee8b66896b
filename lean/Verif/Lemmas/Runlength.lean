/- The run-length decoder meets its specification. -/
import Verif.Lemmas.Data
import Verif.Spec.Runlength

namespace Radolan
open Go

theorem rvp6Runlength_eq (levels : List F32) (b : UInt8) :
    rvp6Runlength levels (b &&& 0x0F) = Spec.classValue levels (b.toNat % 16) := by
  have h : ∀ n : Fin 256, ((UInt8.ofNat n.val &&& 0x0F = 0) ↔ n.val % 16 = 0) ∧
      ((UInt8.ofNat n.val &&& 0x0F) - 1).toNat = (if n.val % 16 = 0 then 255 else n.val % 16 - 1) := by decide +kernel
  have hb := h ⟨b.toNat, b.toNat_lt⟩
  simp only [UInt8.ofNat_toNat] at hb
  unfold rvp6Runlength Spec.classValue
  by_cases h0 : b.toNat % 16 = 0
  · rw [if_pos (hb.1.mpr h0), if_pos h0]
  · rw [if_neg (fun h => h0 (hb.1.mp h)), if_neg h0]
    simp only [hb.2, if_neg h0]

theorem shift4 (b : UInt8) : (b >>> 4).toNat = b.toNat / 16 := by
  have h : ∀ n : Fin 256, (UInt8.ofNat n.val >>> 4).toNat = n.val / 16 := by decide +kernel
  have hb := h ⟨b.toNat, b.toNat_lt⟩
  simpa using hb

theorem row_length (levels : List F32) (w : Nat) (cs : List Nat) : (Spec.row levels w cs).length = w := by
  simp [Spec.row]

theorem row_get (levels : List F32) (w : Nat) (cs : List Nat) (i : Nat) :
    (Spec.row levels w cs)[i]? = if i < w then some (Spec.classValue levels ((cs[i]?).getD 0)) else none := by
  unfold Spec.row
  rw [List.getElem?_map]
  by_cases h : i < w
  · rw [List.getElem?_range h, if_pos h]; rfl
  · rw [if_neg h, List.getElem?_eq_none (by simpa using h)]; rfl

/-- writing one value -/
theorem row_set (levels : List F32) (w : Nat) (cs : List Nat) (k : Nat) (h : cs.length < w) :
    (Spec.row levels w cs).set cs.length (Spec.classValue levels k) = Spec.row levels w (cs ++ [k]) := by
  apply List.ext_getElem?
  intro i
  rw [List.getElem?_set, row_get, row_get, row_length]
  by_cases hi : cs.length = i
  · subst hi
    simp [h]
  · rw [if_neg hi]
    by_cases hw : i < w
    · rw [if_pos hw, if_pos hw]
      congr 3
      rcases Nat.lt_or_gt_of_ne hi with hlt | hgt
      · rw [List.getElem?_eq_none (by omega), List.getElem?_eq_none (by simp; omega)]
      · rw [List.getElem?_append_left (by omega)]
    · rw [if_neg hw, if_neg hw]

theorem row_zeros (levels : List F32) (w n : Nat) : Spec.row levels w (List.replicate n 0) = List.replicate w .nan := by
  apply List.ext_getElem?
  intro i
  have : ((List.replicate n 0)[i]?).getD 0 = 0 := by
    rw [List.getElem?_replicate]; split <;> rfl
  rw [row_get, this, List.getElem?_replicate]; rfl

theorem writeRun_eq (levels : List F32) (w k : Nat) (n : Nat) (cs : List Nat) :
    if n = 0 ∨ cs.length + n ≤ w
    then writeRun (Spec.classValue levels k) n (Spec.row levels w cs) cs.length
      = .ok (Spec.row levels w (cs ++ List.replicate n k), cs.length + n)
    else ∃ d, writeRun (Spec.classValue levels k) n (Spec.row levels w cs) cs.length = .error d := by
  induction n generalizing cs with
  | zero => simp [writeRun]
  | succ n ih =>
    unfold writeRun
    rw [row_length]
    by_cases h : w ≤ cs.length
    · rw [if_neg (by omega)]
      simp only [if_pos h]
      exact ⟨_, rfl⟩
    · have hs := row_set levels w cs k (by omega)
      have := ih (cs ++ [k])
      rw [List.length_append, List.length_singleton] at this
      simp only [if_neg h, hs]
      by_cases h2 : cs.length + (n + 1) ≤ w
      · rw [if_pos (Or.inr h2)]
        rw [if_pos (by omega)] at this
        rw [this]
        simp only [List.append_assoc, List.singleton_append, List.replicate_succ]
        rw [show cs.length + 1 + n = cs.length + (n + 1) by omega]
      · rw [if_neg (by omega)]
        rw [if_neg (by omega)] at this
        exact this

/-- the run a byte stands for -/
def runOf (b : UInt8) : Nat × Nat := (b.toNat / 16, b.toNat % 16)

theorem rlLoop_runs (levels : List F32) (w : Nat) (i : Nat) (hi : 0 < i) (bs : Bytes) (cs : List Nat) :
    if Spec.total (bs.map runOf) = 0 ∨ cs.length + Spec.total (bs.map runOf) ≤ w
    then rlLoop levels i (Spec.row levels w cs) cs.length false bs
      = (Spec.row levels w (cs ++ (bs.map runOf).flatMap fun r => List.replicate r.1 r.2), none)
    else ∃ d, rlLoop levels i (Spec.row levels w cs) cs.length false bs = (d, some .destinationExceeded) := by
  induction bs generalizing i cs with
  | nil => simp [rlLoop, Spec.total]
  | cons b bs ih =>
    simp only [List.map_cons, Spec.total]
    have hw := writeRun_eq levels w (b.toNat % 16) (b.toNat / 16) cs
    have e1 : (runOf b).1 = b.toNat / 16 := rfl
    have e2 : (runOf b).2 = b.toNat % 16 := rfl
    rw [e1]
    have hstep : rlLoop levels i (Spec.row levels w cs) cs.length false (b :: bs)
        = match writeRun (Spec.classValue levels (b.toNat % 16)) (b.toNat / 16) (Spec.row levels w cs) cs.length with
          | .ok (dst', pos') => rlLoop levels (i + 1) dst' pos' false bs
          | .error dst' => (dst', some .destinationExceeded) := by
      conv => lhs; unfold rlLoop
      rw [if_neg (by omega), rvp6Runlength_eq, shift4]
      simp only [Bool.false_eq_true, if_false]
      cases writeRun (Spec.classValue levels (b.toNat % 16)) (b.toNat / 16) (Spec.row levels w cs) cs.length <;> rfl
    rw [hstep]
    by_cases h : b.toNat / 16 = 0 ∨ cs.length + b.toNat / 16 ≤ w
    · rw [if_pos h] at hw
      rw [hw]
      have := ih (i + 1) (by omega) (cs ++ List.replicate (b.toNat / 16) (b.toNat % 16))
      simp only [List.length_append, List.length_replicate] at this
      simp only
      by_cases h2 : b.toNat / 16 + Spec.total (bs.map runOf) = 0 ∨
          cs.length + (b.toNat / 16 + Spec.total (bs.map runOf)) ≤ w
      · rw [if_pos h2]
        rw [if_pos (by omega)] at this
        rw [this, List.flatMap_cons, e1, e2, List.append_assoc]
      · rw [if_neg h2]
        rw [if_neg (by omega)] at this
        exact this
    · rw [if_neg h] at hw
      obtain ⟨d, hd⟩ := hw
      rw [if_neg (by omega), hd]
      exact ⟨d, rfl⟩

/-- continued offsets -/
theorem rlLoop_more (levels : List F32) (dst : List F32) (i pos : Nat) (hi : 0 < i) (k : Nat) (rest : Bytes) :
    rlLoop levels i dst pos true (List.replicate k 255 ++ rest)
      = rlLoop levels (i + k) dst (pos + k * 239) true rest := by
  induction k generalizing i pos with
  | zero => simp
  | succ k ih =>
    rw [List.replicate_succ, List.cons_append]
    conv => lhs; unfold rlLoop
    rw [if_neg (by omega), if_pos rfl, if_neg (by decide)]
    rw [show ((255 : UInt8) == 255) = true from rfl, ih _ _ (by omega)]
    rw [show (255 : UInt8).toNat - 16 = 239 from rfl]
    congr 1 <;> omega

/-- splitting off the leading 255s -/
theorem split255 (l : Bytes) : ∃ k rest, l = List.replicate k 255 ++ rest ∧ ∀ b ∈ rest.head?, b ≠ 255 := by
  induction l with
  | nil => exact ⟨0, [], rfl, by simp⟩
  | cons b l ih =>
    by_cases h : b = 255
    · obtain ⟨k, rest, rfl, hr⟩ := ih
      exact ⟨k + 1, rest, by simp [List.replicate_succ, h], hr⟩
    · exact ⟨0, b :: l, rfl, by simpa using h⟩

theorem runByte_runOf (b : UInt8) : Spec.runByte (runOf b) = b := by
  unfold Spec.runByte runOf
  simp only
  rw [Nat.div_add_mod' b.toNat 16]
  simp

theorem runOf_runByte {r : Nat × Nat} (h : r.1 < 16 ∧ r.2 < 16) : runOf (Spec.runByte r) = r := by
  unfold Spec.runByte runOf
  have : (UInt8.ofNat (r.1 * 16 + r.2)).toNat = r.1 * 16 + r.2 := by
    rw [UInt8.toNat_ofNat']; omega
  rw [this]
  ext
  · simp only; omega
  · simp only; omega

/-- the decoder on a line with complete offset -/
theorem decode_runLine {levels : List F32} {dst : List F32} {line : Bytes} {gap : Nat} {runs : List (Nat × Nat)}
    (h : Spec.RunLine line gap runs) :
    if Spec.total runs = 0 ∨ gap + Spec.total runs ≤ dst.length
    then decodeRunlength levels dst line = (Spec.row levels dst.length (Spec.codes gap runs), none)
    else ∃ d, decodeRunlength levels dst line = (d, some .destinationExceeded) := by
  obtain ⟨nr, more, last, h1, h2, hr, rfl, rfl⟩ := h
  have hmap : (runs.map Spec.runByte).map runOf = runs := by
    rw [List.map_map]
    conv => rhs; rw [← List.map_id runs]
    apply List.map_congr_left
    intro r hx
    exact runOf_runByte (hr r hx)
  have hstep : decodeRunlength levels dst (nr :: (List.replicate more 255 ++ last :: runs.map Spec.runByte))
      = rlLoop levels (1 + more + 1) (Spec.row levels dst.length (List.replicate (more * 239 + (last.toNat - 16)) 0))
          (List.replicate (more * 239 + (last.toNat - 16)) 0).length false (runs.map Spec.runByte) := by
    unfold decodeRunlength
    rw [row_zeros, List.length_replicate]
    conv => lhs; unfold rlLoop
    rw [if_pos rfl, rlLoop_more _ _ _ _ (by omega)]
    conv => lhs; unfold rlLoop
    rw [if_neg (by omega), if_pos rfl, if_neg (UInt8.not_lt.mpr h1)]
    have : (last == 255) = false := by
      rw [beq_eq_false_iff_ne]; exact UInt8.ne_of_lt h2
    rw [this]
    congr 1
    omega
  rw [hstep]
  have := rlLoop_runs levels dst.length (1 + more + 1) (by omega) (runs.map Spec.runByte)
    (List.replicate (more * 239 + (last.toNat - 16)) 0)
  rw [hmap, List.length_replicate] at this
  rw [List.length_replicate]
  exact this

/-- lines the decoder can meet: blank, complete, or with a bad offset byte -/
theorem line_cases (line : Bytes) : Spec.BlankLine line ∨ (∃ gap runs, Spec.RunLine line gap runs) ∨
    ∃ nr more last rest, last < 16 ∧ line = nr :: (List.replicate more 255 ++ last :: rest) := by
  cases line with
  | nil => exact Or.inl (Or.inl rfl)
  | cons nr l =>
    obtain ⟨k, rest, rfl, hr⟩ := split255 l
    cases rest with
    | nil => exact Or.inl (Or.inr ⟨nr, k, by simp⟩)
    | cons o rest =>
      right
      by_cases ho : o < 16
      · exact Or.inr ⟨nr, k, o, rest, ho, rfl⟩
      · left
        refine ⟨_, rest.map runOf, nr, k, o, UInt8.not_lt.mp ho, ?_, ?_, ?_, rfl⟩
        · have := hr o rfl
          rw [UInt8.lt_iff_toNat_lt]
          have h2 : o.toNat ≠ 255 := fun h => this (UInt8.toNat_inj.mp h)
          have := o.toNat_lt
          show o.toNat < 255
          omega
        · intro r hx
          rw [List.mem_map] at hx
          obtain ⟨b, _, rfl⟩ := hx
          have := b.toNat_lt
          unfold runOf
          constructor <;> simp only <;> omega
        · rw [List.map_map]
          have : Spec.runByte ∘ runOf = id := funext runByte_runOf
          rw [this, List.map_id]

theorem decode_blank {levels dst : List F32} {line : Bytes} (h : Spec.BlankLine line) :
    decodeRunlength levels dst line = (Spec.row levels dst.length [], none) := by
  have hz : Spec.row levels dst.length [] = List.replicate dst.length .nan := row_zeros levels dst.length 0
  rcases h with rfl | ⟨nr, more, rfl⟩
  · rw [hz]; rfl
  · rw [hz]
    unfold decodeRunlength
    conv => lhs; unfold rlLoop
    rw [if_pos rfl]
    have := rlLoop_more levels (List.replicate dst.length .nan) 1 0 (by omega) more []
    rw [List.append_nil] at this
    rw [this]
    rfl

theorem decode_bad {levels dst : List F32} {nr last : UInt8} {more : Nat} {rest : Bytes} (h : last < 16) :
    (decodeRunlength levels dst (nr :: (List.replicate more 255 ++ last :: rest))).2 = some .invalidOffset := by
  unfold decodeRunlength
  conv => lhs; unfold rlLoop
  rw [if_pos rfl, rlLoop_more _ _ _ _ (by omega)]
  conv => lhs; unfold rlLoop
  rw [if_neg (by omega), if_pos rfl, if_pos h]

/-- the decoder accepts exactly the lines that mean something, and yields their meaning -/
theorem decode_iff {levels dst : List F32} {line : Bytes} {vals : List F32} :
    decodeRunlength levels dst line = (vals, none) ↔ Spec.Decodes levels dst.length line vals := by
  constructor
  · intro h
    rcases line_cases line with hb | ⟨gap, runs, hr⟩ | ⟨nr, more, last, rest, hl, rfl⟩
    · left
      rw [decode_blank hb] at h
      simp only [Prod.mk.injEq, and_true] at h
      exact ⟨hb, h.symm⟩
    · right
      refine ⟨gap, runs, hr, ?_⟩
      have hd := decode_runLine (levels := levels) (dst := dst) hr
      unfold Spec.Fits
      split at hd
      · rename_i hf
        rw [hd] at h
        simp only [Prod.mk.injEq, and_true] at h
        exact ⟨hf, h.symm⟩
      · obtain ⟨d, hd⟩ := hd
        rw [hd] at h; simp at h
    · have := decode_bad (levels := levels) (dst := dst) (nr := nr) (more := more) (rest := rest) hl
      rw [h] at this; simp at this
  · rintro (⟨hb, rfl⟩ | ⟨gap, runs, hr, hf, rfl⟩)
    · exact decode_blank hb
    · have hd := decode_runLine (levels := levels) (dst := dst) hr
      unfold Spec.Fits at hf
      simp only [if_pos hf] at hd
      exact hd

theorem rowRL_iff {levels : List F32} {w : Nat} {b : Bytes} {r : List F32} {rest : Bytes} :
    rowRL levels w b = some (r, rest) ↔
      ∃ l, b = l ++ 10 :: rest ∧ (10 : UInt8) ∉ l ∧ Spec.Decodes levels w l r := by
  have hd : ∀ l r, decodeRunlength levels (List.replicate w Fl.zero) l = (r, none) ↔ Spec.Decodes levels w l r := by
    intro l r
    have := decode_iff (levels := levels) (dst := List.replicate w Fl.zero) (line := l) (vals := r)
    rwa [List.length_replicate] at this
  unfold rowRL
  constructor
  · intro h
    split at h
    · simp at h
    · rename_i line rest' hr
      obtain ⟨pre, rfl, hb, hn⟩ := readDelim_some.mp hr
      rw [List.dropLast_concat] at h
      split at h
      · rename_i row hrow
        simp only [Option.some.injEq, Prod.mk.injEq] at h
        obtain ⟨rfl, rfl⟩ := h
        exact ⟨pre, hb, hn, (hd _ _).mp hrow⟩
      · simp at h
  · rintro ⟨l, rfl, hn, hdec⟩
    have : readDelim 10 (l ++ 10 :: rest) = some (l ++ [10], rest) :=
      readDelim_some.mpr ⟨l, rfl, rfl, hn⟩
    rw [this]
    simp only [List.dropLast_concat]
    rw [(hd l r).mpr hdec]

theorem rowsRL_iff {levels : List F32} {w n : Nat} {b : Bytes} {rs : List (List F32)} {rest : Bytes} :
    rowsFrom (rowRL levels w) n b = some (rs, rest) ↔
      ∃ ls : List Bytes, ls.length = n ∧ b = Spec.lines ls ++ rest ∧ (∀ l ∈ ls, (10 : UInt8) ∉ l) ∧
        List.Forall₂ (Spec.Decodes levels w) ls rs := by
  induction n generalizing b rs with
  | zero =>
    simp only [rowsFrom, Option.some.injEq, Prod.mk.injEq]
    constructor
    · rintro ⟨rfl, rfl⟩; exact ⟨[], rfl, rfl, by simp, .nil⟩
    · rintro ⟨ls, hl, rfl, _, hf⟩
      rw [List.length_eq_zero_iff] at hl; subst hl
      cases hf
      exact ⟨rfl, rfl⟩
  | succ n ih =>
    unfold rowsFrom
    constructor
    · intro h
      split at h
      · simp at h
      · rename_i r b' hr
        split at h
        · simp at h
        · rename_i rs' b'' hrs
          simp only [Option.some.injEq, Prod.mk.injEq] at h
          obtain ⟨rfl, rfl⟩ := h
          obtain ⟨l, rfl, hn, hdec⟩ := rowRL_iff.mp hr
          obtain ⟨ls, hl, rfl, hns, hf⟩ := ih.mp hrs
          refine ⟨l :: ls, by simp [hl], by simp [Spec.lines], ?_, .cons hdec hf⟩
          intro x hx
          rcases List.mem_cons.mp hx with rfl | hx
          exacts [hn, hns x hx]
    · rintro ⟨ls, hl, rfl, hns, hf⟩
      cases hf with
      | nil => simp at hl
      | @cons l r ls rs' hdec hf =>
        have h1 : rowRL levels w (Spec.lines (l :: ls) ++ rest) = some (r, Spec.lines ls ++ rest) :=
          rowRL_iff.mpr ⟨l, by simp [Spec.lines], hns l (by simp), hdec⟩
        have h2 := ih.mpr ⟨ls, by simpa using hl, rfl, fun x hx => hns x (by simp [hx]), hf⟩
        rw [h1]
        simp only
        rw [h2]

/-! ### the encoder -/

theorem group_expand (cs : List Nat) : (Spec.group cs).flatMap (fun r => List.replicate r.1 r.2) = cs := by
  induction cs with
  | nil => rfl
  | cons k ks ih =>
    unfold Spec.group
    split
    · rename_i h; rw [h] at ih; simp at ih; simp [← ih]
    · rename_i n k' rs h
      rw [h, List.flatMap_cons] at ih
      split
      · rename_i hk
        rw [List.flatMap_cons, ← ih]
        simp only [List.replicate_succ, List.cons_append, hk.1]
      · simp only [List.flatMap_cons, ← ih]
        rfl

theorem group_small (cs : List Nat) (h : ∀ k ∈ cs, k < 16) : ∀ r ∈ Spec.group cs, (1 ≤ r.1 ∧ r.1 < 16) ∧ r.2 < 16 := by
  induction cs with
  | nil => simp [Spec.group]
  | cons k ks ih =>
    have hk := h k (by simp)
    have ih := ih (fun x hx => h x (by simp [hx]))
    unfold Spec.group
    split
    · intro r hr; simp at hr; subst hr; simp; exact hk
    · rename_i n k' rs hg
      rw [hg] at ih
      split
      · rename_i hn
        intro r hr
        rcases List.mem_cons.mp hr with rfl | hr
        · simp only; omega
        · exact ih r (by simp [hr])
      · intro r hr
        rcases List.mem_cons.mp hr with rfl | hr
        · simp only; omega
        · exact ih r hr

theorem total_length (runs : List (Nat × Nat)) :
    (runs.flatMap fun r => List.replicate r.1 r.2).length = Spec.total runs := by
  induction runs with
  | nil => rfl
  | cons r rs ih => simp only [List.flatMap_cons, List.length_append, List.length_replicate, Spec.total, ih]

theorem codes_length (gap : Nat) (runs : List (Nat × Nat)) : (Spec.codes gap runs).length = gap + Spec.total runs := by
  unfold Spec.codes; rw [List.length_append, List.length_replicate, total_length]

theorem takeWhile_zero (cs : List Nat) :
    cs.takeWhile (· = 0) = List.replicate (cs.takeWhile (· = 0)).length 0 := by
  induction cs with
  | nil => rfl
  | cons k ks ih =>
    by_cases h : k = 0
    · subst h
      simp only [List.takeWhile_cons, decide_true, if_true, List.length_cons, List.replicate_succ]
      rw [← ih]
    · simp [h]

/-- an encoded line contains no line feed (unless its number is one), and means its codes -/
theorem encodeLine_spec {nr : UInt8} (hnr : nr ≠ 10) {cs : List Nat} (h : ∀ k ∈ cs, k < 16) :
    (10 : UInt8) ∉ Spec.encodeLine nr cs ∧
    ∃ gap runs, Spec.RunLine (Spec.encodeLine nr cs) gap runs ∧ Spec.codes gap runs = cs := by
  have hsub : ∀ k ∈ cs.dropWhile (· = 0), k < 16 := fun k hk => h k ((List.dropWhile_sublist _).mem hk)
  have hg := group_small _ hsub
  have hl : (UInt8.ofNat (16 + (cs.takeWhile (· = 0)).length % 239)).toNat = 16 + (cs.takeWhile (· = 0)).length % 239 := by
    rw [UInt8.toNat_ofNat']; omega
  constructor
  · unfold Spec.encodeLine
    simp only [List.mem_cons, List.mem_append, List.mem_replicate, List.mem_map, not_or, not_exists]
    refine ⟨hnr.symm, ?_, ?_, ?_⟩
    · rintro ⟨_, h⟩; revert h; decide
    · intro he
      have := congrArg UInt8.toNat he
      rw [hl] at this
      have h10 : (10 : UInt8).toNat = 10 := rfl
      omega
    · rintro r ⟨hr, he⟩
      have := congrArg UInt8.toNat he
      have h2 := hg r hr
      unfold Spec.runByte at this
      rw [UInt8.toNat_ofNat'] at this
      have h10 : (10 : UInt8).toNat = 10 := rfl
      omega
  · refine ⟨(cs.takeWhile (· = 0)).length, Spec.group (cs.dropWhile (· = 0)), ?_, ?_⟩
    · refine ⟨nr, _, UInt8.ofNat (16 + (cs.takeWhile (· = 0)).length % 239), ?_, ?_, ?_, rfl, ?_⟩
      · rw [UInt8.le_iff_toNat_le, hl]; exact Nat.le_add_right _ _
      · rw [UInt8.lt_iff_toNat_lt, hl]
        have h10 : (255 : UInt8).toNat = 255 := rfl
        omega
      · intro r hr; have := hg r hr; omega
      · rw [hl]; omega
    · unfold Spec.codes
      rw [group_expand, ← takeWhile_zero, List.takeWhile_append_dropWhile]

theorem row_exact {levels : List F32} {w : Nat} {cs : List Nat} (h : cs.length = w) :
    Spec.row levels w cs = cs.map (Spec.classValue levels) := by
  apply List.ext_getElem?
  intro i
  rw [row_get, List.getElem?_map]
  by_cases hi : i < w
  · rw [if_pos hi, List.getElem?_eq_getElem (by omega)]; rfl
  · rw [if_neg hi, List.getElem?_eq_none (by omega)]; rfl

end Radolan
