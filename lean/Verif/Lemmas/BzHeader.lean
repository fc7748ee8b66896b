/- The header of a bzip2 block: numbers, the bitmap of bytes in use, selectors, code lengths. -/
import Verif.Lemmas.BzSym

namespace Radolan.Bz
open Go
open _root_.Spec.Bzip2 (codeNumber codeword Complete bits SelectorBits lengthBits tableBits usedBits)

/-! ### numbers -/

theorem ofBits_foldl (k x : Nat) : ∀ n, (bits k x).foldl (fun n b => 2 * n + b.toNat) n = n * 2 ^ k + x % 2 ^ k := by
  induction k with
  | zero => intro n; simp [bits, Nat.mod_one]
  | succ k ih =>
    intro n
    have e : bits (k + 1) x = x.testBit k :: bits k x := by
      rw [bits, List.range_succ_eq_map, List.map_cons, List.map_map, bits]
      congr 1
      · apply List.map_congr_left
        intro i hi
        simp only [Function.comp]
        congr 1; omega
    have h2 : x % 2 ^ (k + 1) = x % 2 ^ k + 2 ^ k * (x.testBit k).toNat := by
      rw [Nat.pow_succ, Nat.mod_mul, Nat.testBit_eq_decide_div_mod_eq]
      rcases Nat.mod_two_eq_zero_or_one (x / 2 ^ k) with h | h <;> simp [h]
    rw [e, List.foldl_cons, ih, h2]
    ring

theorem readBits_take (k : Nat) (w r : List Bool) (hw : w.length = k) (f : IOErr) (e : Option IOErr) :
    readBits k ⟨w ++ r, f, e⟩ = (ofBits w, ⟨r, f, e⟩) := by
  subst hw
  unfold readBits
  rw [if_pos (by simp)]
  simp

theorem readBits_bits {k x : Nat} (hx : x < 2 ^ k) (r : List Bool) (f : IOErr) (e : Option IOErr) :
    readBits k ⟨bits k x ++ r, f, e⟩ = (x, ⟨r, f, e⟩) := by
  rw [readBits_take k _ r (by simp [bits])]
  rw [ofBits, ofBits_foldl, Nat.zero_mul, Nat.zero_add, Nat.mod_eq_of_lt hx]

theorem ofBits_testBit (w : List Bool) : ∀ j, j < w.length → (ofBits w).testBit (w.length - 1 - j) = w.getD j false := by
  induction w using List.reverseRecOn with
  | nil => intro j h; simp at h
  | append_singleton w b ih =>
    intro j hj
    rw [ofBits, List.foldl_append, List.foldl_cons, List.foldl_nil, ← ofBits]
    rw [List.length_append, List.length_singleton] at hj ⊢
    rw [Nat.add_sub_cancel]
    by_cases h : j = w.length
    · subst h
      rw [Nat.sub_self]
      cases b <;> simp [List.getD_eq_getElem?_getD, Nat.testBit_zero]
    · obtain ⟨d, hd⟩ : ∃ d, w.length - j = d + 1 := ⟨w.length - j - 1, by omega⟩
      have e : w.length - 1 - j = d := by omega
      have := ih j (by omega)
      rw [e] at this
      rw [hd, Nat.testBit_succ]
      have h2 : (2 * ofBits w + b.toNat) / 2 = ofBits w := by cases b <;> simp <;> omega
      rw [h2, this]
      rw [List.getD_eq_getElem?_getD, List.getD_eq_getElem?_getD, List.getElem?_append_left (by omega)]

theorem ofBits_map (p : Nat → Bool) {j : Nat} (hj : j < 16) : (ofBits ((List.range 16).map p)).testBit (15 - j) = p j := by
  have := ofBits_testBit ((List.range 16).map p) j (by simpa using hj)
  rw [List.length_map, List.length_range] at this
  rw [show 15 - j = 16 - 1 - j by omega, this, List.getD_eq_getElem?_getD]
  simp [hj]

/-! ### bytes in use -/

theorem usedBytes_spec (u : Nat → Bool) (r : List Bool) (f : IOErr) (e : Option IOErr) :
    usedBytes ⟨usedBits u ++ r, f, e⟩ = ((List.range 256).filter u, ⟨r, f, e⟩) := by
  unfold usedBytes usedBits
  simp only []
  rw [List.append_assoc, readBits_take 16 _ _ (by simp)]
  simp only []
  set P : Nat → Bool := fun i => ((List.range 16).map fun j => u (16 * i + j)).any id with hP
  have key : ∀ k, k ≤ 16 → ∀ r, (List.range k).foldl (fun (s : List Nat × BR) i =>
      if (ofBits ((List.range 16).map P)).testBit (15 - i) then
        let (bits, br) := readBits 16 s.2
        (s.1 ++ ((List.range 16).filter fun j => bits.testBit (15 - j)).map (16 * i + ·), br)
      else s) ([], ⟨((List.range k).flatMap fun i => if P i then (List.range 16).map fun j => u (16 * i + j) else []) ++ r, f, e⟩) =
      ((List.range (16 * k)).filter u, ⟨r, f, e⟩) := by
    intro k
    induction k with
    | zero => intro _ r; rfl
    | succ k ih =>
      intro hk r
      rw [List.range_succ (n := k), List.foldl_append, List.flatMap_append, List.append_assoc, ih (by omega), List.foldl_cons, List.foldl_nil]
      rw [ofBits_map P (by omega)]
      rw [List.flatMap_cons, List.flatMap_nil, List.append_nil]
      have fs : (List.range (16 * (k + 1))).filter u = (List.range (16 * k)).filter u ++
          ((List.range 16).filter fun j => u (16 * k + j)).map (16 * k + ·) := by
        rw [show 16 * (k + 1) = 16 * k + 16 by omega, List.range_add, List.filter_append, List.filter_map]
        rfl
      by_cases hp : P k = true
      · rw [if_pos hp, if_pos hp, readBits_take 16 _ _ (by simp), fs]
        simp only []
        congr 3
        apply List.filter_congr
        intro j hj
        exact ofBits_map _ (List.mem_range.mp hj)
      · rw [if_neg hp, if_neg hp, fs]
        have : (List.range 16).filter (fun j => u (16 * k + j)) = [] := by
          rw [List.filter_eq_nil_iff]
          intro j hj hu
          apply hp
          rw [hP]
          simp only [List.any_map, List.any_eq_true]
          exact ⟨j, hj, hu⟩
        rw [this]
        simp
  exact key 16 (le_refl _) r

/-! ### selectors -/

theorem unary_spec (c : Nat) : ∀ (fuel c0 : Nat) (r : List Bool) (f : IOErr) (e : Option IOErr), c < fuel →
    unary fuel ⟨List.replicate c true ++ false :: r, f, e⟩ c0 = (c0 + c, ⟨r, f, e⟩) := by
  induction c with
  | zero =>
    intro fuel c0 r f e h
    obtain ⟨m, rfl⟩ : ∃ m, fuel = m + 1 := ⟨fuel - 1, by omega⟩
    simp [unary, readBits_one]
  | succ c ih =>
    intro fuel c0 r f e h
    obtain ⟨m, rfl⟩ : ∃ m, fuel = m + 1 := ⟨fuel - 1, by omega⟩
    rw [List.replicate_succ, List.cons_append, unary, readBits_one]
    simp only [Bool.toNat_true]
    rw [if_neg (by omega), ih m (c0 + 1) r f e (by omega)]
    congr 1; omega

theorem selectors_spec {T : Nat} {m sels : List Nat} {w : List Bool} (h : SelectorBits m sels w) :
    m.length = T → ∀ (r : List Bool) (f : IOErr) (e : Option IOErr),
      selectors T sels.length m ⟨w ++ r, f, e⟩ = .ok (sels, ⟨r, f, e⟩) := by
  induction h with
  | nil => intro _ r f e; rfl
  | @cons m c s sels w hc _ ih =>
    intro hT r f e
    obtain ⟨hc1, hc2⟩ := List.getElem?_eq_some_iff.mp hc
    rw [List.length_cons, selectors, List.append_assoc, List.cons_append, unary_spec c _ _ _ _ _ (by simp; omega)]
    simp only [Nat.zero_add]
    rw [if_neg (by omega)]
    have : mtfDecode m c = .ok (s, s :: m.eraseIdx c) := by
      simp [mtfDecode, hc, List.eraseIdx_eq_take_drop_succ]
    simp only [bind, Out.bind, this]
    rw [ih (by simp [List.length_eraseIdx, hc1]; omega)]

theorem selectors_mem {m sels : List Nat} {w : List Bool} (h : SelectorBits m sels w) : ∀ s ∈ sels, s ∈ m := by
  induction h with
  | nil => intro s hs; simp at hs
  | @cons m c s sels w hc _ ih =>
    have hm : s ∈ m := List.mem_of_getElem? hc
    intro x hx
    rcases List.mem_cons.mp hx with rfl | hx
    · exact hm
    · rcases List.mem_cons.mp (ih x hx) with rfl | h
      · exact hm
      · exact List.mem_of_mem_eraseIdx h

/-! ### code lengths -/

theorem nextLength_up (k : Nat) : ∀ (cur fuel : Nat) (r : List Bool) (f : IOErr) (e : Option IOErr), 1 ≤ cur → cur + k ≤ 20 → k < fuel →
    nextLength fuel cur ⟨(List.replicate k [true, false]).flatten ++ false :: r, f, e⟩ = .ok (cur + k, ⟨r, f, e⟩) := by
  induction k with
  | zero =>
    intro cur fuel r f e h1 h2 h3
    obtain ⟨m, rfl⟩ : ∃ m, fuel = m + 1 := ⟨fuel - 1, by omega⟩
    simp [nextLength, readBits_one]; omega
  | succ k ih =>
    intro cur fuel r f e h1 h2 h3
    obtain ⟨m, rfl⟩ : ∃ m, fuel = m + 1 := ⟨fuel - 1, by omega⟩
    rw [List.replicate_succ, List.flatten_cons, nextLength, if_neg (by omega)]
    simp only [List.cons_append, List.nil_append, readBits_one, Bool.toNat_true, Bool.toNat_false, one_ne_zero, if_false, zero_ne_one]
    rw [ih (cur + 1) m r f e (by omega) (by omega) (by omega)]
    congr 2; omega

theorem nextLength_down (k : Nat) : ∀ (cur fuel : Nat) (r : List Bool) (f : IOErr) (e : Option IOErr), 1 + k ≤ cur → cur ≤ 20 → k < fuel →
    nextLength fuel cur ⟨(List.replicate k [true, true]).flatten ++ false :: r, f, e⟩ = .ok (cur - k, ⟨r, f, e⟩) := by
  induction k with
  | zero =>
    intro cur fuel r f e h1 h2 h3
    obtain ⟨m, rfl⟩ : ∃ m, fuel = m + 1 := ⟨fuel - 1, by omega⟩
    simp [nextLength, readBits_one]; omega
  | succ k ih =>
    intro cur fuel r f e h1 h2 h3
    obtain ⟨m, rfl⟩ : ∃ m, fuel = m + 1 := ⟨fuel - 1, by omega⟩
    rw [List.replicate_succ, List.flatten_cons, nextLength, if_neg (by omega)]
    simp only [List.cons_append, List.nil_append, readBits_one, Bool.toNat_true, one_ne_zero, if_false, if_true]
    rw [ih (cur - 1) m r f e (by omega) (by omega) (by omega)]
    congr 2; omega

theorem codeLengths_spec {ls : List Nat} : ∀ (cur : Nat) (r : List Bool) (f : IOErr) (e : Option IOErr), 1 ≤ cur → cur ≤ 20 →
    (∀ l ∈ ls, 1 ≤ l ∧ l ≤ 20) →
    codeLengths ls.length cur ⟨lengthBits cur ls ++ r, f, e⟩ = .ok (ls, ⟨r, f, e⟩) := by
  induction ls with
  | nil => intro cur r f e _ _ _; rfl
  | cons l ls ih =>
    intro cur r f e h1 h2 h3
    obtain ⟨l1, l2⟩ := h3 l (by simp)
    have step : nextLength ((lengthBits cur (l :: ls) ++ r).length + 2) cur ⟨lengthBits cur (l :: ls) ++ r, f, e⟩ =
        .ok (l, ⟨lengthBits l ls ++ r, f, e⟩) := by
      rw [lengthBits]
      by_cases h : cur ≤ l
      · rw [Nat.sub_eq_zero_of_le h, List.replicate_zero, List.flatten_nil, List.append_nil, List.append_assoc, List.cons_append,
          nextLength_up (l - cur) _ _ _ _ _ h1 (by omega) (by simp; omega)]
        congr 2; omega
      · rw [Nat.sub_eq_zero_of_le (show l ≤ cur by omega), List.replicate_zero, List.flatten_nil, List.nil_append, List.append_assoc,
          List.cons_append, nextLength_down (cur - l) _ _ _ _ _ (by omega) h2 (by simp; omega)]
        congr 2; omega
    rw [List.length_cons, codeLengths]
    simp only [bind, Out.bind, step]
    rw [ih l r f e l1 l2 fun x hx => h3 x (by simp [hx])]

theorem readTrees_spec {n : Nat} {tables : List (List Nat)} : (∀ t ∈ tables, Complete t ∧ t.length = n) →
    ∀ (r : List Bool) (f : IOErr) (e : Option IOErr),
    ∃ trees, readTrees n tables.length ⟨tables.flatMap tableBits ++ r, f, e⟩ = .ok (trees, ⟨r, f, e⟩) ∧ trees.length = tables.length ∧
      ∀ (i : Nat) (t : List Nat) (ns : List Node), tables[i]? = some t → trees[i]? = some ns → ∀ v, v < n → Path ns 0 (codeword t v) v := by
  induction tables with
  | nil => intro _ r f e; exact ⟨[], rfl, rfl, fun i t ns h => by simp at h⟩
  | cons t tables ih =>
    intro h r f e
    obtain ⟨⟨c1, c2⟩, tl⟩ := h t (by simp)
    obtain ⟨trees, i1, i2, i3⟩ := ih (fun x hx => h x (by simp [hx])) r f e
    obtain ⟨nodes, n1, _, n3⟩ := newTree_spec ⟨c1, c2⟩
    refine ⟨nodes :: trees, ?_, by simp [i2], ?_⟩
    · have hh : 1 ≤ t.headD 0 ∧ t.headD 0 ≤ 20 := by
        cases t with
        | nil => simp at c2
        | cons x t => exact c1 x (by simp)
      rw [List.length_cons, readTrees, List.flatMap_cons, tableBits, List.append_assoc, List.append_assoc,
        readBits_bits (by omega)]
      have := codeLengths_spec (t.headD 0) (tables.flatMap tableBits ++ r) f e hh.1 hh.2 c1
      rw [tl] at this
      simp only [bind, Out.bind, this, n1, i1]
    · intro i t' ns ht hns v hv
      cases i with
      | zero =>
        simp only [List.getElem?_cons_zero, Option.some.injEq] at ht hns
        subst ht hns
        exact n3 v (by omega)
      | succ i =>
        simp only [List.getElem?_cons_succ] at ht hns
        exact i3 i t' ns ht hns v hv

end Radolan.Bz
