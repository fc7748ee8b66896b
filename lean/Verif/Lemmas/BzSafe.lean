/- The bzip2 decompressor never panics, whatever the file contains. -/
import Verif.Lemmas.BzStream

namespace Radolan.Bz
open Go

/-- no panic, and a property of the value if there is one -/
def Safe {α : Type} (P : α → Prop) : Out α → Prop
  | .panic => False
  | .err _ => True
  | .ok a => P a

theorem Safe.bind {α β : Type} {P : α → Prop} {Q : β → Prop} {x : Out α} {f : α → Out β} (h : Safe P x)
    (hf : ∀ a, P a → Safe Q (f a)) : Safe Q (x >>= f) := by
  cases x with
  | panic => exact h.elim
  | err e => trivial
  | ok a => exact hf a h

theorem Safe.mono {α : Type} {P Q : α → Prop} {x : Out α} (h : Safe P x) (hf : ∀ a, P a → Q a) : Safe Q x := by
  cases x with
  | panic => exact h.elim
  | err e => trivial
  | ok a => exact hf a h

theorem Safe.fail {α : Type} {P : α → Prop} (br : BR) : Safe P (Bz.fail br : Out α) := trivial

/-- a value with a property, neither a panic nor an error -/
def Always {α : Type} (P : α → Prop) : Out α → Prop
  | .ok a => P a
  | _ => False

theorem Always.bind {α β : Type} {P : α → Prop} {Q : β → Prop} {x : Out α} {f : α → Out β} (h : Always P x)
    (hf : ∀ a, P a → Always Q (f a)) : Always Q (x >>= f) := by
  cases x with
  | panic => exact h.elim
  | err e => exact h.elim
  | ok a => exact hf a h

/-! ### bits -/

theorem readBits_le (k : Nat) (br : BR) : (readBits k br).2.rest.length ≤ br.rest.length := by
  unfold readBits
  split <;> simp

theorem readBits_ne {k : Nat} {br : BR} (h : (readBits k br).1 ≠ 0) : (readBits k br).2.rest.length + k = br.rest.length := by
  unfold readBits at h ⊢
  split
  · simp only [List.length_drop]; omega
  · rename_i hk; rw [if_neg hk] at h; exact absurd rfl h

theorem ofBits_lt (w : List Bool) : ofBits w < 2 ^ w.length := by
  induction w using List.reverseRecOn with
  | nil => simp [ofBits]
  | append_singleton w b ih =>
    rw [ofBits, List.foldl_append, List.foldl_cons, List.foldl_nil, ← ofBits, List.length_append, List.length_singleton, Nat.pow_succ]
    have : b.toNat ≤ 1 := by cases b <;> simp
    omega

theorem readBits_lt (k : Nat) (br : BR) : (readBits k br).1 < 2 ^ k := by
  unfold readBits
  split
  · rename_i hk
    have := ofBits_lt (br.rest.take k)
    rwa [List.length_take, Nat.min_eq_left hk] at this
  · positivity

theorem unary_le (fuel : Nat) : ∀ (br : BR) (c : Nat), (unary fuel br c).2.rest.length ≤ br.rest.length := by
  induction fuel with
  | zero => intro br c; exact le_refl _
  | succ fuel ih =>
    intro br c
    rw [unary]
    have h := readBits_le 1 br
    generalize readBits 1 br = x at h
    obtain ⟨v, br'⟩ := x
    simp only at h ⊢
    split
    · exact h
    · exact le_trans (ih _ _) h

theorem usedBytes_le (br : BR) : (usedBytes br).2.rest.length ≤ br.rest.length ∧ ∀ v ∈ (usedBytes br).1, v < 256 := by
  unfold usedBytes
  have h := readBits_le 16 br
  generalize readBits 16 br = x at h
  obtain ⟨ranges, br'⟩ := x
  simp only at h ⊢
  have key : ∀ (l : List Nat), (∀ i ∈ l, i < 16) → ∀ s : List Nat × BR, s.2.rest.length ≤ br.rest.length → (∀ v ∈ s.1, v < 256) →
      (l.foldl (fun (s : List Nat × BR) i =>
        if ranges.testBit (15 - i) then
          let (bits, br) := readBits 16 s.2
          (s.1 ++ ((List.range 16).filter fun j => bits.testBit (15 - j)).map (16 * i + ·), br)
        else s) s).2.rest.length ≤ br.rest.length ∧ ∀ v ∈ (l.foldl (fun (s : List Nat × BR) i =>
        if ranges.testBit (15 - i) then
          let (bits, br) := readBits 16 s.2
          (s.1 ++ ((List.range 16).filter fun j => bits.testBit (15 - j)).map (16 * i + ·), br)
        else s) s).1, v < 256 := by
    intro l
    induction l with
    | nil => intro _ s h1 h2; exact ⟨h1, h2⟩
    | cons i l ih =>
      intro hl s h1 h2
      rw [List.foldl_cons]
      apply ih (fun j hj => hl j (by simp [hj]))
      · split
        · exact le_trans (readBits_le 16 s.2) h1
        · exact h1
      · split
        · intro v hv
          simp only [List.mem_append, List.mem_map, List.mem_filter, List.mem_range] at hv
          rcases hv with hv | ⟨j, ⟨hj, _⟩, rfl⟩
          · exact h2 v hv
          · have := hl i (by simp); omega
        · exact h2
  exact key _ (fun i hi => List.mem_range.mp hi) _ h (fun v hv => by simp at hv)

/-! ### selectors and code lengths -/

theorem mtf_safe {m : List Nat} {c : Nat} (h : c < m.length) :
    Safe (fun x => x.2.length = m.length ∧ ∀ B, (∀ v ∈ m, v < B) → x.1 < B ∧ ∀ v ∈ x.2, v < B) (mtfDecode m c) := by
  unfold mtfDecode
  rw [List.getElem?_eq_getElem h]
  refine ⟨by simp; omega, fun B hB => ?_⟩
  have h0 := hB _ (List.getElem_mem h)
  refine ⟨h0, fun v hv => ?_⟩
  rcases List.mem_cons.mp hv with rfl | hv
  · exact h0
  · rcases List.mem_append.mp hv with hv | hv
    · exact hB v (List.mem_of_mem_take hv)
    · exact hB v (List.mem_of_mem_drop hv)

theorem selectors_safe {T : Nat} : ∀ (k : Nat) (m : List Nat) (br : BR), m.length = T →
    Safe (fun x => x.2.rest.length ≤ br.rest.length) (selectors T k m br) := by
  intro k
  induction k with
  | zero => intro m br _; exact le_refl _
  | succ k ih =>
    intro m br hm
    rw [selectors]
    have h := unary_le (br.rest.length + 1) br 0
    generalize unary (br.rest.length + 1) br 0 = x at h
    obtain ⟨c, br'⟩ := x
    simp only at h ⊢
    split
    · exact Safe.fail _
    · refine (mtf_safe (by omega)).bind fun x hx => (ih x.2 br' (by rw [hx.1, hm])).bind fun y hy => ?_
      exact le_trans hy h

theorem nextLength_safe : ∀ (fuel l : Nat) (br : BR), br.rest.length < fuel →
    Safe (fun x => 1 ≤ x.1 ∧ x.1 ≤ 20 ∧ x.2.rest.length ≤ br.rest.length) (nextLength fuel l br) := by
  intro fuel
  induction fuel with
  | zero => intro l br h; omega
  | succ fuel ih =>
    intro l br hf
    rw [nextLength]
    split
    · exact Safe.fail _
    · have h := readBits_le 1 br
      have h2 := readBits_ne (k := 1) (br := br)
      generalize readBits 1 br = x at h h2
      obtain ⟨go, br'⟩ := x
      simp only at h h2 ⊢
      split
      · exact ⟨by omega, by omega, h⟩
      · rename_i hgo
        have h2 := h2 hgo
        have h3 := readBits_le 1 br'
        generalize readBits 1 br' = x at h3
        obtain ⟨down, br''⟩ := x
        simp only at h3 ⊢
        exact (ih _ br'' (by omega)).mono fun x hx => ⟨hx.1, hx.2.1, by omega⟩

theorem codeLengths_safe : ∀ (k l : Nat) (br : BR),
    Safe (fun x => x.1.length = k ∧ (∀ l ∈ x.1, 1 ≤ l ∧ l ≤ 20) ∧ x.2.rest.length ≤ br.rest.length) (codeLengths k l br) := by
  intro k
  induction k with
  | zero => intro l br; exact ⟨rfl, fun _ h => by simp at h, le_refl _⟩
  | succ k ih =>
    intro l br
    rw [codeLengths]
    refine (nextLength_safe _ l br (by omega)).bind fun x hx => (ih x.1 x.2).bind fun y hy => ?_
    refine ⟨by simp [hy.1], fun l hl => ?_, by have := hy.2.2; have := hx.2.2; simp only; omega⟩
    rcases List.mem_cons.mp hl with rfl | hl
    · exact ⟨hx.1, hx.2.1⟩
    · exact hy.2.1 l hl

/-! ### trees -/

/-- every child has a higher number, and the symbols are below `n` -/
def TreeOk (n : Nat) (nodes : List Node) : Prop :=
  ∀ i nd, nodes[i]? = some nd → (∀ j, nd.left = some j → i < j ∧ j < nodes.length) ∧ (∀ j, nd.right = some j → i < j ∧ j < nodes.length) ∧
    nd.leftValue < n ∧ nd.rightValue < n

theorem decode_safe {n : Nat} {nodes : List Node} (h : TreeOk n nodes) : ∀ (fuel i : Nat) (br : BR), i < nodes.length →
    nodes.length < fuel + i → Safe (fun x => x.1 < n ∧ x.2.rest.length ≤ br.rest.length) (decode nodes fuel i br) := by
  intro fuel
  induction fuel with
  | zero => intro i br h1 h2; omega
  | succ fuel ih =>
    intro i br h1 h2
    rw [decode, List.getElem?_eq_getElem h1]
    obtain ⟨o1, o2, o3, o4⟩ := h i _ (List.getElem?_eq_getElem h1)
    simp only
    have hb := readBits_le 1 br
    generalize readBits 1 br = x at hb
    obtain ⟨bit, br'⟩ := x
    simp only at hb ⊢
    by_cases hbit : bit = 1
    · simp only [hbit, if_true]
      cases hl : nodes[i].left with
      | none => exact ⟨o3, hb⟩
      | some j =>
        obtain ⟨a, b⟩ := o1 j hl
        exact (ih j br' b (by omega)).mono fun x hx => ⟨hx.1, le_trans hx.2 hb⟩
    · simp only [hbit, if_false]
      cases hr : nodes[i].right with
      | none => exact ⟨o4, hb⟩
      | some j =>
        obtain ⟨a, b⟩ := o2 j hr
        exact (ih j br' b (by omega)).mono fun x hx => ⟨hx.1, le_trans hx.2 hb⟩

/-- what building a tree promises when it succeeds -/
def Built (n : Nat) (codes : List Code) (t : Tree) (x : Nat × Tree) : Prop :=
  x.1 = t.next ∧ t.next < x.2.next ∧ x.2.next + 1 ≤ t.next + codes.length ∧ x.2.nodes.length = t.nodes.length ∧ TreeOk n x.2.nodes

theorem child_safe {n : Nat} {f : List Code → Tree → Out (Nat × Tree)} {side : List Code} {t : Tree} (hs : side ≠ [])
    (hv : ∀ c ∈ side, c.value < n) (ht : TreeOk n t.nodes) (hl : t.next + side.length ≤ t.nodes.length + 1)
    (hf : Safe (Built n side t) (f side t)) :
    Safe (fun x => (∀ j, x.1.1 = some j → t.next ≤ j ∧ j < t.nodes.length) ∧ x.1.2 < n ∧ x.2.next + 1 ≤ t.next + side.length ∧
      t.next ≤ x.2.next ∧ x.2.nodes.length = t.nodes.length ∧ TreeOk n x.2.nodes) (child f side t) := by
  match side, hs with
  | [c], _ => exact ⟨fun j hj => by simp at hj, hv c (by simp), by simp, le_refl _, rfl, ht⟩
  | c :: d :: l, _ =>
    have hc := hv c (by simp)
    rw [child]
    · refine hf.bind fun x hx => ?_
      obtain ⟨h1, h2, h3, h4, h5⟩ := hx
      refine ⟨fun j hj => ?_, by simp only; omega, h3, by simp only; omega, h4, h5⟩
      simp only [Option.some.injEq] at hj
      omega
    · intro c hc; simp at hc

theorem build_safe {n : Nat} : ∀ (k : Nat) (codes : List Code) (t : Tree), 0 < k → codes ≠ [] → (∀ c ∈ codes, c.value < n ∧ c.code % 2 ^ 12 = 0) →
    TreeOk n t.nodes → t.next + codes.length ≤ t.nodes.length + 1 → Safe (Built n codes t) (build k codes t) := by
  intro k
  induction k with
  | zero => intro codes t h; omega
  | succ k ih =>
    intro codes t _ hne hc ht hl
    rw [build]
    simp only []
    have app : codes.takeWhile (fun c => !c.code.testBit k) ++ codes.dropWhile (fun c => !c.code.testBit k) = codes := List.takeWhile_append_dropWhile
    have hk : codes.dropWhile (fun c => !c.code.testBit k) ≠ [] → 12 ≤ k := by
      intro hR
      by_contra hlt
      apply hR
      have all : ∀ c ∈ codes, (!c.code.testBit k) = true := by
        intro c hcm
        have h0 := (hc c hcm).2
        obtain ⟨q, hq⟩ := Nat.dvd_of_mod_eq_zero h0
        rw [hq, Nat.testBit_two_pow_mul]
        have : ¬ k ≥ 12 := by omega
        simp [this]
      clear * - all
      induction codes with
      | nil => rfl
      | cons c l ihl =>
        rw [List.dropWhile_cons, if_pos (all c (by simp))]
        exact ihl fun d hd => all d (by simp [hd])
    generalize codes.takeWhile (fun c => !c.code.testBit k) = L at *
    generalize codes.dropWhile (fun c => !c.code.testBit k) = R at *
    by_cases hLR : L = [] ∨ R = []
    · rw [if_pos hLR]
      split
      · trivial
      · split
        · trivial
        · split
          · rename_i hL
            subst hL
            rw [List.nil_append] at app
            subst app
            exact ih R t (by omega) hne hc ht hl
          · rename_i hL
            have hR : R = [] := by tauto
            subst hR
            rw [List.append_nil] at app
            subst app
            exact ih L t (by omega) hne hc ht hl
    · rw [if_neg hLR]
      push Not at hLR
      obtain ⟨hL, hR⟩ := hLR
      have hk := hk hR
      have lL : 0 < L.length := List.length_pos_iff.mpr hL
      have lR : 0 < R.length := List.length_pos_iff.mpr hR
      have len : L.length + R.length = codes.length := by rw [← app, List.length_append]
      have cL : ∀ c ∈ L, c.value < n ∧ c.code % 2 ^ 12 = 0 := fun c h => hc c (by rw [← app]; simp [h])
      have cR : ∀ c ∈ R, c.value < n ∧ c.code % 2 ^ 12 = 0 := fun c h => hc c (by rw [← app]; simp [h])
      rw [if_neg (by omega)]
      refine (child_safe (n := n) hL (fun c h => (cL c h).1) (t := ⟨t.nodes, t.next + 1⟩) ht (by simp only; omega)
        (ih L _ (by omega) hL cL ht (by simp only; omega))).bind fun x hx => ?_
      obtain ⟨x1, x2, x3, x4, x5, x6⟩ := hx
      simp only at x1 x3 x4 x5
      refine (child_safe (n := n) hR (fun c h => (cR c h).1) x6 (by omega)
        (ih R _ (by omega) hR cR x6 (by omega))).bind fun y hy => ?_
      obtain ⟨y1, y2, y3, y4, y5, y6⟩ := hy
      refine ⟨rfl, by simp only; omega, by simp only; omega, by simp only [List.length_set]; omega, ?_⟩
      simp only
      intro i nd hnd
      rw [List.getElem?_set] at hnd
      rw [List.length_set]
      by_cases hi : t.next = i
      · rw [if_pos hi] at hnd
        split at hnd
        · rw [Option.some.injEq] at hnd
          subst hnd
          refine ⟨fun j hj => ?_, fun j hj => ?_, x2, y2⟩
          · have := x1 j hj; omega
          · have := y1 j hj; omega
        · simp at hnd
      · rw [if_neg hi] at hnd
        exact y6 i nd hnd

theorem assign_mem : ∀ (D : List (Nat × Nat)) (a L : Nat), (∀ p ∈ D, p.1 ≤ 20) → a % 2 ^ 12 = 0 → ∀ c ∈ assign D a L,
    c.code % 2 ^ 12 = 0 ∧ ∃ p ∈ D, c.value = p.2 := by
  intro D
  induction D with
  | nil => intro a L _ _ c hc; simp [assign] at hc
  | cons p D ih =>
    intro a L hD ha c hc
    obtain ⟨l, v⟩ := p
    have hl := hD (l, v) (by simp)
    rw [assign] at hc
    rcases List.mem_cons.mp hc with rfl | hc
    · exact ⟨ha, (l, v), by simp, rfl⟩
    · have hle : (if l < L then l else L) ≤ 20 := by split <;> omega
      generalize (if l < L then l else L) = K at *
      have hmod : (a + 2 ^ (32 - K)) % 2 ^ 32 % 2 ^ 12 = 0 := by
        rw [Nat.mod_mod_of_dvd _ (pow_dvd_pow 2 (by omega))]
        have : (2 ^ 12) ∣ 2 ^ (32 - K) := pow_dvd_pow 2 (by omega)
        exact Nat.mod_eq_zero_of_dvd (Nat.dvd_add (Nat.dvd_of_mod_eq_zero ha) this)
      obtain ⟨h1, p, h2, h3⟩ := ih _ _ (fun p hp => hD p (by simp [hp])) hmod c hc
      exact ⟨h1, p, by simp [h2], h3⟩

theorem assign_length : ∀ (D : List (Nat × Nat)) (a L : Nat), (assign D a L).length = D.length := by
  intro D
  induction D with
  | nil => intro a L; rfl
  | cons p D ih => intro a L; obtain ⟨l, v⟩ := p; simp [assign, ih]

theorem newTree_safe {ls : List Nat} (h2 : 2 ≤ ls.length) (hl : ∀ l ∈ ls, 1 ≤ l ∧ l ≤ 20) :
    Safe (fun ns => TreeOk ls.length ns ∧ ns.length = ls.length) (newTree ls) := by
  rw [newTree, if_neg (by omega)]
  simp only []
  have perm : (ls.zipIdx.mergeSort shorter).Perm ls.zipIdx := List.mergeSort_perm _ _
  generalize ls.zipIdx.mergeSort shorter = P at perm
  have mem : ∀ p ∈ P.reverse, p.1 ≤ 20 ∧ p.2 < ls.length := by
    intro p hp
    have := perm.mem_iff.mp (List.mem_reverse.mp hp)
    obtain ⟨l, v⟩ := p
    rw [List.mk_mem_zipIdx_iff_getElem?] at this
    obtain ⟨h1, h2⟩ := List.getElem?_eq_some_iff.mp this
    exact ⟨(hl l (List.mem_of_getElem? this)).2, h1⟩
  have cm := assign_mem P.reverse 0 32 (fun p hp => (mem p hp).1) rfl
  have cl := assign_length P.reverse 0 32
  rw [List.length_reverse, perm.length_eq, List.length_zipIdx] at cl
  have perm2 := List.mergeSort_perm (assign P.reverse 0 32) fun a b => decide (a.code ≤ b.code)
  generalize (assign P.reverse 0 32).mergeSort (fun a b => decide (a.code ≤ b.code)) = C at perm2
  have ok0 : TreeOk ls.length (List.replicate ls.length ⟨none, none, 0, 0⟩) := by
    intro i nd hnd
    rw [List.getElem?_replicate] at hnd
    split at hnd
    · rw [Option.some.injEq] at hnd
      subst hnd
      exact ⟨fun j hj => by simp at hj, fun j hj => by simp at hj, by simp only; omega, by simp only; omega⟩
    · simp at hnd
  have hC : C.length = ls.length := by rw [perm2.length_eq, cl]
  refine (build_safe (n := ls.length) 32 C ⟨_, 0⟩ (by omega) (by rintro rfl; simp at hC; omega) (fun c hc => ?_) ok0
    (by simp [hC])).bind fun x hx => ?_
  · obtain ⟨h1, p, h2, h3⟩ := cm c (perm2.mem_iff.mp hc)
    exact ⟨by rw [h3]; exact (mem p h2).2, h1⟩
  · obtain ⟨_, _, _, h4, h5⟩ := hx
    exact ⟨h5, by rw [h4]; simp⟩

theorem readTrees_safe {n : Nat} (hn : 2 ≤ n) : ∀ (k : Nat) (br : BR),
    Safe (fun x => (∀ t ∈ x.1, TreeOk n t ∧ t.length = n) ∧ x.2.rest.length ≤ br.rest.length) (readTrees n k br) := by
  intro k
  induction k with
  | zero => intro br; exact ⟨fun t h => by simp at h, le_refl _⟩
  | succ k ih =>
    intro br
    rw [readTrees]
    have h := readBits_le 5 br
    generalize readBits 5 br = x at h
    obtain ⟨l, br'⟩ := x
    simp only at h ⊢
    refine (codeLengths_safe n l br').bind fun x hx => ?_
    obtain ⟨h1, h2, h3⟩ := hx
    have ht := newTree_safe (ls := x.1) (by omega) h2
    rw [h1] at ht
    have fin : ∀ t, TreeOk n t ∧ t.length = n → Safe (fun x => (∀ t ∈ x.1, TreeOk n t ∧ t.length = n) ∧ x.2.rest.length ≤ br.rest.length)
        (do let (ts, br) ← readTrees n k x.2; Out.ok (t :: ts, br)) := by
      intro t ht
      refine (ih x.2).bind fun y hy => ?_
      refine ⟨fun t' ht' => ?_, by have := hy.2; simp only; omega⟩
      rcases List.mem_cons.mp ht' with rfl | ht'
      · exact ht
      · exact hy.1 t' ht'
    generalize newTree x.1 = y at ht
    cases y with
    | panic => exact ht.elim
    | err e => trivial
    | ok a => exact fin a ht

/-! ### the symbols of a block -/

/-- the variables of the loop -/
structure SymOk (n bs N : Nat) (sels : List Nat) (s : Sym) : Prop where
  pos : s.selectorIndex ≤ sels.length
  le : s.decoded ≤ 50
  tree : TreeOk n s.tree ∧ s.tree.length = n
  mtf : s.mtf.length + 2 = n ∧ ∀ v ∈ s.mtf, v < 256
  tt : s.tt.length ≤ bs ∧ ∀ v ∈ s.tt, v < 256
  br : s.br.rest.length ≤ N

theorem round_safe {sels : List Nat} {trees : List (List Node)} {n bs N fuel : Nat} (hn : 3 ≤ n)
    (ih : ∀ s, SymOk n bs N sels s → 50 * (sels.length - s.selectorIndex) + (50 - s.decoded) < fuel →
      Safe (fun x => x.1.length ≤ bs ∧ (∀ v ∈ x.1, v < 256) ∧ x.2.rest.length ≤ N) (symbols sels trees n bs fuel s))
    {v : Nat} {s : Sym} (hs : SymOk n bs N sels s) (hv : v < n) (hf : 50 * (sels.length - s.selectorIndex) + (50 - s.decoded) < fuel) :
    Safe (fun x => x.1.length ≤ bs ∧ (∀ v ∈ x.1, v < 256) ∧ x.2.rest.length ≤ N) (round sels trees n bs fuel v s) := by
  unfold round
  by_cases hv2 : v < 2
  · rw [if_pos hv2]
    simp only []
    generalize (if s.repeat' = 0 then 1 else s.repeatPower) = pw
    split
    · exact Safe.fail _
    · exact ih _ ⟨hs.pos, hs.le, hs.tree, hs.mtf, hs.tt, hs.br⟩ hf
  · rw [if_neg hv2]
    by_cases hrep : 0 < s.repeat' ∧ bs - s.tt.length < s.repeat'
    · rw [if_pos hrep]; exact Safe.fail _
    · rw [if_neg hrep]
      have cont : ∀ s', SymOk n bs N sels s' → s'.selectorIndex = s.selectorIndex → s'.decoded = s.decoded →
          Safe (fun x => x.1.length ≤ bs ∧ (∀ v ∈ x.1, v < 256) ∧ x.2.rest.length ≤ N)
          (if v = n - 1 then .ok (s'.tt, s'.br)
           else do
            let (b, m) ← mtfDecode s'.mtf (v - 1)
            if bs ≤ s'.tt.length then Bz.fail s'.br
            else symbols sels trees n bs fuel (put { s' with mtf := m } b 1)) := by
        intro s' hs' e1 e2
        split
        · exact ⟨hs'.tt.1, hs'.tt.2, hs'.br⟩
        · rename_i hend
          refine (mtf_safe (c := v - 1) (by have := hs'.mtf.1; omega)).bind fun x hx => ?_
          obtain ⟨h1, h2⟩ := hx
          obtain ⟨h3, h4⟩ := h2 256 hs'.mtf.2
          simp only []
          split
          · exact Safe.fail _
          · refine ih _ ⟨hs'.pos, hs'.le, hs'.tree, ⟨by simp only [put]; rw [h1]; exact hs'.mtf.1, h4⟩, ⟨?_, fun v hv => ?_⟩, hs'.br⟩ ?_
            · simp only [put, List.length_append, List.length_replicate]; omega
            · simp only [put] at hv
              rcases List.mem_append.mp hv with hv | hv
              · exact hs'.tt.2 v hv
              · rw [(List.mem_replicate.mp hv).2]; exact h3
            · simp only [put]; rw [e1, e2]; exact hf
      by_cases h0 : 0 < s.repeat'
      · have hm : 0 < s.mtf.length := by have := hs.mtf.1; omega
        rw [if_pos h0, List.getElem?_eq_getElem hm]
        refine cont (put { s with repeat' := 0 } s.mtf[0] s.repeat') ⟨hs.pos, hs.le, hs.tree, hs.mtf, ⟨?_, fun v hv => ?_⟩, hs.br⟩ rfl rfl
        · have := hs.tt.1
          simp only [put, List.length_append, List.length_replicate]; omega
        · simp only [put] at hv
          rcases List.mem_append.mp hv with hv | hv
          · exact hs.tt.2 v hv
          · rw [(List.mem_replicate.mp hv).2]
            exact hs.mtf.2 _ (List.getElem_mem hm)
      · rw [if_neg h0]
        exact cont s hs rfl rfl

theorem symbols_safe {sels : List Nat} {trees : List (List Node)} {n bs N : Nat} (hn : 3 ≤ n) (ht : ∀ t ∈ trees, TreeOk n t ∧ t.length = n) :
    ∀ (fuel : Nat) (s : Sym), SymOk n bs N sels s → 50 * (sels.length - s.selectorIndex) + (50 - s.decoded) < fuel →
      Safe (fun x => x.1.length ≤ bs ∧ (∀ v ∈ x.1, v < 256) ∧ x.2.rest.length ≤ N) (symbols sels trees n bs fuel s) := by
  intro fuel
  induction fuel with
  | zero => intro s _ h; omega
  | succ fuel ih =>
    intro s hs hf
    have cont : ∀ s1, SymOk n bs N sels s1 → s1.decoded < 50 →
        50 * (sels.length - s1.selectorIndex) + (50 - s1.decoded) < fuel + 1 →
        Safe (fun x => x.1.length ≤ bs ∧ (∀ v ∈ x.1, v < 256) ∧ x.2.rest.length ≤ N)
          (decode s1.tree (s1.tree.length + 33) 0 s1.br >>= fun x => round sels trees n bs fuel x.1 { s1 with br := x.2, decoded := s1.decoded + 1 }) := by
      intro s1 hs1 d1 f1
      refine (decode_safe hs1.tree.1 (s1.tree.length + 33) 0 s1.br (by rw [hs1.tree.2]; omega) (by omega)).bind fun x hx => ?_
      have hbr : x.2.rest.length ≤ N := le_trans hx.2 hs1.br
      exact round_safe hn ih (s := { s1 with br := x.2, decoded := s1.decoded + 1 })
        ⟨hs1.pos, by simp only; omega, hs1.tree, hs1.mtf, hs1.tt, hbr⟩ hx.1 (by simp only; omega)
    rw [symbols]
    by_cases h50 : s.decoded = 50
    · rw [if_pos h50]
      cases hsel : sels[s.selectorIndex]? with
      | none => exact Safe.fail s.br
      | some i =>
        have hlt := (List.getElem?_eq_some_iff.mp hsel).1
        simp only []
        cases htr : trees[i]? with
        | none => exact Safe.fail s.br
        | some t =>
          exact cont { s with tree := t, selectorIndex := s.selectorIndex + 1, decoded := 0 }
            ⟨by simp only; omega, by simp only; omega, ht t (List.mem_of_getElem? htr), hs.mtf, hs.tt, hs.br⟩ (by simp only; omega)
            (by simp only; omega)
    · rw [if_neg h50]
      exact cont s hs (by have := hs.le; omega) hf

/-! ### blocks -/

theorem chain_exists {pre : List Nat} (h : ∀ j (hj : j < pre.length), pre[j] >>> 8 < pre.length) : ∀ (k p : Nat), p < pre.length →
    ∃ raw : Bytes, raw.length = k ∧ Chain pre p raw := by
  intro k
  induction k with
  | zero => intro p _; exact ⟨[], rfl, .nil p⟩
  | succ k ih =>
    intro p hp
    obtain ⟨raw, h1, h2⟩ := ih (pre[p] >>> 8) (h p hp)
    refine ⟨UInt8.ofNat (pre[p] % 256) :: raw, by simp [h1], .cons (List.getElem?_eq_getElem hp) ?_ h2⟩
    simp

theorem holds_any {L : List Nat} (hb : ∀ v ∈ L, v < 256) (hn : L.length < 2 ^ 24) {o : Nat} (ho : o < L.length) :
    ∃ tt p, inverseBWT L o (counts L) = .ok (tt, p) ∧ tt.length = L.length ∧ ∃ out, Holds ⟨tt, 0, p, none, 0, 0⟩ out := by
  obtain ⟨tt, P, h1, h2, h3⟩ := inverseBWT_spec hb hn ho
  have hb2 : ∀ j, L.getD j 0 < 256 := by
    intro j
    rw [List.getD_eq_getElem?_getD]
    rcases h : L[j]? with _ | x
    · simp
    · exact hb x (List.mem_of_getElem? h)
  obtain ⟨raw, r1, r2⟩ := chain_exists (pre := tt) (fun j hj => by
    obtain ⟨a, _, c⟩ := h2 j (by omega)
    rw [List.getElem?_eq_getElem hj, Option.some.injEq] at c
    rw [c, Nat.shiftRight_eq_div_pow]
    have := hb2 j
    have : (L.getD j 0 + 256 * P j) / 2 ^ 8 = P j := by omega
    omega) tt.length (P o) (by have := (h2 o ho).1; omega)
  exact ⟨tt, P o, h3, h1, _, raw, r2, by simp [r1], rfl⟩

theorem readBlock_safe {size : Nat} (hs : size ≤ 900000) (br : BR) :
    Safe (fun x => (∃ out, Holds x.1 out) ∧ x.2.rest.length ≤ br.rest.length ∧ x.1.pre.length ≤ size) (readBlock size br) := by
  rw [readBlock]
  have g1 := readBits_le 1 br
  generalize readBits 1 br = x at g1
  obtain ⟨rnd, b1⟩ := x
  simp only at g1 ⊢
  split
  · exact Safe.fail _
  have g2 := readBits_le 24 b1
  generalize readBits 24 b1 = x at g2
  obtain ⟨o, b2⟩ := x
  simp only at g2 ⊢
  have g3 := usedBytes_le b2
  generalize usedBytes b2 = x at g3
  obtain ⟨used, b3⟩ := x
  simp only at g3 ⊢
  obtain ⟨g3, gu⟩ := g3
  split
  · exact Safe.fail _
  rename_i hu
  have g4 := readBits_le 3 b3
  generalize readBits 3 b3 = x at g4
  obtain ⟨T, b4⟩ := x
  simp only at g4 ⊢
  split
  · exact Safe.fail _
  have g5 := readBits_le 15 b4
  generalize readBits 15 b4 = x at g5
  obtain ⟨S, b5⟩ := x
  simp only at g5 ⊢
  refine (selectors_safe S (List.range T) b5 (by simp)).bind fun x hx => ?_
  refine (readTrees_safe (n := used.length + 2) (by omega) T x.2).bind fun y hy => ?_
  cases h0 : x.1[0]? with
  | none => exact Safe.fail _
  | some i =>
    simp only []
    cases ht : y.1[i]? with
    | none => exact Safe.fail _
    | some t =>
      simp only []
      have hpos := (List.getElem?_eq_some_iff.mp h0).1
      refine (symbols_safe (bs := size) (N := br.rest.length) (by omega) hy.1 _ _
        ⟨by simp only; omega, by simp only; omega, hy.1 t (List.mem_of_getElem? ht), ⟨rfl, gu⟩, ⟨by simp, fun v h => by simp at h⟩,
          by have := hy.2; simp only; omega⟩ (by simp only; omega)).bind fun z hz => ?_
      split
      · exact Safe.fail _
      · obtain ⟨tt, p, i1, i0, out, i2⟩ := holds_any hz.2.1 (by have := hz.1; omega) (o := o) (by omega)
        simp only [bind, Out.bind, i1]
        exact ⟨⟨out, i2⟩, hz.2.2, by simp only; rw [i0]; exact hz.1⟩

/-! ### the reader -/

/-- what holds between calls -/
def Inv (z : Reader) : Prop := (∃ out, Holds z.block out) ∧ z.blockSize ≤ 900000 ∧ z.block.pre.length ≤ 900000

theorem setup_safe {n : Bool} {z : Reader} (h : Inv z) : Inv (setup n z).2 ∧ (setup n z).2.br.rest.length ≤ z.br.rest.length ∧
    (setup n z).2.failed = z.failed ∧ (setup n z).2.setupDone = z.setupDone := by
  unfold setup
  have g1 : (if n then readBits 16 z.br else (0x425a, z.br)).2.rest.length ≤ z.br.rest.length := by
    split
    · exact readBits_le _ _
    · exact le_refl _
  generalize (if n then readBits 16 z.br else (0x425a, z.br)) = x at g1
  obtain ⟨m, b1⟩ := x
  simp only at g1 ⊢
  split
  · exact ⟨h, g1, rfl, rfl⟩
  have g2 := readBits_le 8 b1
  generalize readBits 8 b1 = x at g2
  obtain ⟨t, b2⟩ := x
  simp only at g2 ⊢
  split
  · exact ⟨h, le_trans g2 g1, rfl, rfl⟩
  have g3 := readBits_le 8 b2
  generalize readBits 8 b2 = x at g3
  obtain ⟨l, b3⟩ := x
  simp only at g3 ⊢
  split
  · exact ⟨h, le_trans g3 (le_trans g2 g1), rfl, rfl⟩
  · refine ⟨⟨h.1, ?_, h.2.2⟩, le_trans g3 (le_trans g2 g1), rfl, rfl⟩
    simp only; omega

theorem readLoop_safe (n : Nat) : ∀ (fuel : Nat) (z : Reader), Inv z → z.br.rest.length < fuel →
    Always (fun x => x.1.length ≤ n ∧ (0 < n → x.1 = [] → x.2.1 ≠ none) ∧ Inv x.2.2) (readLoop fuel n z) := by
  intro fuel
  induction fuel with
  | zero => intro z _ h; omega
  | succ fuel ih =>
    intro z hz hf
    obtain ⟨out, ho⟩ := hz.1
    obtain ⟨b', b1, b2, b3⟩ := readFromBlock_spec (z.block.pre.length + n + 1) n z.block out ho (by omega)
    rw [readLoop]
    simp only [bind, Out.bind, b1]
    have hz2 : ∀ br f bc w s fl, Inv ⟨br, f, bc, w, s, z.blockSize, b', fl⟩ := fun _ _ _ _ _ _ => ⟨⟨_, b2⟩, hz.2.1, by simp only; rw [b3]; exact hz.2.2⟩
    split
    · rename_i h
      refine ⟨List.length_take_le _ _, fun hn he => ?_, hz2 _ _ _ _ _ _⟩
      simp only at he
      rw [he] at h
      simp at h; omega
    split
    · exact ⟨by simp, fun _ _ => by simp, hz2 _ _ _ _ _ _⟩
    have g1 := readBits_le 48 z.br
    have g2 := readBits_ne (k := 48) (br := z.br)
    generalize readBits 48 z.br = x at g1 g2
    obtain ⟨magic, br⟩ := x
    simp only at g1 g2 ⊢
    split
    · rename_i hm
      have g2 := g2 (by rw [hm]; norm_num)
      have g3 := readBits_le 32 br
      generalize readBits 32 br = x at g3
      obtain ⟨crc, br2⟩ := x
      simp only at g3 ⊢
      have hb := readBlock_safe hz.2.1 br2
      generalize readBlock z.blockSize br2 = y at hb
      cases y with
      | panic => exact hb.elim
      | err e => exact ⟨by simp, fun _ _ => by simp, hz2 _ _ _ _ _ _⟩
      | ok y =>
        obtain ⟨hb1, hb2, hb3⟩ := hb
        exact ih _ ⟨hb1, hz.2.1, le_trans hb3 hz.2.1⟩ (by simp only; omega)
    split
    · rename_i hm
      have g2 := g2 (by rw [hm]; norm_num)
      have g3 := readBits_le 32 br
      generalize readBits 32 br = x at g3
      obtain ⟨crc, br2⟩ := x
      simp only at g3 ⊢
      split
      · exact ⟨by simp, fun _ _ => by simp, hz2 _ _ _ _ _ _⟩
      split
      · exact ⟨by simp, fun _ _ => by simp, hz2 _ _ _ _ _ _⟩
      split
      · exact ⟨by simp, fun _ _ => by simp, hz2 _ _ _ _ _ _⟩
      split
      · exact ⟨by simp, fun _ _ => by simp, hz2 _ _ _ _ _ _⟩
      split
      · exact ⟨by simp, fun _ _ => by simp, hz2 _ _ _ _ _ _⟩
      have hs := setup_safe (n := false) (z := ⟨⟨(br2.rest.drop (br2.rest.length % 8)).drop 16, br2.final, br2.err⟩, z.fileCRC, z.blockCRC,
        z.wantBlockCRC, z.setupDone, z.blockSize, b', z.failed⟩) (hz2 _ _ _ _ _ _)
      generalize setup false _ = w at hs
      obtain ⟨e, z2⟩ := w
      simp only at hs
      cases e with
      | some e => exact ⟨by simp, fun _ _ => by simp, hs.1⟩
      | none => exact ih z2 hs.1 (by have := hs.2.1; simp only [List.length_drop] at this; omega)
    · exact ⟨by simp, fun _ _ => by simp, hz2 _ _ _ _ _ _⟩

theorem read_safe {z : Reader} (h : Inv z) (n : Nat) :
    Always (fun x => x.1.length ≤ n ∧ (0 < n → x.1 = [] → x.2.1 ≠ none) ∧ Inv x.2.2) (read z n) := by
  unfold read
  split
  · exact ⟨by simp, fun _ _ => by simp, h⟩
  have key : ∀ (e : Option IOErr) (z : Reader), Inv z → Always (fun x => x.1.length ≤ n ∧ (0 < n → x.1 = [] → x.2.1 ≠ none) ∧ Inv x.2.2)
      (match e with
       | some e => Out.ok ([], some e, { z with failed := some e })
       | none => do
         let (out, e, z) ← readLoop (z.br.rest.length + 1) n { z with setupDone := true }
         let e := match z.br.err with | some e' => some e' | none => e
         Out.ok (out, e, { z with failed := if out = [] then e else none })) := by
    intro e z hz
    cases e with
    | some e => exact ⟨by simp, fun _ _ => by simp, hz⟩
    | none =>
      refine (readLoop_safe n (z.br.rest.length + 1) { z with setupDone := true } hz (by simp)).bind fun x hx => ?_
      refine ⟨hx.1, fun hn he => ?_, hx.2.2⟩
      simp only
      cases x.2.2.br.err with
      | some e => simp
      | none => exact hx.2.1 hn he
  by_cases hd : z.setupDone = true
  · simp only [hd, if_true]
    exact key none z h
  · have hs := setup_safe (n := true) h
    generalize setup true z = w at hs
    obtain ⟨e, z2⟩ := w
    simp only at hs
    have hd2 : z2.setupDone = false := by rw [hs.2.2.2]; simpa using hd
    obtain ⟨br, fc, bc, wc, sd, bs, blk, fl⟩ := z2
    simp only at hd2
    subst hd2
    simp only [hd, if_false, Bool.false_eq_true]
    have h1 := hs.1
    cases br.err with
    | none => exact key e _ h1
    | some e' => exact key (some e') _ h1

theorem inv_new (file : Bytes) (e : IOErr) : Inv (newReader file e) := ⟨⟨[], holds_empty⟩, by simp [newReader], by simp [newReader]⟩

end Radolan.Bz
