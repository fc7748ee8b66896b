/- Go's Huffman tree decodes the canonical code of its code lengths. -/
import Verif.Lemmas.BzTree
import Verif.Spec.Bzip2

namespace Radolan.Bz
open Go
open _root_.Spec.Bzip2 (codeNumber codeword Complete)

/-- the space taken by pairs of length and symbol, of 2^32 -/
def space (D : List (Nat × Nat)) : Nat := (D.map fun p => 2 ^ (32 - p.1)).sum

theorem space_cons (p : Nat × Nat) (D) : space (p :: D) = 2 ^ (32 - p.1) + space D := by simp [space]

theorem space_append (A B : List (Nat × Nat)) : space (A ++ B) = space A + space B := by simp [space]

theorem space_dvd {e : Nat} {D : List (Nat × Nat)} (h : ∀ p ∈ D, e ≤ 32 - p.1) : 2 ^ e ∣ space D := by
  induction D with
  | nil => simp [space]
  | cons p D ih =>
    rw [space_cons]
    exact Nat.dvd_add (pow_dvd_pow 2 (h p (by simp))) (ih fun q hq => h q (by simp [hq]))

/-- the codes `assign` makes -/
def codes : List (Nat × Nat) → Nat → List Code
  | [], _ => []
  | p :: D, a => ⟨a, p.1, p.2⟩ :: codes D (a + 2 ^ (32 - p.1))

theorem codes_length (D : List (Nat × Nat)) : ∀ a, (codes D a).length = D.length := by
  induction D with
  | nil => intro a; rfl
  | cons p D ih => intro a; simp [codes, ih]

theorem assign_codes {D : List (Nat × Nat)} : ∀ {a L : Nat}, (∀ p ∈ D, p.1 ≤ L) → D.Pairwise (fun p q => q.1 ≤ p.1) →
    a + space D ≤ 2 ^ 32 → assign D a L = codes D a := by
  induction D with
  | nil => intro a L _ _ _; rfl
  | cons p D ih =>
    intro a L hL hD ha
    obtain ⟨l, v⟩ := p
    have hl : l ≤ L := hL (l, v) (by simp)
    rw [List.pairwise_cons] at hD
    rw [assign, codes]
    have e : (if l < L then l else L) = l := by split <;> omega
    simp only [e]
    congr 1
    rw [space_cons] at ha
    simp only at ha
    cases D with
    | nil => rfl
    | cons q D =>
      have hq : 0 < 2 ^ (32 - q.1) := by positivity
      rw [Nat.mod_eq_of_lt (by rw [space_cons] at ha; omega)]
      exact ih (fun p hp => hD.1 p hp) hD.2 (by omega)

theorem codes_tiled {D : List (Nat × Nat)} : ∀ {a : Nat}, D.Pairwise (fun p q => q.1 ≤ p.1) →
    a + space D = 2 ^ 32 → Tiled (codes D a) a (2 ^ 32) := by
  induction D with
  | nil => intro a _ h; exact h
  | cons p D ih =>
    intro a hD ha
    rw [List.pairwise_cons] at hD
    refine ⟨rfl, ?_, ih hD.2 (by rw [space_cons] at ha; omega)⟩
    have h1 : 2 ^ (32 - p.1) ∣ space (p :: D) := space_dvd (fun q hq => by
      rcases List.mem_cons.mp hq with rfl | hq
      · exact le_refl _
      · have := hD.1 q hq; omega)
    have h2 : 2 ^ (32 - p.1) ∣ 2 ^ 32 := pow_dvd_pow 2 (Nat.sub_le _ _)
    exact (Nat.dvd_add_left h1).mp (ha ▸ h2)

theorem tiled_sorted {l : List Code} : ∀ {a b}, Tiled l a b → (∀ c ∈ l, a ≤ c.code) ∧ l.Pairwise (fun x y => x.code ≤ y.code) := by
  induction l with
  | nil => intro a b _; exact ⟨fun c hc => by simp at hc, List.Pairwise.nil⟩
  | cons c l ih =>
    intro a b h
    obtain ⟨i1, i2⟩ := ih h.2.2
    refine ⟨fun d hd => ?_, List.pairwise_cons.mpr ⟨fun d hd => ?_, i2⟩⟩
    · rcases List.mem_cons.mp hd with rfl | hd
      · exact le_of_eq h.1.symm
      · exact le_trans (Nat.le_add_right _ _) (i1 d hd)
    · rw [h.1]; exact le_trans (Nat.le_add_right _ _) (i1 d hd)

theorem codes_mem {A B : List (Nat × Nat)} {p : Nat × Nat} : ∀ a, ⟨a + space A, p.1, p.2⟩ ∈ codes (A ++ p :: B) a := by
  induction A with
  | nil => intro a; simp [codes, space]
  | cons q A ih =>
    intro a
    rw [List.cons_append, codes, space_cons, ← Nat.add_assoc]
    exact List.mem_cons_of_mem _ (ih _)

theorem word_eq {c : Code} : ∀ k, word c k = (List.range (k - (32 - c.len))).map fun i => !c.code.testBit (k - 1 - i) := by
  intro k
  induction k with
  | zero => simp [word]
  | succ k ih =>
    rw [word]
    split
    · rename_i hk
      rw [Nat.sub_eq_zero_of_le hk]; rfl
    · have e : k + 1 - (32 - c.len) = (k - (32 - c.len)) + 1 := by omega
      rw [e, List.range_succ_eq_map, List.map_cons, List.map_map, ih]
      simp only [Nat.add_sub_cancel, Nat.sub_zero]
      congr 1
      apply List.map_congr_left
      intro i hi
      simp only [Function.comp]
      congr 2
      omega

/-- a code between the codes before and the codes after it -/
theorem complement {S G w : Nat} {l : Nat} (hl : 1 ≤ l) (hl2 : l ≤ 20) (hw : w = 2 ^ (32 - l)) (h : S * 2 ^ 12 + G + w = 2 ^ 32)
    (hG : w ∣ G) {i : Nat} (hi : i < l) : S.testBit (19 - i) = !G.testBit (31 - i) := by
  have e0 : S.testBit (19 - i) = (S * 2 ^ 12).testBit (31 - i) := by
    rw [Nat.testBit_mul_two_pow]
    rw [show 31 - i - 12 = 19 - i by omega]
    simp; omega
  have e1 : (S * 2 ^ 12) / 2 ^ (32 - l) = 2 ^ l - (G / 2 ^ (32 - l) + 1) := by
    obtain ⟨g, rfl⟩ := hG
    subst hw
    have hp : 0 < 2 ^ (32 - l) := by positivity
    rw [Nat.mul_div_cancel_left _ hp]
    have e : 2 ^ 32 = 2 ^ (32 - l) * 2 ^ l := by rw [← pow_add]; congr 1; omega
    have h' : S * 2 ^ 12 = 2 ^ (32 - l) * (2 ^ l - (g + 1)) := by
      rw [Nat.mul_sub, ← e]
      have : 2 ^ (32 - l) * (g + 1) = 2 ^ (32 - l) * g + 2 ^ (32 - l) := by ring
      rw [this]
      exact Nat.eq_sub_of_add_eq (by rw [← Nat.add_assoc]; exact h)
    rw [h', Nat.mul_div_cancel_left _ hp]
  have e2 : G / 2 ^ (32 - l) < 2 ^ l := by
    apply Nat.div_lt_of_lt_mul
    have e : 2 ^ 32 = 2 ^ (32 - l) * 2 ^ l := by rw [← pow_add]; congr 1; omega
    rw [← e]
    have : 0 < w := by rw [hw]; positivity
    omega
  have key := Nat.testBit_two_pow_sub_succ e2 (l - 1 - i)
  rw [← e1, Nat.testBit_div_two_pow, Nat.testBit_div_two_pow] at key
  rw [e0]
  clear e0 e1 e2 h
  have e3 : l - 1 - i + (32 - l) = 31 - i := by omega
  have e4 : 32 - l + (l - 1 - i) = 31 - i := by omega
  rw [e3] at key
  rw [key]
  simp; omega

theorem space_twenty {D : List (Nat × Nat)} (h : ∀ p ∈ D, p.1 ≤ 20) : space D = (D.map fun q => 2 ^ (20 - q.1)).sum * 2 ^ 12 := by
  induction D with
  | nil => rfl
  | cons p D ih =>
    rw [space_cons, ih fun q hq => h q (by simp [hq]), List.map_cons, List.sum_cons, Nat.add_mul, ← pow_add]
    have := h p (by simp)
    rw [show 20 - p.1 + 12 = 32 - p.1 by omega]

theorem newTree_spec {ls : List Nat} (h : Complete ls) : ∃ nodes, newTree ls = .ok nodes ∧ nodes.length = ls.length ∧
    ∀ v, v < ls.length → Path nodes 0 (codeword ls v) v := by
  obtain ⟨h1, h2⟩ := h
  have hlen : 2 ≤ ls.length := by
    match ls, h1, h2 with
    | [], _, h2 => simp at h2
    | [l], h1, h2 =>
      have := h1 l (by simp)
      simp only [List.map_cons, List.map_nil, List.sum_cons, List.sum_nil, Nat.add_zero] at h2
      have := Nat.pow_right_injective (le_refl 2) h2
      omega
    | _ :: _ :: _, _, _ => simp
  rw [newTree, if_neg (by omega)]
  set P := ls.zipIdx.mergeSort shorter with hP
  have perm : P.Perm ls.zipIdx := List.mergeSort_perm _ _
  have srt : P.Pairwise (fun p q => shorter p q = true) := by
    apply List.pairwise_mergeSort
    · intro a b c; simp only [shorter, Bool.or_eq_true, Bool.and_eq_true, decide_eq_true_eq, beq_iff_eq]; omega
    · intro a b; simp only [shorter, Bool.or_eq_true, Bool.and_eq_true, decide_eq_true_eq, beq_iff_eq]; omega
  have nd : P.Nodup := by
    rw [perm.nodup_iff]
    apply List.Nodup.of_map Prod.snd
    rw [List.zipIdx_map_snd]
    exact List.nodup_range'
  have bnd : ∀ p ∈ P, 1 ≤ p.1 ∧ p.1 ≤ 20 := by
    intro p hp
    have := (perm.mem_iff).mp hp
    obtain ⟨q, hq⟩ := p
    exact h1 q (List.fst_mem_of_mem_zipIdx this)
  have total : space P = 2 ^ 32 := by
    rw [space_twenty fun p hp => (bnd p hp).2]
    have : (P.map fun q => 2 ^ (20 - q.1)).sum = (ls.map fun l => 2 ^ (20 - l)).sum := by
      rw [(perm.map _).sum_nat]
      have : (ls.zipIdx.map fun q => 2 ^ (20 - q.1)) = (ls.zipIdx.map Prod.fst).map fun l => 2 ^ (20 - l) := by
        rw [List.map_map]; rfl
      rw [this, List.zipIdx_map_fst]
    rw [this, h2]; norm_num
  have totalr : space P.reverse = 2 ^ 32 := by
    rw [← total]; exact ((List.reverse_perm P).map _).sum_nat
  have desc : P.reverse.Pairwise (fun p q => q.1 ≤ p.1) := by
    rw [List.pairwise_reverse]
    apply srt.imp
    intro p q; simp only [shorter, Bool.or_eq_true, Bool.and_eq_true, decide_eq_true_eq, beq_iff_eq]; omega
  have asg : assign P.reverse 0 32 = codes P.reverse 0 :=
    assign_codes (fun p hp => by have := bnd p (List.mem_reverse.mp hp); omega) desc (by rw [totalr, Nat.zero_add])
  have til : Tiled (codes P.reverse 0) 0 (2 ^ 32) := codes_tiled desc (by rw [totalr, Nat.zero_add])
  have ident : (codes P.reverse 0).mergeSort (fun a b => decide (a.code ≤ b.code)) = codes P.reverse 0 := by
    apply List.mergeSort_of_pairwise
    exact (tiled_sorted til).2.imp (by intro x y hxy; simpa using hxy)
  have len : (codes P.reverse 0).length = ls.length := by
    rw [codes_length, List.length_reverse, perm.length_eq, List.length_zipIdx]
  obtain ⟨t', b1, b2, b3, b4, b5⟩ := builds 32 (codes P.reverse 0) 0 (by omega) (by simpa using til)
    ⟨List.replicate ls.length ⟨none, none, 0, 0⟩, 0⟩ (by simp [len])
  refine ⟨t'.nodes, ?_, by rw [b3]; simp, fun v hv => ?_⟩
  · simp only [asg, ident, bind, Out.bind, b1]
  · have hmem : (ls[v], v) ∈ P := by
      rw [perm.mem_iff]
      rw [List.mk_mem_zipIdx_iff_getElem?]
      exact List.getElem?_eq_getElem hv
    obtain ⟨A, B, hAB⟩ := List.append_of_mem hmem
    have hc : (⟨0 + space B.reverse, ls[v], v⟩ : Code) ∈ codes P.reverse 0 := by
      rw [hAB, List.reverse_append, List.reverse_cons, List.append_assoc, List.singleton_append]
      exact codes_mem (p := (ls[v], v)) 0
    have := b5 t'.nodes (fun _ _ _ => rfl) _ hc
    simp only at this
    have strict : ∀ p q, shorter p q = true → p ≠ q → (p.1 < q.1 ∨ p.1 = q.1 ∧ p.2 < q.2) := by
      intro p q; obtain ⟨p1, p2⟩ := p; obtain ⟨q1, q2⟩ := q
      simp only [shorter, Bool.or_eq_true, Bool.and_eq_true, decide_eq_true_eq, beq_iff_eq, ne_eq, Prod.mk.injEq]; omega
    have str : P.Pairwise (fun p q => p.1 < q.1 ∨ p.1 = q.1 ∧ p.2 < q.2) :=
      (srt.and nd).imp (fun {p q} h => strict p q h.1 h.2)
    rw [hAB, List.pairwise_append, List.pairwise_cons] at str
    obtain ⟨_, ⟨s1, _⟩, s2⟩ := str
    have hS : codeNumber ls ls[v] v = (A.map fun q => 2 ^ (20 - q.1)).sum := by
      rw [codeNumber, ← ((perm.filter _).map _).sum_nat, hAB, List.filter_append]
      have f1 : A.filter (fun q => q.1 < ls[v] || (q.1 == ls[v] && q.2 < v)) = A := by
        rw [List.filter_eq_self]
        intro a ha
        have := s2 a ha (ls[v], v) (by simp)
        simpa using this
      have f2 : ((ls[v], v) :: B).filter (fun q => q.1 < ls[v] || (q.1 == ls[v] && q.2 < v)) = [] := by
        rw [List.filter_eq_nil_iff]
        intro a ha
        rcases List.mem_cons.mp ha with rfl | ha
        · simp
        · have := s1 a ha
          simp only [Bool.or_eq_true, Bool.and_eq_true, decide_eq_true_eq, beq_iff_eq]
          simp only at this
          omega
      rw [f1, f2, List.append_nil]
    have hb := bnd _ hmem
    simp only at hb
    have parts : space A + space B.reverse + 2 ^ (32 - ls[v]) = 2 ^ 32 := by
      rw [← total, hAB, space_append, space_cons, (show space B.reverse = space B from ((List.reverse_perm B).map _).sum_nat)]
      simp only
      ring
    have hw : word ⟨0 + space B.reverse, ls[v], v⟩ 32 = codeword ls v := by
      rw [word_eq, codeword]
      have g : ls.getD v 0 = ls[v] := by rw [List.getD_eq_getElem?_getD, List.getElem?_eq_getElem hv]; rfl
      simp only [g]
      rw [show 32 - (32 - ls[v]) = ls[v] by omega]
      apply List.map_congr_left
      intro i hi
      rw [List.mem_range] at hi
      rw [hS, Nat.zero_add]
      refine (complement hb.1 hb.2 rfl ?_ ?_ hi).symm
      · rw [← space_twenty (D := A) fun p hp => (bnd p (by rw [hAB]; simp [hp])).2, parts]
      · have dA : 2 ^ (32 - ls[v]) ∣ space A := space_dvd fun p hp => by
          have := s2 p hp (ls[v], v) (by simp)
          simp only at this
          omega
        have d32 : 2 ^ (32 - ls[v]) ∣ 2 ^ 32 := pow_dvd_pow 2 (Nat.sub_le _ _)
        rw [← parts, Nat.add_assoc] at d32
        have := (Nat.dvd_add_right dA).mp d32
        exact (Nat.dvd_add_left (dvd_refl _)).mp this
    rw [← hw]
    exact this

end Radolan.Bz
