/- The Huffman trees of package compress/bzip2 decode canonical codes. -/
import Verif.Model.Bzip2
import Mathlib.Tactic.Linarith
import Mathlib.Tactic.Ring
import Mathlib.Data.List.Basic

namespace Radolan.Bz
open Go

/-! ### decoding along a path -/

/-- the bits `w` lead from node `i` to the symbol `v` -/
inductive Path (nodes : List Node) : Nat → List Bool → Nat → Prop
  | leafL {i nd} : nodes[i]? = some nd → nd.left = none → Path nodes i [true] nd.leftValue
  | leafR {i nd} : nodes[i]? = some nd → nd.right = none → Path nodes i [false] nd.rightValue
  | stepL {i nd j w v} : nodes[i]? = some nd → nd.left = some j → Path nodes j w v → Path nodes i (true :: w) v
  | stepR {i nd j w v} : nodes[i]? = some nd → nd.right = some j → Path nodes j w v → Path nodes i (false :: w) v

theorem readBits_one (b : Bool) (r : List Bool) (f : IOErr) (e : Option IOErr) :
    readBits 1 ⟨b :: r, f, e⟩ = (b.toNat, ⟨r, f, e⟩) := by
  unfold readBits
  rw [if_pos (by simp)]
  cases b <;> rfl

theorem decode_path {nodes : List Node} {i : Nat} {w : List Bool} {v : Nat} (h : Path nodes i w v) :
    ∀ (fuel : Nat) (r : List Bool) (f : IOErr) (e : Option IOErr), w.length ≤ fuel →
      decode nodes fuel i ⟨w ++ r, f, e⟩ = .ok (v, ⟨r, f, e⟩) := by
  induction h with
  | leafL h1 h2 =>
    intro fuel r f e hf
    obtain ⟨m, rfl⟩ : ∃ m, fuel = m + 1 := ⟨fuel - 1, by simp at hf; omega⟩
    rw [List.singleton_append, decode, h1]
    simp only [readBits_one, Bool.toNat_true, if_true, h2]
  | leafR h1 h2 =>
    intro fuel r f e hf
    obtain ⟨m, rfl⟩ : ∃ m, fuel = m + 1 := ⟨fuel - 1, by simp at hf; omega⟩
    rw [List.singleton_append, decode, h1]
    simp [readBits_one, h2]
  | stepL h1 h2 _ ih =>
    intro fuel r f e hf
    obtain ⟨m, rfl⟩ : ∃ m, fuel = m + 1 := ⟨fuel - 1, by simp at hf; omega⟩
    rw [List.cons_append, decode, h1]
    simp only [readBits_one, Bool.toNat_true, if_true, h2]
    exact ih m r f e (by simpa using hf)
  | stepR h1 h2 _ ih =>
    intro fuel r f e hf
    obtain ⟨m, rfl⟩ : ∃ m, fuel = m + 1 := ⟨fuel - 1, by simp at hf; omega⟩
    rw [List.cons_append, decode, h1]
    simp only [readBits_one, Bool.toNat_false, zero_ne_one, if_false, h2]
    exact ih m r f e (by simpa using hf)

/-! ### building the tree -/

/-- the codes fill the numbers from `a` to `b` -/
def Tiled : List Code → Nat → Nat → Prop
  | [], a, b => a = b
  | c :: l, a, b => c.code = a ∧ 2 ^ (32 - c.len) ∣ a ∧ Tiled l (a + 2 ^ (32 - c.len)) b

theorem Tiled.le {l : List Code} : ∀ {a b}, Tiled l a b → a ≤ b := by
  induction l with
  | nil => intro a b h; exact le_of_eq h
  | cons c l ih => intro a b h; exact le_trans (Nat.le_add_right _ _) (ih h.2.2)

theorem Tiled.lt {c : Code} {l : List Code} {a b} (h : Tiled (c :: l) a b) : a < b := by
  have := Tiled.le h.2.2
  have : 0 < 2 ^ (32 - c.len) := by positivity
  omega

/-- the bits of a code from bit `k` on, from the upper to the lowest of its length -/
def word (c : Code) : Nat → List Bool
  | 0 => []
  | k + 1 => if k + 1 ≤ 32 - c.len then [] else (!c.code.testBit k) :: word c k

theorem testBit_low {x a k : Nat} (h1 : a * 2 ^ (k + 1) ≤ x) (h2 : x < a * 2 ^ (k + 1) + 2 ^ k) : x.testBit k = false := by
  have : x / 2 ^ k = 2 * a := by
    apply Nat.div_eq_of_lt_le
    · calc 2 * a * 2 ^ k = a * 2 ^ (k + 1) := by ring
        _ ≤ x := h1
    · calc x < a * 2 ^ (k + 1) + 2 ^ k := h2
        _ = (2 * a + 1) * 2 ^ k := by ring
  rw [Nat.testBit_eq_decide_div_mod_eq, this]; simp

theorem testBit_high {x a k : Nat} (h1 : a * 2 ^ (k + 1) + 2 ^ k ≤ x) (h2 : x < (a + 1) * 2 ^ (k + 1)) : x.testBit k = true := by
  have : x / 2 ^ k = 2 * a + 1 := by
    apply Nat.div_eq_of_lt_le
    · calc (2 * a + 1) * 2 ^ k = a * 2 ^ (k + 1) + 2 ^ k := by ring
        _ ≤ x := h1
    · calc x < (a + 1) * 2 ^ (k + 1) := h2
        _ = (2 * a + 1 + 1) * 2 ^ k := by ring
  rw [Nat.testBit_eq_decide_div_mod_eq, this]
  rw [decide_eq_true_eq]; omega

/-- codes that fill an interval of two halves fill each half -/
theorem split_tiles {k m : Nat} : ∀ {l : List Code} {a : Nat}, Tiled l a ((m + 1) * 2 ^ (k + 1)) → m * 2 ^ (k + 1) ≤ a →
    a ≤ m * 2 ^ (k + 1) + 2 ^ k → (∀ c ∈ l, 32 - c.len ≤ k) →
    Tiled (l.takeWhile fun c => !c.code.testBit k) a (m * 2 ^ (k + 1) + 2 ^ k) ∧
    Tiled (l.dropWhile fun c => !c.code.testBit k) (m * 2 ^ (k + 1) + 2 ^ k) ((m + 1) * 2 ^ (k + 1)) := by
  intro l
  induction l with
  | nil =>
    intro a h h1 h2 _
    have h : a = (m + 1) * 2 ^ (k + 1) := h
    have e : (m + 1) * 2 ^ (k + 1) = m * 2 ^ (k + 1) + 2 ^ k + 2 ^ k := by ring
    have : 0 < 2 ^ k := by positivity
    omega
  | cons c l ih =>
    intro a h h1 h2 hl
    have e : (m + 1) * 2 ^ (k + 1) = m * 2 ^ (k + 1) + 2 ^ k + 2 ^ k := by ring
    have hp : 0 < 2 ^ k := by positivity
    have hlt := Tiled.lt h
    obtain ⟨c1, c2, c3⟩ := h
    by_cases hc : a < m * 2 ^ (k + 1) + 2 ^ k
    · have hb : c.code.testBit k = false := by rw [c1]; exact testBit_low h1 hc
      rw [List.takeWhile_cons_of_pos (by simp [hb]), List.dropWhile_cons_of_pos (by simp [hb])]
      have hk := hl c (by simp)
      have hle : a + 2 ^ (32 - c.len) ≤ m * 2 ^ (k + 1) + 2 ^ k := by
        obtain ⟨q, hq⟩ := c2
        have e2 : m * 2 ^ (k + 1) + 2 ^ k = 2 ^ (32 - c.len) * ((2 * m + 1) * 2 ^ (k - (32 - c.len))) := by
          have : 2 ^ k = 2 ^ (32 - c.len) * 2 ^ (k - (32 - c.len)) := by rw [← pow_add]; congr 1; omega
          calc m * 2 ^ (k + 1) + 2 ^ k = (2 * m + 1) * 2 ^ k := by ring
            _ = (2 * m + 1) * (2 ^ (32 - c.len) * 2 ^ (k - (32 - c.len))) := by rw [this]
            _ = _ := by ring
        rw [e2, hq] at hc ⊢
        have := Nat.lt_of_mul_lt_mul_left hc
        calc 2 ^ (32 - c.len) * q + 2 ^ (32 - c.len) = 2 ^ (32 - c.len) * (q + 1) := by ring
          _ ≤ _ := Nat.mul_le_mul_left _ this
      obtain ⟨i1, i2⟩ := ih c3 (by omega) hle (fun c hc => hl c (by simp [hc]))
      exact ⟨⟨c1, c2, i1⟩, i2⟩
    · have hae : a = m * 2 ^ (k + 1) + 2 ^ k := by omega
      have hb : c.code.testBit k = true := by rw [c1]; exact testBit_high (by omega) hlt
      rw [List.takeWhile_cons_of_neg (by simp [hb]), List.dropWhile_cons_of_neg (by simp [hb])]
      exact ⟨hae, by rw [← hae]; exact ⟨c1, c2, c3⟩⟩

theorem Tiled.size {l : List Code} : ∀ {a b}, Tiled l a b → ∀ c ∈ l, a + 2 ^ (32 - c.len) ≤ b ∧
    (2 ≤ l.length → a + 2 ^ (32 - c.len) < b) := by
  induction l with
  | nil => intro a b _ c hc; simp at hc
  | cons d l ih =>
    intro a b h c hc
    have hle := Tiled.le h.2.2
    have hp : 0 < 2 ^ (32 - d.len) := by positivity
    rcases List.mem_cons.mp hc with rfl | hc
    · refine ⟨hle, fun h2 => ?_⟩
      cases l with
      | nil => simp at h2
      | cons e l => exact Tiled.lt h.2.2
    · obtain ⟨i1, _⟩ := ih h.2.2 c hc
      exact ⟨by omega, fun _ => by omega⟩

theorem word_leaf {c : Code} {k : Nat} (h : 32 - c.len = k) : word c k = [] := by
  cases k with
  | zero => rfl
  | succ k => rw [word, if_pos (by omega)]

/-- what `buildHuffmanNode` promises -/
def Builds (k : Nat) : Prop :=
  ∀ (l : List Code) (m : Nat), 2 ≤ l.length → Tiled l (m * 2 ^ k) ((m + 1) * 2 ^ k) → ∀ t : Tree, t.next + l.length ≤ t.nodes.length + 1 →
    ∃ t', build k l t = .ok (t.next, t') ∧ t'.next + 1 = t.next + l.length ∧ t'.nodes.length = t.nodes.length ∧
      (∀ i, i < t.next → t'.nodes[i]? = t.nodes[i]?) ∧
      ∀ ns : List Node, (∀ i, t.next ≤ i → i < t'.next → ns[i]? = t'.nodes[i]?) → ∀ c ∈ l, Path ns t.next (word c k) c.value

theorem child_spec {k : Nat} (ih : Builds k) {l : List Code} {m : Nat} (hl : l ≠ []) (ht : Tiled l (m * 2 ^ k) ((m + 1) * 2 ^ k))
    {t : Tree} (hn : t.next + l.length ≤ t.nodes.length + 1) :
    ∃ x t', child (build k) l t = .ok (x, t') ∧ t'.next + 1 = t.next + l.length ∧ t'.nodes.length = t.nodes.length ∧
      (∀ i, i < t.next → t'.nodes[i]? = t.nodes[i]?) ∧
      ∀ ns : List Node, (∀ i, t.next ≤ i → i < t'.next → ns[i]? = t'.nodes[i]?) → ∀ c ∈ l,
        (x.1 = none ∧ word c k = [] ∧ x.2 = c.value) ∨ ∃ j, x.1 = some j ∧ Path ns j (word c k) c.value := by
  match l, hl with
  | [c], _ =>
    refine ⟨(none, c.value), t, rfl, by simp, rfl, fun _ _ => rfl, fun ns _ c' hc' => ?_⟩
    rw [List.mem_singleton] at hc'
    subst hc'
    refine Or.inl ⟨rfl, word_leaf ?_, rfl⟩
    obtain ⟨_, _, h3⟩ := ht
    have h3 : m * 2 ^ k + 2 ^ (32 - c'.len) = (m + 1) * 2 ^ k := h3
    have : 2 ^ (32 - c'.len) = 2 ^ k := by
      have e : (m + 1) * 2 ^ k = m * 2 ^ k + 2 ^ k := by ring
      omega
    exact Nat.pow_right_injective (le_refl 2) this
  | c :: d :: l, _ =>
    obtain ⟨t', h1, h2, h3, h4, h5⟩ := ih (c :: d :: l) m (by simp) ht t hn
    refine ⟨(some t.next, 0), t', ?_, h2, h3, h4, fun ns hns c' hc' => Or.inr ⟨t.next, rfl, h5 ns hns c' hc'⟩⟩
    simp only [child, bind, Out.bind, h1]

theorem builds : ∀ k, Builds k := by
  intro k
  induction k with
  | zero =>
    intro l m h2 ht
    exfalso
    match l, h2 with
    | c :: l, h2 =>
      have := (Tiled.size ht c (by simp)).2 h2
      have hp : 0 < 2 ^ (32 - c.len) := by positivity
      simp only [pow_zero, Nat.mul_one] at this
      omega
  | succ k ih =>
    intro l m h2 ht t hn
    have small : ∀ c ∈ l, 32 - c.len ≤ k := by
      intro c hc
      have h := (Tiled.size ht c hc).2 h2
      have e : (m + 1) * 2 ^ (k + 1) = m * 2 ^ (k + 1) + 2 ^ (k + 1) := by ring
      have h : 2 ^ (32 - c.len) < 2 ^ (k + 1) := by omega
      have := (Nat.pow_lt_pow_iff_right (le_refl 2)).mp h
      omega
    have hp : 0 < 2 ^ k := by positivity
    obtain ⟨tl, tr⟩ := split_tiles ht (le_refl _) (by omega) small
    have bitL : ∀ c ∈ l.takeWhile (fun c => !c.code.testBit k), c.code.testBit k = false := by
      clear tl tr small
      clear ht hn h2
      induction l with
      | nil => intro c hc; simp at hc
      | cons d l ihl =>
        intro c hc
        cases hd : d.code.testBit k with
        | true => rw [List.takeWhile_cons_of_neg (by simp [hd])] at hc; simp at hc
        | false =>
          rw [List.takeWhile_cons_of_pos (by simp [hd])] at hc
          rcases List.mem_cons.mp hc with rfl | hc
          · exact hd
          · exact ihl c hc
    have bitR : ∀ c ∈ l.dropWhile (fun c => !c.code.testBit k), c.code.testBit k = true := by
      generalize hr : l.dropWhile (fun c => !c.code.testBit k) = r at tr
      clear hr
      have : ∀ (r : List Code) (a : Nat), Tiled r a ((m + 1) * 2 ^ (k + 1)) → m * 2 ^ (k + 1) + 2 ^ k ≤ a → ∀ c ∈ r, c.code.testBit k = true := by
        intro r
        induction r with
        | nil => intro a _ _ c hc; simp at hc
        | cons d r ihr =>
          intro a h ha c hc
          rcases List.mem_cons.mp hc with rfl | hc
          · rw [h.1]; exact testBit_high ha (Tiled.lt h)
          · exact ihr _ h.2.2 (le_trans ha (Nat.le_add_right _ _)) c hc
      exact this r _ tr (le_refl _)
    have app : l.takeWhile (fun c => !c.code.testBit k) ++ l.dropWhile (fun c => !c.code.testBit k) = l := List.takeWhile_append_dropWhile
    have e1 : 2 * m * 2 ^ k = m * 2 ^ (k + 1) := by ring
    have e2 : (2 * m + 1) * 2 ^ k = m * 2 ^ (k + 1) + 2 ^ k := by ring
    have e3 : (2 * m + 1 + 1) * 2 ^ k = (m + 1) * 2 ^ (k + 1) := by ring
    have tl' : Tiled (l.takeWhile fun c => !c.code.testBit k) (2 * m * 2 ^ k) ((2 * m + 1) * 2 ^ k) := by rw [e1, e2]; exact tl
    have tr' : Tiled (l.dropWhile fun c => !c.code.testBit k) ((2 * m + 1) * 2 ^ k) ((2 * m + 1 + 1) * 2 ^ k) := by rw [e2, e3]; exact tr
    clear tl tr
    have tl := tl'
    have tr := tr'
    clear tl' tr'
    generalize hL : l.takeWhile (fun c => !c.code.testBit k) = L at *
    generalize hR : l.dropWhile (fun c => !c.code.testBit k) = R at *
    have nL : L ≠ [] := by
      rintro rfl
      have : 2 * m * 2 ^ k = (2 * m + 1) * 2 ^ k := tl
      rw [e1, e2] at this; omega
    have nR : R ≠ [] := by
      rintro rfl
      have : (2 * m + 1) * 2 ^ k = (2 * m + 1 + 1) * 2 ^ k := tr
      have e4 : (2 * m + 1 + 1) * 2 ^ k = (2 * m + 1) * 2 ^ k + 2 ^ k := by ring
      omega
    have lenL : 0 < L.length := List.length_pos_iff.mpr nL
    have lenR : 0 < R.length := List.length_pos_iff.mpr nR
    have lenlr : L.length + R.length = l.length := by rw [← app, List.length_append]
    obtain ⟨x, t1, a1, a2, a3, a4, a5⟩ := child_spec ih nL tl (t := ⟨t.nodes, t.next + 1⟩) (by simp only; omega)
    obtain ⟨y, t2, b1, b2, b3, b4, b5⟩ := child_spec ih nR tr (t := t1) (by simp only at a2 a3; omega)
    simp only at a2 a3 a4 a5
    refine ⟨⟨t2.nodes.set t.next ⟨x.1, y.1, x.2, y.2⟩, t2.next⟩, ?_, by simp only; omega, by simp only [List.length_set]; omega, ?_, ?_⟩
    · rw [build]
      simp only [hL, hR]
      rw [if_neg (by simp [nL, nR])]
      rw [if_neg (by omega)]
      simp only [bind, Out.bind, a1, b1]
    · intro i hi
      simp only
      rw [List.getElem?_set_ne (by omega), b4 i (by omega), a4 i (by omega)]
    · intro ns hns c hc
      simp only at hns
      have hroot : ns[t.next]? = some ⟨x.1, y.1, x.2, y.2⟩ := by
        rw [hns t.next (le_refl _) (by omega), List.getElem?_set_self (by omega)]
      have hin : ∀ i, t.next + 1 ≤ i → i < t2.next → ns[i]? = t2.nodes[i]? := by
        intro i h1 h2
        rw [hns i (by omega) h2, List.getElem?_set_ne (by omega)]
      rw [word, if_neg (by have := small c hc; omega)]
      rw [← app] at hc
      rcases List.mem_append.mp hc with hc | hc
      · rw [bitL c hc]
        rcases a5 ns (fun i h1 h2 => by rw [hin i h1 (by omega), b4 i h2]) c hc with ⟨q1, q2, q3⟩ | ⟨j, q1, q2⟩
        · rw [q2, ← q3]; exact .leafL hroot q1
        · exact .stepL hroot q1 q2
      · rw [bitR c hc]
        rcases b5 ns (fun i h1 h2 => hin i (by omega) h2) c hc with ⟨q1, q2, q3⟩ | ⟨j, q1, q2⟩
        · rw [q2, ← q3]; exact .leafR hroot q1
        · exact .stepR hroot q1 q2

end Radolan.Bz
