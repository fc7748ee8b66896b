/- The inverse Burrows-Wheeler transform of package compress/bzip2 is a stable counting sort. -/
import Verif.Model.Bzip2
import Mathlib.Data.List.Count
import Mathlib.Data.Fintype.Card
import Mathlib.Data.Fintype.EquivFin
import Mathlib.Tactic.Linarith

namespace Radolan.Bz
open Go

theorem getD_of_lt {L : List Nat} {i : Nat} (h : i < L.length) : L.getD i 0 = L[i] := by
  simp [List.getD, List.getElem?_eq_getElem h]

/-- number of entries below `v` -/
def below (L : List Nat) (v : Nat) : Nat := L.countP (· < v)

/-- where the loop puts the link to entry `i` -/
def pos (L : List Nat) (i : Nat) : Nat := below L (L.getD i 0) + (L.take i).count (L.getD i 0)

theorem below_add_count (L : List Nat) (v : Nat) : below L v + L.count v = below L (v + 1) := by
  unfold below
  induction L with
  | nil => rfl
  | cons a l ih =>
    rw [List.countP_cons, List.countP_cons, List.count_cons, ← ih]
    simp only [decide_eq_true_eq, beq_iff_eq]
    rcases lt_trichotomy a v with h | h | h
    · rw [if_pos h, if_neg (by omega), if_pos (by omega)]; omega
    · rw [if_neg (by omega), if_pos h, if_pos (by omega)]; omega
    · rw [if_neg (by omega), if_neg (by omega), if_neg (by omega)]; omega

theorem below_mono (L : List Nat) {v w : Nat} (h : v ≤ w) : below L v ≤ below L w := by
  unfold below
  apply List.countP_mono_left
  intro x _ hx
  simp only [decide_eq_true_eq] at hx ⊢; omega

theorem take_succ_count {L : List Nat} {i : Nat} (hi : i < L.length) (v : Nat) :
    (L.take (i + 1)).count v = (L.take i).count v + if L.getD i 0 = v then 1 else 0 := by
  rw [List.take_succ_eq_append_getElem hi, List.count_append, getD_of_lt hi]
  simp [List.count_singleton]

theorem take_count_mono {L : List Nat} {i j : Nat} (h : i ≤ j) (v : Nat) : (L.take i).count v ≤ (L.take j).count v :=
  List.Sublist.count_le v (List.take_sublist_take_left h)

theorem pos_lt_next {L : List Nat} {i : Nat} (hi : i < L.length) : pos L i < below L (L.getD i 0 + 1) := by
  rw [← below_add_count]
  have h1 := take_succ_count hi (L.getD i 0)
  rw [if_pos rfl] at h1
  have h2 := List.Sublist.count_le (L.getD i 0) (List.take_sublist (i + 1) L)
  unfold pos; omega

theorem pos_lt_length {L : List Nat} {i : Nat} (hi : i < L.length) : pos L i < L.length :=
  lt_of_lt_of_le (pos_lt_next hi) List.countP_le_length

theorem pos_lt {L : List Nat} {i j : Nat} (hi : i < L.length)
    (h : L.getD i 0 < L.getD j 0 ∨ L.getD i 0 = L.getD j 0 ∧ i < j) : pos L i < pos L j := by
  rcases h with h | ⟨h1, h2⟩
  · calc pos L i < below L (L.getD i 0 + 1) := pos_lt_next hi
      _ ≤ below L (L.getD j 0) := below_mono L h
      _ ≤ pos L j := by unfold pos; omega
  · have a := take_succ_count hi (L.getD i 0)
    rw [if_pos rfl] at a
    have b := take_count_mono (L := L) (show i + 1 ≤ j from h2) (L.getD i 0)
    unfold pos; rw [← h1]; omega

theorem pos_order {L : List Nat} {i j : Nat} (hj : j < L.length) (h : pos L i < pos L j) :
    L.getD i 0 < L.getD j 0 ∨ L.getD i 0 = L.getD j 0 ∧ i < j := by
  by_contra hc
  have : i = j ∨ (L.getD j 0 < L.getD i 0 ∨ L.getD j 0 = L.getD i 0 ∧ j < i) := by omega
  rcases this with rfl | h'
  · omega
  · have := pos_lt hj h'; omega

theorem pos_inj {L : List Nat} {i j : Nat} (hi : i < L.length) (hj : j < L.length) (h : pos L i = pos L j) : i = j := by
  by_contra hc
  have : (L.getD i 0 < L.getD j 0 ∨ L.getD i 0 = L.getD j 0 ∧ i < j) ∨ (L.getD j 0 < L.getD i 0 ∨ L.getD j 0 = L.getD i 0 ∧ j < i) := by
    omega
  rcases this with h' | h'
  · have := pos_lt hi h'; omega
  · have := pos_lt hj h'; omega

/-- every position is reached -/
theorem pos_surj {L : List Nat} {j : Nat} (hj : j < L.length) : ∃ i, i < L.length ∧ pos L i = j := by
  have inj : Function.Injective (fun i : Fin L.length => (⟨pos L i, pos_lt_length i.2⟩ : Fin L.length)) := by
    intro a b h
    have := congrArg Fin.val h
    exact Fin.ext (pos_inj a.2 b.2 this)
  obtain ⟨i, hi⟩ := (Finite.injective_iff_surjective.mp inj) ⟨j, hj⟩
  exact ⟨i, i.2, congrArg Fin.val hi⟩

/-! ### the counters -/

theorem cumulate_get : ∀ (l : List Nat) (s b : Nat), b < l.length → (cumulate l s)[b]? = some (s + (l.take b).sum) := by
  intro l
  induction l with
  | nil => intro s b h; simp at h
  | cons x l ih =>
    intro s b h
    cases b with
    | zero => simp [cumulate]
    | succ b =>
      rw [cumulate, List.getElem?_cons_succ, ih (s + x) b (by simpa using h)]
      simp [Nat.add_assoc]

theorem cumulate_length : ∀ (l : List Nat) (s : Nat), (cumulate l s).length = l.length := by
  intro l
  induction l with
  | nil => intro _; rfl
  | cons x l ih => intro s; simp [cumulate, ih]

theorem counts_sum (L : List Nat) (b : Nat) (hb : b ≤ 256) : ((counts L).take b).sum = below L b := by
  induction b with
  | zero => simp [below]
  | succ b ih =>
    have hl : b < (counts L).length := by simp [counts]; omega
    rw [List.take_succ_eq_append_getElem hl, List.sum_append, ih (by omega), ← below_add_count]
    simp [counts]

/-! ### the loop -/

/-- the state of the loop before entry `i` -/
structure Linked (L : List Nat) (i : Nat) (tt c : List Nat) : Prop where
  len : tt.length = L.length
  cnt : ∀ b, b < 256 → c[b]? = some (below L b + (L.take i).count b)
  done : ∀ j, j < i → j < L.length → tt[pos L j]? = some (L.getD (pos L j) 0 + 256 * j)
  todo : ∀ p, p < L.length → (∀ j, j < i → pos L j ≠ p) → tt[p]? = some (L.getD p 0)

theorem link_spec {L : List Nat} (hb : ∀ v ∈ L, v < 256) (hn : L.length < 2 ^ 24) : ∀ (k i : Nat) (tt c : List Nat), i + k = L.length →
    Linked L i tt c → ∃ tt' c', link k i tt c = .ok tt' ∧ Linked L L.length tt' c' := by
  intro k
  induction k with
  | zero => intro i tt c h hl; exact ⟨tt, c, rfl, by rw [show L.length = i by omega]; exact hl⟩
  | succ k ih =>
    intro i tt c h hl
    have hi : i < L.length := by omega
    have hbi : L.getD i 0 < 256 := by rw [getD_of_lt hi]; exact hb _ (List.getElem_mem hi)
    obtain ⟨x, hx, hxm⟩ : ∃ x, tt[i]? = some x ∧ x % 256 = L.getD i 0 := by
      by_cases hc : ∃ j, j < i ∧ pos L j = i
      · obtain ⟨j, h1, h2⟩ := hc
        have := hl.done j h1 (by omega)
        rw [h2] at this
        exact ⟨_, this, by omega⟩
      · have := hl.todo i hi (fun j h1 h2 => hc ⟨j, h1, h2⟩)
        exact ⟨_, this, by omega⟩
    have hp := hl.cnt _ hbi
    have hpos : below L (L.getD i 0) + (L.take i).count (L.getD i 0) = pos L i := rfl
    rw [hpos] at hp
    have hpl := pos_lt_length hi
    have hy := hl.todo (pos L i) hpl (fun j h1 h2 => by have := pos_inj (by omega) hi h2; omega)
    have hy256 : L.getD (pos L i) 0 < 256 := by rw [getD_of_lt hpl]; exact hb _ (List.getElem_mem hpl)
    have hor : L.getD (pos L i) 0 ||| (i <<< 8) % 2 ^ 32 = L.getD (pos L i) 0 + 256 * i := by
      have e : (i <<< 8) % 2 ^ 32 = i <<< 8 := by
        rw [Nat.shiftLeft_eq]; exact Nat.mod_eq_of_lt (by omega)
      rw [e, Nat.or_comm, ← Nat.shiftLeft_add_eq_or_of_lt (show L.getD (pos L i) 0 < 2 ^ 8 from hy256), Nat.shiftLeft_eq]
      omega
    have hci : L.getD i 0 < c.length := by
      by_contra hc
      rw [List.getElem?_eq_none (by omega)] at hp; simp at hp
    have step : link (k + 1) i tt c =
        link k (i + 1) (tt.set (pos L i) (L.getD (pos L i) 0 + 256 * i)) (c.set (L.getD i 0) (pos L i + 1)) := by
      rw [link]
      simp only [bind, Out.bind, index, hx, hxm, hp, hy, hor]
    rw [step]
    refine ih (i + 1) _ _ (by omega) ⟨by rw [List.length_set]; exact hl.len, ?_, ?_, ?_⟩
    · intro b hb'
      rw [take_succ_count hi]
      by_cases hbe : L.getD i 0 = b
      · subst hbe
        rw [List.getElem?_set_self hci, if_pos rfl, ← hpos, Nat.add_assoc]
      · rw [List.getElem?_set_ne hbe, if_neg hbe, hl.cnt b hb', Nat.add_zero]
    · intro j hj hjl
      by_cases hji : j = i
      · subst hji
        rw [List.getElem?_set_self (by rw [hl.len]; exact hpl)]
      · rw [List.getElem?_set_ne (fun hc => hji (pos_inj hjl hi hc.symm)), hl.done j (by omega) hjl]
    · intro p hp' hall
      rw [List.getElem?_set_ne (hall i (by omega)), hl.todo p hp' (fun j hj => hall j (by omega))]

/-- the table: every position holds its byte and the index of the entry that comes there in a stable sort -/
theorem inverseBWT_spec {L : List Nat} (hb : ∀ v ∈ L, v < 256) (hn : L.length < 2 ^ 24) {o : Nat} (ho : o < L.length) :
    ∃ (tt : List Nat) (P : Nat → Nat), tt.length = L.length ∧ (∀ j, j < L.length → P j < L.length ∧ pos L (P j) = j ∧
      tt[j]? = some (L.getD j 0 + 256 * P j)) ∧ inverseBWT L o (counts L) = .ok (tt, P o) := by
  have start : Linked L 0 L (cumulate (counts L) 0) := by
    refine ⟨rfl, ?_, fun j h => absurd h (by omega), fun p hp _ => ?_⟩
    · intro b hb'
      rw [cumulate_get _ _ _ (by simp [counts]; exact hb'), counts_sum L b (by omega)]
      simp
    · rw [List.getElem?_eq_getElem hp, getD_of_lt hp]
  obtain ⟨tt, c, h1, h2⟩ := link_spec hb hn L.length 0 L _ (by omega) start
  choose! P hP1 hP2 using fun j (hj : j < L.length) => pos_surj hj
  have hT : ∀ j, j < L.length → tt[j]? = some (L.getD j 0 + 256 * P j) := by
    intro j hj
    have := h2.done (P j) (hP1 j hj) (hP1 j hj)
    rwa [hP2 j hj] at this
  refine ⟨tt, P, h2.len, fun j hj => ⟨hP1 j hj, hP2 j hj, hT j hj⟩, ?_⟩
  have hbo : L.getD o 0 < 256 := by rw [getD_of_lt ho]; exact hb _ (List.getElem_mem ho)
  unfold inverseBWT
  simp only [bind, Out.bind, h1, index, hT o ho, Nat.shiftRight_eq_div_pow]
  rw [show (L.getD o 0 + 256 * P o) / 2 ^ 8 = P o by omega]

end Radolan.Bz
