/- The inverse Burrows-Wheeler transform restores the block. -/
import Verif.Lemmas.BzLink
import Verif.Spec.Bzip2
import Mathlib.Data.List.Sort

namespace Radolan.Bz
open Go Spec.Bzip2

/-- the block read along the links from position `p` on -/
inductive Chain (pre : List Nat) : Nat → Bytes → Prop
  | nil (p) : Chain pre p []
  | cons {p x v raw} : pre[p]? = some x → x % 256 = v.toNat → Chain pre (x >>> 8) raw → Chain pre p (v :: raw)

theorem dropLast_le : ∀ {a b : Bytes}, a.length = b.length → a ≤ b → a.dropLast ≤ b.dropLast := by
  intro a
  induction a with
  | nil => intro b h _; cases b with
    | nil => exact List.nil_le _
    | cons => simp at h
  | cons x a ih =>
    intro b h hle
    cases b with
    | nil => simp at h
    | cons y b =>
      rw [List.cons_le_cons_iff] at hle
      cases a with
      | nil => exact List.nil_le _
      | cons x' a =>
        cases b with
        | nil => simp at h
        | cons y' b =>
          rw [List.dropLast_cons_of_ne_nil (List.cons_ne_nil x' a), List.dropLast_cons_of_ne_nil (List.cons_ne_nil y' b), List.cons_le_cons_iff]
          rcases hle with h1 | ⟨h1, h2⟩
          · exact Or.inl h1
          · exact Or.inr ⟨h1, ih (by simpa using h) h2⟩

/-- one step to the right moves the last byte to the front -/
theorem rotr {r : Bytes} (h : r ≠ []) : r.rotate (r.length - 1) = r.getLastD 0 :: r.dropLast := by
  obtain ⟨l, a, rfl⟩ := List.eq_nil_or_concat r |>.resolve_left h
  rw [List.concat_eq_append, List.length_append, List.length_singleton, Nat.add_sub_cancel, List.rotate_append_length_eq, List.dropLast_concat]
  simp

theorem transformed_chain {s L : Bytes} {o : Nat} (h : Transformed s L o) (hn : s.length < 2 ^ 24) :
    L.length = s.length ∧ o < s.length ∧ ∃ tt p, inverseBWT (L.map UInt8.toNat) o (counts (L.map UInt8.toNat)) = .ok (tt, p) ∧
      tt.length = s.length ∧ Chain tt p s := by
  obtain ⟨R, hR, hsort, ho, rfl⟩ := h
  have hRl : R.length = s.length := by simpa using hR.length_eq
  have hoR : o < R.length := (List.getElem?_eq_some_iff.mp ho).1
  have hrow : ∀ r ∈ R, ∃ k, r = s.rotate k := by
    intro r hr
    obtain ⟨k, _, rfl⟩ := List.mem_map.mp (hR.mem_iff.mp hr)
    exact ⟨k, rfl⟩
  have hlen : ∀ r ∈ R, r.length = s.length := by
    intro r hr; obtain ⟨k, rfl⟩ := hrow r hr; simp
  refine ⟨by simp [hRl], by omega, ?_⟩
  generalize hL : ((R.map fun r => r.getLastD 0).map UInt8.toNat) = L
  have hLl : L.length = s.length := by rw [← hL]; simp [hRl]
  have hb : ∀ v ∈ L, v < 256 := by
    intro v hv; rw [← hL] at hv
    obtain ⟨u, _, rfl⟩ := List.mem_map.mp hv
    exact u.toNat_lt
  have hLget : ∀ j (hj : j < R.length), L.getD j 0 = (R[j].getLastD 0).toNat := by
    intro j hj
    rw [getD_of_lt (by omega)]
    simp [← hL]
  obtain ⟨tt, P, t1, t2, t3⟩ := inverseBWT_spec hb (by omega) (show o < L.length by omega)
  refine ⟨tt, P o, t3, by omega, ?_⟩
  have hPR : ∀ j, j < R.length → P j < R.length := fun j hj => by have := (t2 j (by omega)).1; omega
  have hn0 : 0 < s.length := by omega
  -- the rows, each one step to the right, in the order of the links
  let Q : List Bytes := (List.range R.length).map fun j => (R.getD (P j) []).rotate (s.length - 1)
  have hperm : Q.Perm R := by
    have p1 : ((List.range R.length).map P).Perm (List.range R.length) := by
      apply List.Perm.symm
      apply List.Subperm.perm_of_length_le _ (by simp)
      apply List.nodup_range.subperm
      intro i hi
      have hi := List.mem_range.mp hi
      refine List.mem_map.mpr ⟨pos L i, List.mem_range.mpr ?_, ?_⟩
      · have := pos_lt_length (L := L) (i := i) (by omega); omega
      · have hp : pos L i < L.length := pos_lt_length (by omega)
        obtain ⟨q1, q2, _⟩ := t2 _ hp
        exact pos_inj q1 (by omega) q2
    have p2 : (List.range R.length).map (fun i => R.getD i []) = R := by
      apply List.ext_getElem (by simp)
      intro i h1 h2
      simp [List.getD, List.getElem?_eq_getElem h2]
    have p3 : Q.Perm (R.map fun r => r.rotate (s.length - 1)) := by
      have e : Q = (((List.range R.length).map P).map (fun i => R.getD i [])).map (fun r => r.rotate (s.length - 1)) := by
        simp [Q, List.map_map, Function.comp_def]
      rw [e]
      refine List.Perm.map _ ?_
      have := p1.map (fun i => R.getD i [])
      rwa [p2] at this
    refine p3.trans ?_
    refine (hR.map _).trans (List.Perm.trans ?_ hR.symm)
    rw [List.map_map]
    have e : ((fun r : Bytes => r.rotate (s.length - 1)) ∘ s.rotate) = s.rotate ∘ fun k => (k + (s.length - 1)) % s.length := by
      funext k
      simp only [Function.comp]
      rw [List.rotate_rotate, List.rotate_mod]
    rw [e, ← List.map_map]
    refine List.Perm.map _ ?_
    apply List.Perm.symm
    apply List.Subperm.perm_of_length_le _ (by simp)
    apply List.nodup_range.subperm
    intro i hi
    have hi := List.mem_range.mp hi
    refine List.mem_map.mpr ⟨(i + 1) % s.length, List.mem_range.mpr (Nat.mod_lt _ hn0), ?_⟩
    rw [Nat.mod_add_mod, show i + 1 + (s.length - 1) = i + s.length by omega, Nat.add_mod_right, Nat.mod_eq_of_lt hi]
  have hget : ∀ j (hj : j < R.length), R.getD (P j) [] = R[P j]'(hPR j hj) := by
    intro j hj; simp [List.getD, List.getElem?_eq_getElem (hPR j hj)]
  have hQsort : Q.Pairwise (· ≤ ·) := by
    rw [List.pairwise_map]
    refine List.Pairwise.imp_of_mem ?_ List.pairwise_lt_range
    intro i j hi hj hij
    have hi := List.mem_range.mp hi
    have hj := List.mem_range.mp hj
    rw [hget i hi, hget j hj]
    have l1 := hlen _ (List.getElem_mem (hPR i hi))
    have l2 := hlen _ (List.getElem_mem (hPR j hj))
    have n1 : R[P i]'(hPR i hi) ≠ [] := by intro hc; rw [hc] at l1; simp at l1; omega
    have n2 : R[P j]'(hPR j hj) ≠ [] := by intro hc; rw [hc] at l2; simp at l2; omega
    have r1 := rotr n1
    have r2 := rotr n2
    rw [l1] at r1
    rw [l2] at r2
    rw [r1, r2, List.cons_le_cons_iff]
    obtain ⟨q1, q2, _⟩ := t2 i (by omega)
    obtain ⟨q3, q4, _⟩ := t2 j (by omega)
    have ord := pos_order (L := L) (i := P i) (j := P j) q3 (by omega)
    rw [hLget _ (hPR i hi), hLget _ (hPR j hj)] at ord
    rcases ord with h1 | ⟨h1, h2⟩
    · exact Or.inl (UInt8.lt_iff_toNat_lt.mpr h1)
    · refine Or.inr ⟨UInt8.toNat_inj.mp h1, dropLast_le (by omega) ?_⟩
      exact List.pairwise_iff_getElem.mp hsort _ _ _ _ h2
  have hQR : Q = R := by
    apply hperm.eq_of_pairwise _ hQsort hsort
    intro a b _ _ h1 h2
    exact List.le_antisymm h1 h2
  have next : ∀ j (hj : j < R.length), R[P j]'(hPR j hj) = (R[j]).rotate 1 := by
    intro j hj
    have e : R[j] = (R[P j]'(hPR j hj)).rotate (s.length - 1) := by
      have : Q[j]'(by simp [Q]; exact hj) = R[j] := by simp only [hQR]
      rw [← this]
      simp [Q, List.getD, List.getElem?_eq_getElem (hPR j hj)]
    rw [e, List.rotate_rotate, show s.length - 1 + 1 = s.length by omega]
    have := hlen _ (List.getElem_mem (hPR j hj))
    rw [← this, List.rotate_length]
  have hoe : R[o] = s := by rw [List.getElem?_eq_getElem hoR] at ho; exact Option.some.inj ho
  -- along the links
  have chain : ∀ (k t q : Nat), t + k = s.length → ∀ hq : q < R.length, R[q] = s.rotate (t + 1) → Chain tt q (s.drop t) := by
    intro k
    induction k with
    | zero => intro t q ht _ _; rw [List.drop_of_length_le (by omega)]; exact .nil q
    | succ k ih =>
      intro t q ht hq he
      have htl : t < s.length := by omega
      rw [List.drop_eq_getElem_cons htl]
      obtain ⟨q1, _, q3⟩ := t2 q (by omega)
      have hlast : L.getD q 0 = s[t].toNat := by
        rw [hLget q hq, he, List.rotate_eq_drop_append_take (by omega), List.take_succ_eq_append_getElem htl, ← List.append_assoc,
          List.getLastD_concat]
      have h256 : L.getD q 0 < 256 := by rw [hlast]; exact s[t].toNat_lt
      refine .cons q3 (by omega) ?_
      have : (L.getD q 0 + 256 * P q) >>> 8 = P q := by rw [Nat.shiftRight_eq_div_pow]; omega
      rw [this]
      exact ih (t + 1) (P q) (by omega) (hPR q hq) (by rw [next q hq, he, List.rotate_rotate])
  have := chain s.length 0 (P o) (by omega) (hPR o hoR) (by rw [next o hoR, hoe])
  simpa using this

end Radolan.Bz
