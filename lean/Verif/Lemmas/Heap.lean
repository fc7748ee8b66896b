/- The memory layout of a composite. -/
import Verif.Model.Heap
import Verif.Lemmas.Composite

namespace Radolan.Heap
open Go

theorem allocLoop_eq (w n i : Nat) (m : Mem) (h : m.arr.length = i)
    (hh : m.hdr = (List.range i).map some ++ List.replicate n none) (ha : ∀ r ∈ m.arr, r.length = w) :
    (allocLoop w n i m).hdr = (List.range (i + n)).map some ∧ (allocLoop w n i m).arr.length = i + n ∧
      ∀ r ∈ (allocLoop w n i m).arr, r.length = w := by
  induction n generalizing i m with
  | zero => simp only [allocLoop]; simp [hh, h]; exact ha
  | succ n ih =>
    unfold allocLoop
    have := ih (i + 1) ⟨m.hdr.set i (some m.arr.length), m.arr ++ [List.replicate w Fl.zero]⟩ (by simp [h]) (by
      simp only
      rw [hh, h, List.set_append_right _ _ (by simp)]
      simp [List.replicate_succ, List.range_succ]) (by
      simp only [List.mem_append, List.mem_singleton]
      rintro r (hr | rfl)
      · exact ha r hr
      · simp)
    rw [show i + 1 + n = i + (n + 1) by omega] at this
    exact this

theorem row_range {m : Mem} {n : Nat} (h : m.hdr = (List.range n).map some) (s : Win) (i : Nat) (hn : s.off + s.len ≤ n) :
    m.row s i = if i < s.len then some (s.off + i) else none := by
  unfold Mem.row
  split
  · rw [h]; simp [List.getElem?_range (show s.off + i < n by omega)]
  · rfl

theorem load_range {m : Mem} {n : Nat} (h : m.hdr = (List.range n).map some) (s : Win) (i x : Nat) (hn : s.off + s.len ≤ n) :
    m.load s i x = if i < s.len then (m.arr[s.off + i]?).bind (·[x]?) else none := by
  unfold Mem.load
  rw [row_range h s i hn]
  split <;> rfl

theorem fill_eq {n : Nat} (i : Nat) (rs : List (List F32)) (m : Mem) (h : m.hdr = (List.range n).map some)
    (hl : m.arr.length = n) (hi : i + rs.length = n) :
    (fill ⟨0, n, n⟩ i rs m).hdr = m.hdr ∧ (fill ⟨0, n, n⟩ i rs m).arr = m.arr.take i ++ rs := by
  induction rs generalizing i m with
  | nil => simp only [fill]; simp at hi; simp [← hl] at hi ⊢; omega
  | cons r rs ih =>
    simp only [List.length_cons] at hi
    have hrow := row_range h ⟨0, n, n⟩ i (by simp)
    simp only [Nat.zero_add] at hrow
    rw [if_pos (by omega)] at hrow
    unfold fill
    rw [hrow]
    have := ih (i + 1) { m with arr := m.arr.set i r } h (by simpa using hl) (by omega)
    refine ⟨this.1, ?_⟩
    simp only at this ⊢
    rw [this.2]
    rw [List.take_add_one]
    simp [List.take_set, hl, show i < n by omega, List.set_eq_of_length_le]

theorem layers_eq (py dy n i : Nat) (hlen : dy * (i + n) ≤ py) (hb : py < 2 ^ 63) :
    layers ⟨0, py, py⟩ dy n i
      = some ((List.range' i n).map fun i => ⟨dy * i, dy, py - dy * i⟩) := by
  induction n generalizing i with
  | zero => simp [layers]
  | succ n ih =>
    unfold layers
    have e1 : dy * (i + 1) ≤ py := le_trans (Nat.mul_le_mul_left _ (by omega)) hlen
    have e0 : dy * i ≤ dy * (i + 1) := Nat.mul_le_mul_left _ (by omega)
    have e2 : dy * (i + 1) = dy * i + dy := by ring
    obtain ⟨q, hq⟩ : ∃ q, q = dy * i := ⟨_, rfl⟩
    rw [← hq] at e0 e2
    have w1 : wrap64 ((dy : Int) * i) = (q : Int) := by
      rw [← Int.natCast_mul, ← hq]
      exact wrap64_id (by omega) (by omega)
    have w2 : wrap64 ((dy : Int) * (i + 1)) = ((q + dy : Nat) : Int) := by
      rw [← Int.natCast_succ, ← Int.natCast_mul, Nat.succ_eq_add_one, e2]
      exact wrap64_id (by omega) (by omega)
    rw [ih (i + 1) (by rw [show i + 1 + n = i + (n + 1) by omega]; exact hlen), w1, w2]
    unfold Win.slice
    rw [if_pos (by simp only; omega)]
    simp [List.range'_succ, ← hq]

/-- where a layer begins -/
def start (py dy z : Nat) : Nat := if py % dy = 0 then dy * z else py - dy

theorem arrange_eq (py dy : Nat) (h1 : 0 < dy) (h2 : dy ≤ py) (h3 : py * 24 ≤ 2 ^ 48) :
    ∃ v, arrange py dy ⟨0, py, py⟩ = some v ∧ v.plain = ⟨0, py, py⟩ ∧
      v.dataZ = (List.range (if py % dy = 0 then py / dy else 1)).map
        (fun z => ⟨start py dy z, dy, py - start py dy z⟩) ∧ v.data = ⟨start py dy 0, dy, py - start py dy 0⟩ := by
  unfold arrange
  rw [if_neg (by omega)]
  have htm : (py : Int).tmod (dy : Int) = ((py % dy : Nat) : Int) := by
    rw [Int.tmod_eq_emod_of_nonneg (by omega)]; simp
  have htd : (py : Int).tdiv (dy : Int) = ((py / dy : Nat) : Int) := by
    rw [Int.tdiv_eq_ediv_of_nonneg (by omega)]; simp
  rw [htm, htd]
  unfold start
  by_cases hm : py % dy = 0
  · rw [if_pos (by exact_mod_cast hm), if_pos hm]
    have hdv : py / dy ≤ py := Nat.div_le_self _ _
    have hmk : makeOK 24 ((py / dy : Nat) : Int) = true := makeOK_iff.mpr ⟨by positivity, by omega⟩
    have hpos : 1 ≤ py / dy := (Nat.one_le_div_iff (by omega)).mpr (by omega)
    rw [hmk]
    simp only [Bool.not_true, Bool.false_eq_true, if_false, Int.toNat_natCast, hm, if_true]
    rw [layers_eq py dy (py / dy) 0 (by rw [Nat.zero_add]; exact Nat.mul_div_le _ _) (by omega), ← List.range_eq_range']
    simp only [Option.bind_eq_bind, Option.bind_some, List.getElem?_map, List.getElem?_range (show 0 < py / dy by omega),
      Option.map_some]
    exact ⟨_, rfl, rfl, rfl, rfl⟩
  · rw [if_neg (by exact_mod_cast hm), if_neg hm]
    have hw : wrap64 ((py : Int) - dy) = ((py - dy : Nat) : Int) := by
      rw [wrap64_id] <;> omega
    rw [hw]
    unfold Win.slice
    rw [if_pos (by simp only; omega)]
    simp only [hm, if_false, Option.bind_eq_bind, Option.bind_some, List.getElem?_cons_zero]
    refine ⟨_, rfl, rfl, ?_, ?_⟩
    · simp; omega
    · simp; omega

/-- the layout of a composite -/
structure Layout (py dy px : Nat) (rows : List (List F32)) (m : Mem) (v : View) : Prop where
  hdr : m.hdr = (List.range py).map some
  arr : m.arr = rows
  plain : v.plain = ⟨0, py, py⟩
  dataZ : v.dataZ = (List.range (if py % dy = 0 then py / dy else 1)).map
        (fun z => ⟨start py dy z, dy, py - start py dy z⟩)
  data : v.data = ⟨start py dy 0, dy, py - start py dy 0⟩

theorem build_layout {c : Composite} (h1 : 0 < c.dy) (h2 : c.dy ≤ c.py) (h3 : c.py * 24 ≤ 2 ^ 48)
    (hl : c.plainData.length = c.py.toNat) :
    ∃ m v, build c = some (m, v) ∧ Layout c.py.toNat c.dy.toNat c.px.toNat c.plainData m v := by
  obtain ⟨dy, hdy⟩ : ∃ n : Nat, c.dy = n := ⟨c.dy.toNat, by omega⟩
  obtain ⟨py, hpy⟩ : ∃ n : Nat, c.py = n := ⟨c.py.toNat, by omega⟩
  unfold build alloc
  rw [hpy] at hl h3 h2 ⊢; rw [hdy] at h1 h2 ⊢
  simp only [Int.toNat_natCast] at hl ⊢
  obtain ⟨v, hv, p1, p2, p3⟩ := arrange_eq py dy (by omega) (by omega) (by omega)
  obtain ⟨a1, a2, a3⟩ := allocLoop_eq c.px.toNat py 0 ⟨List.replicate py none, []⟩ rfl (by simp) (by simp)
  rw [Nat.zero_add] at a1 a2
  obtain ⟨f1, f2⟩ := fill_eq 0 c.plainData _ a1 a2 (by omega)
  rw [hv]
  exact ⟨_, _, rfl, ⟨by rw [f1, a1], by rw [f2]; simp, p1, p2, p3⟩⟩

theorem start_le {py dy z : Nat} (h : dy ≤ py) (hz : z < if py % dy = 0 then py / dy else 1) :
    start py dy z + dy ≤ py := by
  unfold start
  split
  · rename_i hm
    rw [if_pos hm] at hz
    have : dy * (z + 1) ≤ dy * (py / dy) := Nat.mul_le_mul_left _ hz
    rw [Nat.mul_add, Nat.mul_one] at this
    exact le_trans this (Nat.mul_div_le _ _)
  · omega

end Radolan.Heap
