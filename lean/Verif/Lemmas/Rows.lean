/- Rows of fixed byte width. -/
import Verif.Lemmas.Composite
import Verif.Spec.Pixels

namespace Radolan
open Go

/-- reading `n` rows of `k` bytes each -/
theorem rowsFrom_fixed {f : Bytes → Option (List F32 × Bytes)} {dec : Bytes → List F32} {k : Nat}
    (hf : ∀ b, f b = if k ≤ b.length then some (dec (b.take k), b.drop k) else none) (n : Nat) (b : Bytes) :
    rowsFrom f n b = if n * k ≤ b.length
      then some ((List.range n).map fun i => dec ((b.drop (i * k)).take k), b.drop (n * k)) else none := by
  induction n generalizing b with
  | zero => simp [rowsFrom]
  | succ n ih =>
    unfold rowsFrom
    rw [hf]
    by_cases h : k ≤ b.length
    · rw [if_pos h]
      simp only
      rw [ih]
      have e : (n + 1) * k = n * k + k := by ring
      by_cases h2 : n * k ≤ (b.drop k).length
      · rw [if_pos h2]
        rw [List.length_drop] at h2
        rw [if_pos (by omega)]
        simp only [List.range_succ_eq_map, List.map_cons, List.map_map, Function.comp_def, List.drop_drop]
        simp only [Option.some.injEq, Prod.mk.injEq, List.cons.injEq, Nat.zero_mul, List.drop_zero, true_and]
        constructor
        · apply List.map_congr_left
          intro i _
          have : k + i * k = Nat.succ i * k := by rw [Nat.succ_mul]; omega
          rw [this]
        · rw [e, Nat.add_comm]
      · rw [if_neg h2]
        rw [List.length_drop] at h2
        rw [if_neg (by omega)]
    · rw [if_neg h]
      have : ¬ (n + 1) * k ≤ b.length := by
        have : k ≤ (n + 1) * k := Nat.le_mul_of_pos_left _ (by omega)
        omega
      rw [if_neg this]

theorem rowSB_fixed (u p : Int) (w : Nat) (b : Bytes) :
    rowSB u p w b = if w ≤ b.length then some ((b.take w).map (rvp6SingleByte u p), b.drop w) else none := by
  unfold rowSB readFull; split <;> rfl

theorem rowLE_fixed (u p : Int) (w : Nat) (b : Bytes) :
    rowLE u p w b = if w * 2 ≤ b.length then some (decodePairs u p (b.take (w * 2)), b.drop (w * 2)) else none := by
  unfold rowLE readFull; split <;> rfl

theorem decodePairs_get (u p : Int) (l : Bytes) (x : Nat) {lo hi : UInt8} (h1 : l[2 * x]? = some lo)
    (h2 : l[2 * x + 1]? = some hi) : (decodePairs u p l)[x]? = some (rvp6LittleEndian u p lo hi) := by
  induction x generalizing l with
  | zero =>
    match l, h1, h2 with
    | a :: b :: t, h1, h2 => simp at h1 h2; simp [decodePairs, h1, h2]
  | succ x ih =>
    match l, h1, h2 with
    | a :: b :: t, h1, h2 =>
      simp only [decodePairs, List.getElem?_cons_succ]
      apply ih t
      · simpa [Nat.mul_add] using h1
      · simpa [Nat.mul_add] using h2

theorem byteValue_eq (u p : Int) (b : UInt8) :
    rvp6SingleByte u p b = Spec.byteValue (decide (u = Unit_dBZ)) p b.toNat := by
  unfold rvp6SingleByte Spec.byteValue Spec.decoded
  have h1 : (b = 250) ↔ b.toNat = 250 := by
    rw [← UInt8.toNat_inj]; rfl
  by_cases h : b = 250
  · rw [if_pos h, if_pos (h1.mp h)]
  · rw [if_neg h, if_neg (fun hx => h (h1.mpr hx))]
    by_cases hu : u = Unit_dBZ
    · simp [hu, toDBZ, rvp6Raw, Spec.scaled]
    · simp [hu, rvp6Raw, Spec.scaled]

theorem bits (t : UInt8) : ((t &&& ((1 : UInt8) <<< 5) ≠ 0) ↔ t.toNat / 32 % 2 = 1) ∧
    ((t &&& ((1 : UInt8) <<< 6) ≠ 0) ↔ t.toNat / 64 % 2 = 1) ∧ (0x0F &&& t).toNat = t.toNat % 16 := by
  have h : ∀ n : Fin 256, ((UInt8.ofNat n.val &&& ((1 : UInt8) <<< 5) ≠ 0) ↔ n.val / 32 % 2 = 1) ∧
    ((UInt8.ofNat n.val &&& ((1 : UInt8) <<< 6) ≠ 0) ↔ n.val / 64 % 2 = 1) ∧
    (0x0F &&& UInt8.ofNat n.val).toNat = n.val % 16 := by decide +kernel
  have := h ⟨t.toNat, t.toNat_lt⟩
  simpa using this

theorem pairValue_eq (u p : Int) (lo hi : UInt8) :
    rvp6LittleEndian u p lo hi = Spec.pairValue (decide (u = Unit_dBZ)) p lo.toNat hi.toNat := by
  unfold rvp6LittleEndian Spec.pairValue Spec.decoded
  obtain ⟨h5, h6, hm⟩ := bits hi
  simp only [hm]
  by_cases b5 : hi.toNat / 32 % 2 = 1
  · rw [if_pos (h5.mpr b5), if_pos b5]
  · rw [if_neg (fun h => b5 (h5.mp h)), if_neg b5]
    have hv : (if hi &&& ((1 : UInt8) <<< 6) ≠ 0 then ((hi.toNat % 16 : Nat) * 256 + (lo.toNat : Int)) * -1
        else (hi.toNat % 16 : Nat) * 256 + (lo.toNat : Int))
        = if hi.toNat / 64 % 2 = 1 then -(hi.toNat % 16 * 256 + lo.toNat : Int) else (hi.toNat % 16 * 256 + lo.toNat : Int) := by
      by_cases b6 : hi.toNat / 64 % 2 = 1
      · rw [if_pos (h6.mpr b6), if_pos b6]; push_cast; ring
      · rw [if_neg (fun h => b6 (h6.mp h)), if_neg b6]; push_cast; rfl
    rw [hv]
    by_cases hu : u = Unit_dBZ
    · simp [hu, toDBZ, rvp6Raw, Spec.scaled]
    · simp [hu, rvp6Raw, Spec.scaled]

/-- element `(i, x)` of rows of single bytes -/
theorem rowsSB_get {u p : Int} {w n : Nat} {b b' : Bytes} {rs : List (List F32)}
    (h : rowsFrom (rowSB u p w) n b = some (rs, b')) {i x : Nat} (hi : i < n) (hx : x < w) :
    ∃ v, b[i * w + x]? = some v ∧ (rs[i]?).bind (·[x]?) = some (rvp6SingleByte u p v) := by
  rw [rowsFrom_fixed (rowSB_fixed u p w)] at h
  split at h
  · rename_i hl
    simp only [Option.some.injEq, Prod.mk.injEq] at h
    obtain ⟨rfl, _⟩ := h
    have : i * w + x < b.length := by
      have : (i + 1) * w ≤ n * w := Nat.mul_le_mul_right _ hi
      rw [Nat.add_mul] at this; omega
    refine ⟨b[i * w + x], List.getElem?_eq_getElem this, ?_⟩
    simp [hi, List.getElem?_take, hx, List.getElem?_drop, List.getElem?_eq_getElem this]
  · simp at h

/-- element `(i, x)` of rows of byte pairs -/
theorem rowsLE_get {u p : Int} {w n : Nat} {b b' : Bytes} {rs : List (List F32)}
    (h : rowsFrom (rowLE u p w) n b = some (rs, b')) {i x : Nat} (hi : i < n) (hx : x < w) :
    ∃ lo hi', b[2 * (i * w + x)]? = some lo ∧ b[2 * (i * w + x) + 1]? = some hi' ∧
      (rs[i]?).bind (·[x]?) = some (rvp6LittleEndian u p lo hi') := by
  rw [rowsFrom_fixed (rowLE_fixed u p w)] at h
  split at h
  · rename_i hl
    simp only [Option.some.injEq, Prod.mk.injEq] at h
    obtain ⟨rfl, _⟩ := h
    have e1 : i * (w * 2) = 2 * (i * w) := by ring
    have : 2 * (i * w + x) + 1 < b.length := by
      have : (i + 1) * (w * 2) ≤ n * (w * 2) := Nat.mul_le_mul_right _ hi
      have e2 : (i + 1) * (w * 2) = i * (w * 2) + w * 2 := by ring
      omega
    refine ⟨b[2 * (i * w + x)]'(by omega), b[2 * (i * w + x) + 1], List.getElem?_eq_getElem (by omega),
      List.getElem?_eq_getElem this, ?_⟩
    simp only [List.getElem?_map, List.getElem?_range hi, Option.map_some, Option.bind_some]
    have a1 : i * (w * 2) + 2 * x = 2 * (i * w + x) := by rw [e1]; omega
    have a2 : i * (w * 2) + (2 * x + 1) = 2 * (i * w + x) + 1 := by rw [e1]; omega
    apply decodePairs_get
    · rw [List.getElem?_take_of_lt (by omega), List.getElem?_drop, a1, List.getElem?_eq_getElem]
    · rw [List.getElem?_take_of_lt (by omega), List.getElem?_drop, a2, List.getElem?_eq_getElem]
  · simp at h

end Radolan
