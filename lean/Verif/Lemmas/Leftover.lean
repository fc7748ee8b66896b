/- What the row loops leave in the plain data when the input ends early. -/
import Verif.Lemmas.Rows
import Verif.Lemmas.Composite

namespace Radolan
open Go

/-- write rows one after the other, the row of iteration `i` to index `pos i` -/
def setAll (pos : Nat → Nat) : List (List F32) → Nat → List (List F32) → List (List F32)
  | p, _, [] => p
  | p, i, r :: rs => setAll pos (p.set (pos i) r) (i + 1) rs

theorem setAll_length (pos : Nat → Nat) (rs : List (List F32)) : ∀ (p : List (List F32)) (i : Nat),
    (setAll pos p i rs).length = p.length := by
  induction rs with
  | nil => intro p i; rfl
  | cons r rs ih => intro p i; simp only [setAll, ih, List.length_set]

/-- an index that no iteration writes to -/
theorem setAll_other (pos : Nat → Nat) {q : Nat} (rs : List (List F32)) : ∀ (p : List (List F32)) (i : Nat),
    (∀ j, i ≤ j → j < i + rs.length → pos j ≠ q) → (setAll pos p i rs)[q]? = p[q]? := by
  induction rs with
  | nil => intro p i _; rfl
  | cons r rs ih =>
    intro p i h
    simp only [setAll]
    rw [ih _ _ (fun j h1 h2 => h j (by omega) (by simp; omega)), List.getElem?_set_ne (h i (Nat.le_refl _) (by simp))]

/-- the row of the iteration writing to `pos i + j` -/
theorem setAll_get (pos : Nat → Nat) (rs : List (List F32)) : ∀ (p : List (List F32)) (i : Nat),
    (∀ j k, i ≤ j → j < i + rs.length → i ≤ k → k < i + rs.length → pos j = pos k → j = k) →
    (∀ j, i ≤ j → j < i + rs.length → pos j < p.length) →
    ∀ k, k < rs.length → (setAll pos p i rs)[pos (i + k)]? = rs[k]? := by
  induction rs with
  | nil => intro p i _ _ k hk; simp at hk
  | cons r rs ih =>
    intro p i hinj hlt k hk
    simp only [setAll]
    cases k with
    | zero =>
      show (setAll pos (p.set (pos i) r) (i + 1) rs)[pos i]? = some r
      rw [setAll_other pos rs _ _ (fun j h1 h2 he => by
        have := hinj j i (by omega) (by simp; omega) (Nat.le_refl _) (by simp) he
        omega)]
      rw [List.getElem?_set_self (hlt i (Nat.le_refl _) (by simp))]
    | succ k =>
      have := ih (p.set (pos i) r) (i + 1)
        (fun j l a b c d => hinj j l (by omega) (by simp; omega) (by omega) (by simp; omega))
        (fun j a b => by rw [List.length_set]; exact hlt j (by omega) (by simp; omega)) k (by simpa using hk)
      rw [show i + (k + 1) = i + 1 + k by omega, this]; rfl

/-- the loop stops after `k` rows -/
theorem rowLoop_stops (body : Nat → Bytes → M Bytes) (f : Bytes → Option (List F32 × Bytes)) (pos : Nat → Nat)
    (P : Composite → Prop) (Stop : Bytes → Prop) (N : Nat)
    (hok : ∀ i b c r rest, P c → i < N → f b = some (r, rest) →
      body i b c = .ok rest { c with plainData := c.plainData.set (pos i) r } ∧
      P { c with plainData := c.plainData.set (pos i) r })
    (hfail : ∀ i b c, P c → Stop b → ∃ e, e ≠ .unknownUnit ∧ body i b c = .err e c) :
    ∀ (k n i : Nat) (b : Bytes) (c : Composite) (rs : List (List F32)) (b' : Bytes), k < n → i + n ≤ N → P c →
      rowsFrom f k b = some (rs, b') → Stop b' →
      ∃ e, e ≠ .unknownUnit ∧ rowLoop body n i b c = .err e { c with plainData := setAll pos c.plainData i rs } := by
  intro k
  induction k with
  | zero =>
    intro n i b c rs b' hk hn hP hr hs
    simp only [rowsFrom, Option.some.injEq, Prod.mk.injEq] at hr
    obtain ⟨rfl, rfl⟩ := hr
    obtain ⟨n, rfl⟩ : ∃ m, n = m + 1 := ⟨n - 1, by omega⟩
    obtain ⟨e, he, h⟩ := hfail i b c hP hs
    refine ⟨e, he, ?_⟩
    show (body i b >>= fun b' => rowLoop body n (i + 1) b') c = _
    rw [M.bind_err h]; rfl
  | succ k ih =>
    intro n i b c rs b' hk hn hP hr hs
    unfold rowsFrom at hr
    split at hr
    · simp at hr
    · rename_i r b1 hf
      split at hr
      · simp at hr
      · rename_i rs1 b2 hr1
        simp only [Option.some.injEq, Prod.mk.injEq] at hr
        obtain ⟨rfl, rfl⟩ := hr
        obtain ⟨n, rfl⟩ : ∃ m, n = m + 1 := ⟨n - 1, by omega⟩
        obtain ⟨h1, h2⟩ := hok i b c r b1 hP (by omega) hf
        obtain ⟨e, he, h⟩ := ih n (i + 1) b1 _ rs1 b2 (by omega) (by omega) h2 hr1 hs
        refine ⟨e, he, ?_⟩
        show (body i b >>= fun b' => rowLoop body n (i + 1) b') c = _
        rw [M.bind_ok h1, h]; rfl

/-- the state in which rows of width `w` can be decoded -/
structure Ready (unit prec dx : Int) (level : Option (List F32)) (rows w : Nat) (c : Composite) : Prop where
  blank : Blank c
  dx : c.dx = dx
  unit : c.dataUnit = unit
  prec : c.precision = prec
  level : c.level = level
  length : c.plainData.length = rows
  width : ∀ r ∈ c.plainData, r.length = w

theorem Ready.set {unit prec dx : Int} {level : Option (List F32)} {rows w : Nat} {c : Composite}
    (h : Ready unit prec dx level rows w c) {i : Nat} {r : List F32} (hr : r.length = w) :
    Ready unit prec dx level rows w { c with plainData := c.plainData.set i r } where
  blank := h.blank.withPlain _
  dx := h.dx
  unit := h.unit
  prec := h.prec
  level := h.level
  length := by simp [h.length]
  width := by
    intro x hx
    rcases List.mem_or_eq_of_mem_set hx with h1 | h1
    · exact h.width x h1
    · rw [h1]; exact hr

/-- parseData on an input that ends too early: `k` rows are decoded, the others stay zero -/
theorem parseData_stops (c : Composite) (b : Bytes) (hb : Blank c) (hd : DimsOK c) {k : Nat} (hk : k < c.py.toNat)
    {rs : List (List F32)} {b' : Bytes}
    (h : (identifyEncoding c = .singleByte ∧ rowsFrom (rowSB c.dataUnit c.precision c.px.toNat) k b = some (rs, b') ∧
          b'.length < c.px.toNat) ∨
        (identifyEncoding c = .littleEndian ∧ rowsFrom (rowLE c.dataUnit c.precision c.px.toNat) k b = some (rs, b') ∧
          b'.length < c.px.toNat * 2) ∨
        (identifyEncoding c = .runlength ∧ rowsFrom (rowRL (c.level.getD []) c.px.toNat) k b = some (rs, b') ∧
          (10 : UInt8) ∉ b')) :
    ∃ e, e ≠ .unknownUnit ∧ parseData b c = .err e { c with
      plainData := setAll (if identifyEncoding c = .runlength then id else (c.py.toNat - 1 - ·))
        (List.replicate c.py.toNat (List.replicate c.px.toNat Fl.zero)) 0 rs } := by
  obtain ⟨⟨hx0, hx⟩, ⟨hy0, hy⟩, hdx⟩ := hd
  unfold parseData
  have m1 : makeOK 24 c.py = true := makeOK_iff.mpr ⟨by omega, hy⟩
  have m2 : makeOK 4 c.px = true := makeOK_iff.mpr ⟨by omega, hx⟩
  simp only [M.get_bind]
  rw [if_neg (by omega), m1, m2]
  simp only [Bool.not_true, Bool.false_eq_true, if_false, M.modify_bind, M.get_bind]
  generalize hc' : ({ c with
      plainData := List.replicate c.py.toNat (List.replicate c.px.toNat Fl.zero) } : Composite) = c'
  have hid : identifyEncoding c' = identifyEncoding c := by subst hc'; rfl
  have hpl : c'.plainData = List.replicate c.py.toNat (List.replicate c.px.toNat Fl.zero) := by subst hc'; rfl
  have hll : c'.plainData.length = c.py.toNat := by rw [hpl]; simp
  have hR : Ready c.dataUnit c.precision c.dx c.level c.py.toNat c.px.toNat c' := by
    subst hc'
    exact ⟨hb.withPlain _, rfl, rfl, rfl, rfl, by simp, by
      intro r hr; rw [List.eq_of_mem_replicate hr]; simp⟩
  have hcc : ∀ p, ({ c' with plainData := p } : Composite) = { c with plainData := p } := by
    intro p; subst hc'; rfl
  rw [hid, ← hpl]
  have hshort : ∀ (w : Nat) (b : Bytes), b.length < w → readFull w b = none := by
    intro w b hlt
    cases hr : readFull w b with
    | none => rfl
    | some q =>
      obtain ⟨l, rest⟩ := q
      have := readFull_some.mp hr
      rw [this.1, List.length_append, this.2] at hlt
      omega
  rcases h with ⟨he, hrows, hs⟩ | ⟨he, hrows, hs⟩ | ⟨he, hrows, hs⟩
  · rw [he, if_neg (by decide)]
    have := rowLoop_stops (rowSingleByte (c.py.toNat - 1)) (rowSB c.dataUnit c.precision c.px.toNat) (c.py.toNat - 1 - ·)
      (Ready c.dataUnit c.precision c.dx c.level c.py.toNat c.px.toNat) (fun b => b.length < c.px.toNat) c.py.toNat
      (fun i b x r rest hx hi hf => by
        have := rowSingleByte_eq c.dataUnit c.precision c.dx (makeOK_iff.mpr ⟨by omega, by omega⟩) (c.py.toNat - 1) i b x
          ⟨hx.dx, hx.unit, hx.prec⟩ hx.blank (by omega) (by rw [hx.length]; omega) (by rw [hdx]; exact hx.width)
        rw [hdx] at this
        unfold StageV GoodRes at this
        rw [hf] at this
        exact ⟨this.1, hx.set (rowSB_width _ _ _ hf)⟩)
      (fun i b x hx hs => by
        refine ⟨.readSingleByte, by decide, ?_⟩
        have m3 : makeOK 1 c.px = true := makeOK_iff.mpr ⟨by omega, by omega⟩
        unfold rowSingleByte
        simp only [M.get_bind, hx.dx, hdx, m3, Bool.not_true, Bool.false_eq_true, if_false]
        rw [hshort _ _ hs]; rfl)
      k c.py.toNat 0 b c' rs b' hk (by omega) hR hrows hs
    obtain ⟨e, h1, h2⟩ := this
    refine ⟨e, h1, ?_⟩
    rw [hcc] at h2
    unfold parseWith parseSingleByte
    simp only [M.get_bind]
    rw [hll]; exact h2
  · rw [he, if_neg (by decide)]
    have := rowLoop_stops (rowLittleEndian (c.py.toNat - 1)) (rowLE c.dataUnit c.precision c.px.toNat) (c.py.toNat - 1 - ·)
      (Ready c.dataUnit c.precision c.dx c.level c.py.toNat c.px.toNat) (fun b => b.length < c.px.toNat * 2) c.py.toNat
      (fun i b x r rest hx hi hf => by
        have := rowLittleEndian_eq c.dataUnit c.precision c.dx (by omega) (by omega) (c.py.toNat - 1) i b x
          ⟨hx.dx, hx.unit, hx.prec⟩ hx.blank (by omega) (by rw [hx.length]; omega) (by rw [hdx]; exact hx.width)
        rw [hdx] at this
        unfold StageV GoodRes at this
        rw [hf] at this
        exact ⟨this.1, hx.set (rowLE_width _ _ _ hf)⟩)
      (fun i b x hx hs => by
        refine ⟨.readLittleEndian, by decide, ?_⟩
        have hw : wrap64 (c.px * 2) = c.px * 2 := by apply wrap64_id <;> omega
        have m3 : makeOK 1 (c.px * 2) = true := makeOK_iff.mpr ⟨by omega, by omega⟩
        unfold rowLittleEndian
        simp only [M.get_bind, hx.dx, hdx, hw, m3, Bool.not_true, Bool.false_eq_true, if_false]
        rw [hshort _ _ (by omega)]; rfl)
      k c.py.toNat 0 b c' rs b' hk (by omega) hR hrows hs
    obtain ⟨e, h1, h2⟩ := this
    refine ⟨e, h1, ?_⟩
    rw [hcc] at h2
    unfold parseWith parseLittleEndian
    simp only [M.get_bind]
    rw [hll]; exact h2
  · rw [he, if_pos rfl]
    have := rowLoop_stops rowRunlength (rowRL (c.level.getD []) c.px.toNat) id
      (Ready c.dataUnit c.precision c.dx c.level c.py.toNat c.px.toNat) (fun b => (10 : UInt8) ∉ b) c.py.toNat
      (fun i b x r rest hx hi hf => by
        have := rowRunlength_eq (c.level.getD []) c.px.toNat i b x (by rw [hx.level]) hx.blank (by rw [hx.length]; omega)
          hx.width
        unfold StageV GoodRes at this
        rw [hf] at this
        exact ⟨this.1, hx.set (rowRL_width _ _ _ hf)⟩)
      (fun i b x hx hs => by
        refine ⟨.readRunlength, by decide, ?_⟩
        unfold rowRunlength
        simp only [M.get_bind]
        rw [readDelim_none.mpr hs]; rfl)
      k c.py.toNat 0 b c' rs b' hk (by omega) hR hrows hs
    obtain ⟨e, h1, h2⟩ := this
    refine ⟨e, h1, ?_⟩
    rw [hcc] at h2
    unfold parseWith parseRunlength
    simp only [M.get_bind]
    rw [hll]; exact h2

end Radolan
