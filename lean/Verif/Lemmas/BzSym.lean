/- The symbols of a block: selectors, Huffman codes, run lengths and the move-to-front code. -/
import Verif.Lemmas.BzCode

namespace Radolan.Bz
open Go
open _root_.Spec.Bzip2 (codeNumber codeword Complete runLength Moved symbolBits)

theorem mtf_spec {m : Bytes} {i : Nat} {b : UInt8} (h : m[i]? = some b) :
    mtfDecode (m.map UInt8.toNat) i = .ok (b.toNat, (b :: m.eraseIdx i).map UInt8.toNat) := by
  simp [mtfDecode, h, List.eraseIdx_eq_take_drop_succ]

/-- selectors and trees of a block -/
structure Coding (sels : List Nat) (tables : List (List Nat)) (trees : List (List Node)) (n : Nat) : Prop where
  len : trees.length = tables.length
  sel : ∀ s ∈ sels, s < tables.length
  tab : ∀ t ∈ tables, t.length = n
  path : ∀ (i : Nat) (t : List Nat) (ns : List Node), tables[i]? = some t → trees[i]? = some ns → ∀ v, v < n → Path ns 0 (codeword t v) v
  short : ∀ t ∈ tables, ∀ v, (codeword t v).length ≤ 20

/-- where the loop is after `i` symbols -/
structure At (sels : List Nat) (trees : List (List Node)) (i : Nat) (s : Sym) : Prop where
  pos : 1 ≤ s.selectorIndex
  sum : s.selectorIndex * 50 + s.decoded = i + 50
  le : s.decoded ≤ 50
  tree : s.decoded < 50 → ∃ j, sels[s.selectorIndex - 1]? = some j ∧ trees[j]? = some s.tree

/-- what one round does after it has decoded the symbol `v` -/
def round (sels : List Nat) (trees : List (List Node)) (n blockSize fuel : Nat) (v : Nat) (s : Sym) : Out (List Nat × BR) :=
    if v < 2 then
      let power := if s.repeat' = 0 then 1 else s.repeatPower
      let r := s.repeat' + power * 2 ^ v
      if 2 * 1024 * 1024 < r then fail s.br
      else symbols sels trees n blockSize fuel { s with repeat' := r, repeatPower := 2 * power }
    else
      if 0 < s.repeat' ∧ blockSize - s.tt.length < s.repeat' then fail s.br
      else do
        let s ← if 0 < s.repeat' then
            match s.mtf[0]? with
            | none => Out.panic
            | some b => Out.ok (put { s with repeat' := 0 } b s.repeat')
          else Out.ok s
        if v = n - 1 then .ok (s.tt, s.br)
        else do
          let (b, m) ← mtfDecode s.mtf (v - 1)
          if blockSize ≤ s.tt.length then fail s.br
          else symbols sels trees n blockSize fuel (put { s with mtf := m } b 1)

theorem symbols_step {sels tables trees n bs fuel} (hC : Coding sels tables trees n) {i : Nat} {s : Sym} (hA : At sels trees i s)
    (hi : i < 50 * sels.length) {v : Nat} (hv : v < n) {r : List Bool}
    (hr : s.br.rest = codeword (tables.getD (sels.getD (i / 50) 0) []) v ++ r) :
    ∃ s', At sels trees (i + 1) s' ∧ s'.repeat' = s.repeat' ∧ s'.repeatPower = s.repeatPower ∧ s'.mtf = s.mtf ∧ s'.tt = s.tt ∧
      s'.br = { s.br with rest := r } ∧ symbols sels trees n bs (fuel + 1) s = round sels trees n bs fuel v s' := by
  obtain ⟨i0, d, t, rp, pw, m, tt, ⟨rest, fe, e⟩⟩ := s
  obtain ⟨h1, h2, h3, h4⟩ := hA
  simp only at h1 h2 h3 h4 hr ⊢
  subst hr
  -- the table in force
  have hq : i / 50 < sels.length := by omega
  have hs := hC.sel _ (List.getElem_mem hq)
  have g1 : sels.getD (i / 50) 0 = sels[i / 50] := by rw [List.getD_eq_getElem?_getD, List.getElem?_eq_getElem hq]; rfl
  have g2 : tables.getD sels[i / 50] [] = tables[sels[i / 50]] := by
    rw [List.getD_eq_getElem?_getD, List.getElem?_eq_getElem hs]; rfl
  have ht : sels[i / 50] < trees.length := by rw [hC.len]; exact hs
  rw [g1, g2]
  have pth := hC.path _ _ _ (List.getElem?_eq_getElem hs) (List.getElem?_eq_getElem ht) v hv
  have sh := hC.short _ (List.getElem_mem hs) v
  have dec : ∀ r', decode trees[sels[i / 50]] (trees[sels[i / 50]].length + 33) 0 ⟨codeword tables[sels[i / 50]] v ++ r', fe, e⟩ =
      .ok (v, ⟨r', fe, e⟩) := fun r' => decode_path pth _ r' fe e (by omega)
  by_cases hd : d = 50
  · subst hd
    have e0 : i0 = i / 50 := by omega
    subst e0
    refine ⟨⟨i / 50 + 1, 1, trees[sels[i / 50]], rp, pw, m, tt, ⟨r, fe, e⟩⟩, ⟨by simp, by simp only; omega, by simp, fun _ => ?_⟩,
      rfl, rfl, rfl, rfl, rfl, ?_⟩
    · exact ⟨sels[i / 50], by simp only [Nat.add_sub_cancel]; exact List.getElem?_eq_getElem hq, List.getElem?_eq_getElem ht⟩
    · rw [symbols]
      simp only [if_true, List.getElem?_eq_getElem hq, List.getElem?_eq_getElem ht, bind, Out.bind, dec]
      rfl
  · have e0 : i0 = i / 50 + 1 := by omega
    subst e0
    obtain ⟨j, j1, j2⟩ := h4 (by omega)
    rw [Nat.add_sub_cancel, List.getElem?_eq_getElem hq, Option.some.injEq] at j1
    subst j1
    rw [List.getElem?_eq_getElem ht, Option.some.injEq] at j2
    subst j2
    refine ⟨⟨i / 50 + 1, d + 1, trees[sels[i / 50]], rp, pw, m, tt, ⟨r, fe, e⟩⟩, ⟨by simp, by simp only; omega, by simp only; omega,
      fun _ => ?_⟩, rfl, rfl, rfl, rfl, rfl, ?_⟩
    · exact ⟨sels[i / 50], by simp only [Nat.add_sub_cancel]; exact List.getElem?_eq_getElem hq, List.getElem?_eq_getElem ht⟩
    · rw [symbols]
      rw [if_neg hd]
      simp only [bind, Out.bind, dec]
      rfl

/-- the bits of symbols from number `i` on -/
def bitsFrom (tables : List (List Nat)) (sels : List Nat) : Nat → List Nat → List Bool
  | _, [] => []
  | i, v :: vs => codeword (tables.getD (sels.getD (i / 50) 0) []) v ++ bitsFrom tables sels (i + 1) vs

theorem bitsFrom_eq {tables sels} : ∀ {syms : List Nat} {i : Nat}, bitsFrom tables sels i syms =
    (syms.zipIdx i).flatMap fun q => codeword (tables.getD (sels.getD (q.2 / 50) 0) []) q.1 := by
  intro syms
  induction syms with
  | nil => intro i; rfl
  | cons v vs ih => intro i; rw [bitsFrom, ih, List.zipIdx_cons, List.flatMap_cons]

/-- a run -/
theorem symbols_run {sels tables trees n bs} (hC : Coding sels tables trees n) (hn : 2 ≤ n) :
    ∀ {ds : List Nat} {i fuel : Nat} {s : Sym} {r : List Bool}, At sels trees i s → (∀ d ∈ ds, d ≤ 1) →
      i + ds.length ≤ 50 * sels.length → s.br.rest = bitsFrom tables sels i ds ++ r →
      s.repeat' + (if s.repeat' = 0 then 1 else s.repeatPower) * runLength ds ≤ 2 * 1024 * 1024 →
      (s.repeat' = 0 ∨ 0 < s.repeatPower) →
      ∃ s', At sels trees (i + ds.length) s' ∧
        s'.repeat' = s.repeat' + (if s.repeat' = 0 then 1 else s.repeatPower) * runLength ds ∧ s'.mtf = s.mtf ∧ s'.tt = s.tt ∧
        s'.br = { s.br with rest := r } ∧
        symbols sels trees n bs (fuel + ds.length) s = symbols sels trees n bs fuel s' := by
  intro ds
  induction ds with
  | nil =>
    intro i fuel s r hA _ _ hr _ _
    exact ⟨s, hA, by simp [runLength], rfl, rfl, by rw [← (show s.br.rest = r from hr)], rfl⟩
  | cons d ds ih =>
    intro i fuel s r hA hd hi hr hm hp
    rw [List.length_cons] at hi
    rw [bitsFrom, List.append_assoc] at hr
    have hd1 : d ≤ 1 := hd d (by simp)
    obtain ⟨s1, a1, a2, a3, a4, a5, a6, a7⟩ := symbols_step (bs := bs) (fuel := fuel + ds.length) hC hA (by omega) (v := d) (by omega) hr
    have pd : 2 ^ d = d + 1 := by
      rcases (by omega : d = 0 ∨ d = 1) with rfl | rfl <;> rfl
    rw [runLength] at hm
    generalize hP : (if s.repeat' = 0 then 1 else s.repeatPower) = P at *
    have hP0 : 0 < P := by rw [← hP]; split <;> omega
    have hPd : 0 < P * (d + 1) := by positivity
    have mono : P * (d + 1) ≤ P * (d + 1 + 2 * runLength ds) := Nat.mul_le_mul_left _ (by omega)
    have e1 : s.repeat' + P * (d + 1) + 2 * P * runLength ds = s.repeat' + P * (d + 1 + 2 * runLength ds) := by ring
    obtain ⟨s2, b1, b2, b3, b4, b5, b6⟩ := ih (i := i + 1) (fuel := fuel)
      (s := { s1 with repeat' := s.repeat' + P * (d + 1), repeatPower := 2 * P }) (r := r)
      ⟨a1.pos, a1.sum, a1.le, a1.tree⟩ (fun x hx => hd x (by simp [hx])) (by omega) (by simp only [a6])
      (by simp only; rw [if_neg (by omega), e1]; exact hm) (by right; simp only; omega)
    simp only at b2 b3 b4 b5
    rw [if_neg (by omega)] at b2
    refine ⟨s2, by rw [List.length_cons, show i + (ds.length + 1) = i + 1 + ds.length by omega]; exact b1,
      by rw [b2, e1, runLength], by rw [b3, a4], by rw [b4, a5], by rw [b5, a6], ?_⟩
    rw [List.length_cons, ← Nat.add_assoc, a7, round, if_pos (by omega)]
    simp only [a2, a3, hP, pd]
    rw [if_neg (by omega)]
    exact b6

theorem moved_pos {stop : Nat} {m data : Bytes} {syms : List Nat} (h : Moved stop m data syms) : 1 ≤ syms.length := by
  induction h with
  | done => simp
  | byte _ _ _ => simp
  | run _ _ _ _ _ ih => simp; omega

/-- the loop over the symbols of a block -/
theorem symbols_spec {sels tables trees n bs} (hC : Coding sels tables trees n) {m data : Bytes} {syms : List Nat}
    (h : Moved (n - 1) m data syms) (hbs : bs ≤ 2 * 1024 * 1024) (hm : m.length + 2 = n) (hn : 3 ≤ n) : ∀ {i fuel : Nat} {s : Sym} {r : List Bool}, At sels trees i s →
      i + syms.length ≤ 50 * sels.length → syms.length ≤ fuel → s.br.rest = bitsFrom tables sels i syms ++ r →
      s.mtf = m.map UInt8.toNat → s.tt.length + s.repeat' + data.length ≤ bs →
      (0 < s.repeat' → ∃ b, m.head? = some b ∧ data.head? ≠ some b) →
      symbols sels trees n bs fuel s = .ok (s.tt ++ List.replicate s.repeat' (m.headD 0).toNat ++ data.map UInt8.toNat, { s.br with rest := r }) := by
  induction h with
  | @done m =>
    intro i fuel s r hA hi hf hr hmtf hlen hrep
    obtain ⟨f, rfl⟩ : ∃ f, fuel = f + 1 := ⟨fuel - 1, by simp at hf; omega⟩
    rw [bitsFrom, List.append_assoc] at hr
    obtain ⟨s1, a1, a2, a3, a4, a5, a6, a7⟩ := symbols_step (bs := bs) (fuel := f) hC hA (by simp at hi; omega) (v := n - 1) (by omega) hr
    rw [a7, round]
    by_cases h0 : 0 < s.repeat'
    · obtain ⟨b, hb, _⟩ := hrep h0
      obtain ⟨m', rfl⟩ : ∃ m', m = b :: m' := by
        cases m with
        | nil => simp at hb
        | cons x m' => simp at hb; exact ⟨m', by rw [hb]⟩
      rw [if_neg (by simp at hm; omega), if_neg (by rw [a2, a5]; simp at hlen; omega)]
      simp [a2, h0, a4, hmtf, bind, Out.bind, put, a5, a6, bitsFrom]
    · rw [if_neg (by omega), if_neg (by rw [a2]; omega)]
      have : s.repeat' = 0 := by omega
      simp [a2, h0, bind, Out.bind, a5, a6, bitsFrom, this]
  | @byte m b j data syms hj hm' ih =>
    intro i fuel s r hA hi hf hr hmtf hlen hrep
    rw [List.length_cons] at hi hf
    obtain ⟨f, rfl⟩ : ∃ f, fuel = f + 1 := ⟨fuel - 1, by omega⟩
    rw [bitsFrom, List.append_assoc] at hr
    obtain ⟨hjl, hjb⟩ := List.getElem?_eq_some_iff.mp hj
    obtain ⟨s1, a1, a2, a3, a4, a5, a6, a7⟩ := symbols_step (bs := bs) (fuel := f) hC hA (by omega) (v := j + 2) (by omega) hr
    rw [a7, round, if_neg (by omega), if_neg (by rw [a2, a5]; simp at hlen; omega)]
    have key : ∀ s2 : Sym, At sels trees (i + 1) s2 → s2.br = { s.br with rest := bitsFrom tables sels (i + 1) syms ++ r } →
        s2.mtf = m.map UInt8.toNat → s2.tt = s.tt ++ List.replicate s.repeat' (m.headD 0).toNat → s2.repeat' = 0 →
        (if j + 2 = n - 1 then Out.ok (s2.tt, s2.br)
         else do
          let (b, m) ← mtfDecode s2.mtf (j + 2 - 1)
          if bs ≤ s2.tt.length then fail s2.br
          else symbols sels trees n bs f (put { s2 with mtf := m } b 1)) =
        .ok (s.tt ++ List.replicate s.repeat' (m.headD 0).toNat ++ (b :: data).map UInt8.toNat, { s.br with rest := r }) := by
      intro s2 c1 c2 c3 c4 c5
      rw [if_neg (by omega), c3]
      simp only [show j + 2 - 1 = j + 1 by omega, mtf_spec hj, bind, Out.bind]
      have hl : s2.tt.length = s.tt.length + s.repeat' := by rw [c4]; simp
      rw [List.length_cons] at hlen
      rw [if_neg (by omega)]
      have := ih (by simp [List.length_eraseIdx, hjl]; omega) (i := i + 1) (fuel := f) (s := put { s2 with mtf := (b :: m.eraseIdx (j + 1)).map UInt8.toNat } b.toNat 1) (r := r)
        ⟨c1.pos, c1.sum, c1.le, c1.tree⟩ (by omega) (by omega) (by simp [put, c2]) rfl (by simp [put, hl, c5]; omega) (by simp [put, c5])
      rw [this]
      simp [put, c4, c5, c2]
    by_cases h0 : 0 < s.repeat'
    · obtain ⟨b0, hb, _⟩ := hrep h0
      obtain ⟨m', rfl⟩ : ∃ m', m = b0 :: m' := by
        cases m with
        | nil => simp at hb
        | cons x m' => simp at hb; exact ⟨m', by rw [hb]⟩
      have h0' : 0 < s1.repeat' := by omega
      have hm0 : s1.mtf[0]? = some b0.toNat := by rw [a4, hmtf]; rfl
      rw [if_pos h0', hm0]
      exact key (put { s1 with repeat' := 0 } b0.toNat s1.repeat') ⟨a1.pos, a1.sum, a1.le, a1.tree⟩ (by simp [put, a6])
        (by simp [put, a4, hmtf]) (by simp [put, a5, a2]) rfl
    · rw [if_neg (by omega)]
      have e0 : s.repeat' = 0 := by omega
      exact key s1 a1 a6 (by rw [a4, hmtf]) (by rw [a5, e0]; simp) (by rw [a2, e0])
  | @run m b ds data syms hb hds hd hdata hm' ih =>
    intro i fuel s r hA hi hf hr hmtf hlen hrep
    have r0 : s.repeat' = 0 := by
      by_contra h0
      obtain ⟨b', hb', hne⟩ := hrep (by omega)
      rw [hb, Option.some.injEq] at hb'
      subst hb'
      apply hne
      cases ds with
      | nil => exact absurd rfl hds
      | cons d ds => rw [runLength, show d + 1 + 2 * runLength ds = (d + 2 * runLength ds) + 1 by omega, List.replicate_succ]; rfl
    have hb1 : ∀ (l1 l2 : List Nat) (i : Nat), bitsFrom tables sels i (l1 ++ l2) = bitsFrom tables sels i l1 ++ bitsFrom tables sels (i + l1.length) l2 := by
      intro l1
      induction l1 with
      | nil => intro l2 i; rfl
      | cons x l1 ihl => intro l2 i; simp [bitsFrom, ihl, Nat.add_assoc, Nat.add_comm 1]
    rw [List.length_append] at hi hf
    rw [hb1, List.append_assoc] at hr
    rw [List.length_append, List.length_replicate] at hlen
    obtain ⟨s', b1, b2, b3, b4, b5, b6⟩ := symbols_run (bs := bs) hC (by omega) (fuel := fuel - ds.length) hA hd (by omega) hr
      (by rw [r0]; simp; omega) (Or.inl r0)
    rw [show fuel - ds.length + ds.length = fuel by omega] at b6
    rw [r0, if_pos rfl, Nat.one_mul, Nat.zero_add] at b2
    rw [b6, ih hm (i := i + ds.length) (r := r) b1 (by omega) (by omega) (by rw [b5]) (by rw [b3, hmtf]) (by rw [b4, b2]; omega) (fun _ => ⟨b, hb, hdata⟩)]
    have hb2 : m.headD 0 = b := by rw [List.headD_eq_head?_getD, hb]; rfl
    rw [b4, b5, b2, r0, hb2]
    simp

end Radolan.Bz
