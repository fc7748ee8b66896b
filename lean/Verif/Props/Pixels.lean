/-
C07, C08, C14: pixel values of the fixed width encodings, selection of the encoding.
-/
import Verif.Lemmas.Rows
import Verif.Lemmas.Local
import Verif.Props.Levels
import Verif.Props.Stream

namespace Props
open Go Radolan Spec

theorem precisionOf_spec {fs : List Field} {p q : Int} (hp : Precision fs p)
    (hq : precisionOf (pairs fs).reverse = some q) : q = p := by
  unfold precisionOf at hq
  rw [find_pairs] at hq
  unfold Precision at hp
  cases hv : value fs (str "E") with
  | none => rw [hv] at hq hp; simp only [Option.some.injEq] at hq hp; omega
  | some v =>
    rw [hv] at hq hp
    simp only at hq hp
    rw [sscanfD_isInt hp] at hq
    simpa using hq.symm

/-- the data length of a parsed header -/
theorem dataLength_spec {E : Env} {fs : List Field} {h : Composite} {v : Bytes} {n : Int}
    (hf : HeaderFields E (header fs ++ [3]) (pairs fs).reverse h)
    (hBY : value fs (str "BY") = some v) (hn : IsInt v n) :
    h.dataLength = wrap64 (n - ((header fs).length + 1)) := by
  obtain ⟨m, hm, hl⟩ := hf.length
  rw [find_pairs, hBY] at hm
  simp only [Option.getD_some, sscanfD_isInt hn, Option.some.injEq] at hm
  rw [hl, hm]; simp

theorem level_none {E : Env} {fs : List Field} {h : Composite}
    (hf : HeaderFields E (header fs ++ [3]) (pairs fs).reverse h) (hLV : value fs (str "LV") = none) :
    h.level = none := by
  have h1 := hf.level
  unfold levelsOf at h1
  rw [find_pairs, hLV] at h1
  simpa using h1.symm

theorem isInt_range {v : Bytes} {n : Int} (h : IsInt v n) : -(2 ^ 63) ≤ n ∧ n < 2 ^ 63 := by
  obtain ⟨_, _, _, _, _, _, _, _, _, _, h1, h2⟩ := h
  exact ⟨h1, h2⟩

theorem wrap64_eq (x : Int) : ∃ k : Int, wrap64 x = x + k * 2 ^ 64 := by
  unfold wrap64
  refine ⟨-Int.bdiv x (2 ^ 64), ?_⟩
  have := Int.bmod_add_bdiv x (2 ^ 64)
  generalize Int.bdiv x (2 ^ 64) = k at *
  generalize Int.bmod x (2 ^ 64) = m at *
  push_cast at this
  linarith

theorem single_of_length {h : Composite} {n l : Int} (hlv : h.level = none)
    (hd : h.dataLength = wrap64 (n - l)) (hpos : 0 < h.px * h.py) (hn : n < 2 ^ 63) (hl : 0 ≤ l)
    (he : n - l = h.px * h.py) : identifyEncoding h = .singleByte := by
  unfold identifyEncoding
  rw [hlv, hd, he]
  generalize h.px * h.py = v at *
  simp only [Option.isSome_none, Bool.false_eq_true, if_false]
  rw [wrap64_id (x := v) (by omega) (by omega)]
  rw [if_neg]
  · simp
  · intro hv
    obtain ⟨k, hk⟩ := wrap64_eq (v * 2)
    rw [hk] at hv
    omega

theorem pair_of_length {h : Composite} {n l : Int} (hlv : h.level = none)
    (hd : h.dataLength = wrap64 (n - l)) (hpos : 0 < h.px * h.py) (hn : n < 2 ^ 63) (hl : 0 ≤ l)
    (he : n - l = 2 * (h.px * h.py)) : identifyEncoding h = .littleEndian := by
  unfold identifyEncoding
  rw [hlv, hd, he]
  generalize h.px * h.py = v at *
  simp only [Option.isSome_none, Bool.false_eq_true, if_false]
  rw [wrap64_id (x := v) (by omega) (by omega), Int.mul_comm 2 v, if_pos rfl]

theorem px_pos {h : Composite} (ha : AllocOK h) : 0 < h.px * h.py := Int.mul_pos ha.1 ha.2.2.1

theorem reverse_bind {rs : List (List F32)} {n y x : Nat} (hl : rs.length = n) (hy : y < n) :
    (rs.reverse[y]?).bind (·[x]?) = (rs[n - 1 - y]?).bind (·[x]?) := by
  rw [List.getElem?_reverse (by omega), hl]

/-- C07. Single byte encoding: no level field, and the length field announces one byte per pixel. The pixel in
column x of plain row y is the value of the byte at offset (Py-1-y)*Px+x of the data section. -/
theorem C07_single_byte {E : Env} {fs : List Field} {data : Bytes} {c : Composite} {p n : Int} {v : Bytes}
    (hw : ∀ f ∈ fs, f.WF) (hS : Success E (file fs data) c) (hLV : value fs (str "LV") = none)
    (hBY : value fs (str "BY") = some v) (hn : IsInt v n) (hlen : n - ((header fs).length + 1) = c.px * c.py)
    (hp : Precision fs p) {x y : Nat} (hx : (x : Int) < c.px) (hy : (y : Int) < c.py) :
    ∃ b, data[(c.py.toNat - 1 - y) * c.px.toNat + x]? = some b ∧
      plain c y x = some (byteValue (decide (c.dataUnit = Unit.dBZ.code)) p b.toNat) := by
  obtain ⟨h, rows, rest', hh, ha, hd, rfl, hf, _⟩ := success_fields hw hS
  have e : identifyEncoding h = .singleByte :=
    single_of_length (level_none hf hLV) (dataLength_spec hf hBY hn) (px_pos ha) (isInt_range hn).2 (by omega) hlen
  unfold dataOf at hd
  rw [e] at hd
  simp only [Option.map_eq_some_iff, Prod.mk.injEq] at hd
  obtain ⟨⟨rs, b'⟩, hr, rfl, _⟩ := hd
  have hx' : (x : Int) < h.px := hx
  have hy' : (y : Int) < h.py := hy
  obtain ⟨b, hb, hv⟩ := rowsSB_get hr (i := h.py.toNat - 1 - y) (x := x) (by omega) (by omega)
  refine ⟨b, hb, ?_⟩
  show (rs.reverse[y]?).bind (·[x]?) = _
  rw [reverse_bind (rowsFrom_length hr) (by omega), hv, byteValue_eq, precisionOf_spec hp hf.precision]
  rfl

/-- C08. Little endian encoding: no level field, and the length field announces two bytes per pixel. The pixel in
column x of plain row y is the value of the two bytes at offset 2*((Py-1-y)*Px+x), low byte first. -/
theorem C08_little_endian {E : Env} {fs : List Field} {data : Bytes} {c : Composite} {p n : Int} {v : Bytes}
    (hw : ∀ f ∈ fs, f.WF) (hS : Success E (file fs data) c) (hLV : value fs (str "LV") = none)
    (hBY : value fs (str "BY") = some v) (hn : IsInt v n) (hlen : n - ((header fs).length + 1) = 2 * (c.px * c.py))
    (hp : Precision fs p) {x y : Nat} (hx : (x : Int) < c.px) (hy : (y : Int) < c.py) :
    ∃ lo hi, data[2 * ((c.py.toNat - 1 - y) * c.px.toNat + x)]? = some lo ∧
      data[2 * ((c.py.toNat - 1 - y) * c.px.toNat + x) + 1]? = some hi ∧
      plain c y x = some (pairValue (decide (c.dataUnit = Unit.dBZ.code)) p lo.toNat hi.toNat) := by
  obtain ⟨h, rows, rest', hh, ha, hd, rfl, hf, _⟩ := success_fields hw hS
  have e : identifyEncoding h = .littleEndian :=
    pair_of_length (level_none hf hLV) (dataLength_spec hf hBY hn) (px_pos ha) (isInt_range hn).2 (by omega) hlen
  unfold dataOf at hd
  rw [e] at hd
  simp only [Option.map_eq_some_iff, Prod.mk.injEq] at hd
  obtain ⟨⟨rs, b'⟩, hr, rfl, _⟩ := hd
  have hx' : (x : Int) < h.px := hx
  have hy' : (y : Int) < h.py := hy
  obtain ⟨lo, hi, h1, h2, hv⟩ := rowsLE_get hr (i := h.py.toNat - 1 - y) (x := x) (by omega) (by omega)
  refine ⟨lo, hi, h1, h2, ?_⟩
  show (rs.reverse[y]?).bind (·[x]?) = _
  rw [reverse_bind (rowsFrom_length hr) (by omega), hv, pairValue_eq, precisionOf_spec hp hf.precision]
  rfl

/-! ### selection of the encoding -/

/-- a successful parse consumed the bytes the encoding asks for -/
theorem consumed_fixed {h : Composite} {data rest' : Bytes} {rows : List (List F32)} (ha : AllocOK h)
    (hd : dataOf h data = some (rows, rest')) :
    (identifyEncoding h = .singleByte → h.px * h.py ≤ data.length) ∧
    (identifyEncoding h = .littleEndian → 2 * (h.px * h.py) ≤ data.length) := by
  obtain ⟨a1, _, a2, _⟩ := ha
  obtain ⟨a, hpx⟩ : ∃ n : Nat, h.px = n := ⟨h.px.toNat, by omega⟩
  obtain ⟨b, hpy⟩ : ∃ n : Nat, h.py = n := ⟨h.py.toNat, by omega⟩
  unfold dataOf at hd
  constructor
  · intro he
    rw [he] at hd
    simp only [Option.map_eq_some_iff, Prod.mk.injEq] at hd
    obtain ⟨⟨rs, b'⟩, hr, _⟩ := hd
    rw [rowsFrom_fixed (rowSB_fixed _ _ _), hpx, hpy] at hr
    simp only [Int.toNat_natCast] at hr
    split at hr
    · rename_i hl
      rw [hpx, hpy]
      have : ((b * a : Nat) : Int) ≤ data.length := by exact_mod_cast hl
      push_cast at this
      linarith
    · simp at hr
  · intro he
    rw [he] at hd
    simp only [Option.map_eq_some_iff, Prod.mk.injEq] at hd
    obtain ⟨⟨rs, b'⟩, hr, _⟩ := hd
    rw [rowsFrom_fixed (rowLE_fixed _ _ _), hpx, hpy] at hr
    simp only [Int.toNat_natCast] at hr
    split at hr
    · rename_i hl
      rw [hpx, hpy]
      have : ((b * (a * 2) : Nat) : Int) ≤ data.length := by exact_mod_cast hl
      push_cast at this
      linarith
    · simp at hr

/-- C14. Without level field a file is only accepted if its length field announces one or two bytes per pixel.
(The data section is assumed to be shorter than 2^62 bytes.) -/
theorem C14_length_decides {E : Env} {fs : List Field} {data : Bytes} {c : Composite} {n : Int} {v : Bytes}
    (hw : ∀ f ∈ fs, f.WF) (hS : Success E (file fs data) c) (hLV : value fs (str "LV") = none)
    (hBY : value fs (str "BY") = some v) (hn : IsInt v n) (hsz : data.length < 2 ^ 62)
    (hsz' : (header fs).length < 2 ^ 62) :
    n - ((header fs).length + 1) = c.px * c.py ∨ n - ((header fs).length + 1) = 2 * (c.px * c.py) := by
  obtain ⟨h, rows, rest', hh, ha, hd, rfl, hf, _⟩ := success_fields hw hS
  have hl := dataLength_spec hf hBY hn
  have hlv := level_none hf hLV
  have hpos := px_pos ha
  obtain ⟨c1, c2⟩ := consumed_fixed ha hd
  have hr := isInt_range hn
  show _ = h.px * h.py ∨ _ = 2 * (h.px * h.py)
  unfold identifyEncoding at c1 c2
  unfold dataOf identifyEncoding at hd
  rw [hlv, hl] at hd
  rw [hlv, hl] at c1 c2
  generalize h.px * h.py = q at *
  simp only [Option.isSome_none, Bool.false_eq_true, if_false] at hd c1 c2
  by_cases b1 : wrap64 (n - (↑(header fs).length + 1)) = wrap64 (wrap64 q * 2)
  · rw [if_pos b1] at c2
    have hq := c2 rfl
    rw [wrap64_id (x := q) (by omega) (by omega), wrap64_id (x := q * 2) (by omega) (by omega)] at b1
    obtain ⟨k, hk⟩ := wrap64_eq (n - (↑(header fs).length + 1))
    right; omega
  · rw [if_neg b1] at c1 hd
    by_cases b2 : wrap64 (n - (↑(header fs).length + 1)) = wrap64 q
    · rw [if_pos b2] at c1
      have hq := c1 rfl
      rw [wrap64_id (x := q) (by omega) (by omega)] at b2
      obtain ⟨k, hk⟩ := wrap64_eq (n - (↑(header fs).length + 1))
      left; omega
    · rw [if_neg b2] at hd
      simp at hd

/-- the method leaves the plain dimensions alone -/
structure Keeps (m : M α) : Prop where
  out : ∀ c, match m c with
    | .ok _ c' => c'.px = c.px ∧ c'.py = c.py
    | .err _ c' => c'.px = c.px ∧ c'.py = c.py
    | .panic => True

theorem Keeps.bind {m : M α} {k : α → M β} (hm : Keeps m) (hk : ∀ a, Keeps (k a)) : Keeps (m >>= k) := by
  refine ⟨fun c => ?_⟩
  have h1 := hm.out c
  rw [M.bind_apply]
  cases hc : m c with
  | ok a c' =>
    rw [hc] at h1
    have h2 := (hk a).out c'
    simp only
    cases hc2 : k a c' with
    | ok b c2 => rw [hc2] at h2; exact ⟨h2.1.trans h1.1, h2.2.trans h1.2⟩
    | err e c2 => rw [hc2] at h2; exact ⟨h2.1.trans h1.1, h2.2.trans h1.2⟩
    | panic => trivial
  | err e c' => rw [hc] at h1; exact h1
  | panic => trivial

theorem Keeps.get : Keeps M.get := ⟨fun _ => ⟨rfl, rfl⟩⟩
theorem Keeps.fail {e : Err} : Keeps (M.fail e : M α) := ⟨fun _ => ⟨rfl, rfl⟩⟩
theorem Keeps.panic : Keeps (M.panic : M α) := ⟨fun _ => trivial⟩
theorem Keeps.pure {a : α} : Keeps (Pure.pure a : M α) := ⟨fun _ => ⟨rfl, rfl⟩⟩
theorem Keeps.modify {g : Composite → Composite} (hg : ∀ c, (g c).px = c.px ∧ (g c).py = c.py) : Keeps (M.modify g) := ⟨hg⟩
theorem Keeps.orErr {e : Err} {o : Option α} : Keeps (M.orErr e o) := by
  cases o with
  | none => exact Keeps.fail
  | some a => exact Keeps.pure
theorem Keeps.orPanic {o : Option α} : Keeps (M.orPanic o) := by
  cases o with
  | none => exact Keeps.panic
  | some a => exact Keeps.pure

theorem rowLoop_keeps {body : Nat → Bytes → M Bytes} (h : ∀ i b, Keeps (body i b)) (n i : Nat) (b : Bytes) :
    Keeps (rowLoop body n i b) := by
  induction n generalizing i b with
  | zero => exact Keeps.pure
  | succ n ih => exact (h i b).bind fun b' => ih _ _

macro "keeps" : tactic => `(tactic| repeat' (first
  | exact Keeps.pure | exact Keeps.fail | exact Keeps.panic | exact Keeps.orErr | exact Keeps.orPanic
  | exact Keeps.get | (refine Keeps.modify ?_; intro _; exact ⟨rfl, rfl⟩) | apply Keeps.bind | intro _ | split))

theorem parseWith_keeps (e : Encoding) (b : Bytes) : Keeps (parseWith e b) := by
  cases e with
  | unknown => exact Keeps.fail
  | singleByte =>
    refine Keeps.get.bind fun c => rowLoop_keeps (fun i b => ?_) _ _ _
    unfold rowSingleByte; keeps
  | littleEndian =>
    refine Keeps.get.bind fun c => rowLoop_keeps (fun i b => ?_) _ _ _
    unfold rowLittleEndian; keeps
  | runlength =>
    refine Keeps.get.bind fun c => rowLoop_keeps (fun i b => ?_) _ _ _
    unfold rowRunlength; keeps

theorem parseData_keeps (b : Bytes) : Keeps (parseData b) := by
  unfold parseData
  keeps
  exact parseWith_keeps _ _

theorem arrangeData_keeps : Keeps arrangeData := by
  unfold arrangeData
  keeps

/-- replace the value returned by a method -/
def withRest (r : Bytes) : PRes Bytes → PRes Bytes
  | .ok _ c => .ok r c
  | .err e c => .err e c
  | .panic => .panic

theorem withRest_bind {α : Type} (r : Bytes) (m : M α) (k k' : α → M Bytes)
    (hk : ∀ a c, withRest r (k a c) = k' a c) (c : Composite) :
    withRest r ((m >>= k) c) = (m >>= k') c := by
  show withRest r (M.bind m k c) = M.bind m k' c
  unfold M.bind
  cases m c with
  | ok a c' => exact hk a c'
  | err e c' => rfl
  | panic => rfl

/-- the header parser does not look at the data section -/
theorem parseHeader_rest {E : Env} {fs : List Field} (hw : ∀ f ∈ fs, f.WF) (data data' : Bytes) (c : Composite) :
    withRest data' (parseHeader E (file fs data) c) = parseHeader E (file fs data') c := by
  unfold parseHeader
  rw [readDelim_file hw, readDelim_file hw]
  simp only [M.orErr_some_bind]
  split
  · rfl
  · refine withRest_bind _ _ _ _ (fun a c => ?_) c
    refine withRest_bind _ _ _ _ (fun a c => ?_) c
    refine withRest_bind _ _ _ _ (fun a c => ?_) c
    refine withRest_bind _ _ _ _ (fun a c => ?_) c
    refine withRest_bind _ _ _ _ (fun a c => ?_) c
    refine withRest_bind _ _ _ _ (fun a c => ?_) c
    refine withRest_bind _ _ _ _ (fun a c => ?_) c
    refine withRest_bind _ _ _ _ (fun a c => ?_) c
    refine withRest_bind _ _ _ _ (fun a c => ?_) c
    refine withRest_bind _ _ _ _ (fun a c => ?_) c
    refine withRest_bind _ _ _ _ (fun a c => ?_) c
    rfl

theorem parseData_unknown (h : Composite) (b b' : Bytes) (he : identifyEncoding h = .unknown) :
    parseData b h = parseData b' h ∧ (∀ r c, parseData b h ≠ .ok r c) ∧
    ∀ e c, parseData b h = .err e c → e ≠ .unknownUnit := by
  unfold parseData
  simp only [M.get_bind]
  split
  · exact ⟨rfl, by intro r c hx; simp [M.fail] at hx, by intro e c hx; simp [M.fail] at hx; rw [← hx.1]; decide⟩
  · split
    · exact ⟨rfl, by intro r c hx; simp [M.panic] at hx, by intro e c hx; simp [M.panic] at hx⟩
    · split
      · exact ⟨rfl, by intro r c hx; simp [M.panic] at hx, by intro e c hx; simp [M.panic] at hx⟩
      · simp only [M.modify_bind, M.get_bind]
        have : identifyEncoding { h with plainData := List.replicate h.py.toNat (List.replicate h.px.toNat Fl.zero) }
          = .unknown := he
        rw [this]
        exact ⟨rfl, by intro r c hx; simp [parseWith, M.fail] at hx,
          by intro e c hx; simp [parseWith, M.fail] at hx; rw [← hx.1]; decide⟩

/-- C14. Without level field a length field announcing any other number of bytes is an error, whatever the data
section: the result is the same for all data sections. (The dimensions are those of the returned composite.) -/
theorem C14_other_lengths_rejected {E : Env} {fs : List Field} {data : Bytes} {c : Composite} {err : Option Err}
    {n : Int} {v : Bytes} (hw : ∀ f ∈ fs, f.WF) (hR : NewComposite E (file fs data) = .ret c err)
    (hLV : value fs (str "LV") = none) (hBY : value fs (str "BY") = some v) (hn : IsInt v n)
    (hpos : 0 ≤ c.px * c.py) (hsz : c.px * c.py < 2 ^ 60) (hsz' : (header fs).length < 2 ^ 62)
    (h1 : n - ((header fs).length + 1) ≠ c.px * c.py) (h2 : n - ((header fs).length + 1) ≠ 2 * (c.px * c.py)) :
    (∃ e, err = some e ∧ e ≠ .unknownUnit) ∧ ∀ data', NewComposite E (file fs data') = .ret c err := by
  have hr := isInt_range hn
  have hp := parseHeader_eq E (file fs data)
  unfold NewComposite newCompositeRest newCompositeM at hR ⊢
  cases hh : headerOf E (file fs data) with
  | none =>
    rw [hh] at hp
    obtain ⟨e, c', he, hb, hu⟩ := hp
    have he' := fun data' => parseHeader_rest (E := E) hw data data' Composite.zero
    simp only [he, withRest] at he'
    rw [M.bind_err he] at hR
    simp only [Outcome.ret.injEq] at hR
    obtain ⟨rfl, rfl⟩ := hR
    refine ⟨⟨e, rfl, hu⟩, fun data' => ?_⟩
    rw [M.bind_err (he' data').symm]
  | some q =>
    obtain ⟨h, rest⟩ := q
    rw [hh] at hp
    obtain ⟨he, hb⟩ := hp
    have he' := fun data' => parseHeader_rest (E := E) hw data data' Composite.zero
    simp only [he, withRest] at he'
    rw [M.bind_ok he] at hR
    have hf : HeaderFields E (header fs ++ [3]) (pairs fs).reverse h := by
      obtain ⟨hd, s, g1, g2, g3, g4, g5⟩ := headerOf_some hh
      rw [readDelim_file hw] at g1
      simp only [Option.some.injEq, Prod.mk.injEq] at g1
      obtain ⟨rfl, rfl⟩ := g1
      rw [List.dropLast_concat, splitHeader_wf E fs ?_ hw] at g3
      · simp only [Option.some.injEq] at g3
        rw [g3]; exact g4
      · intro hx; subst hx; simp [header] at g2
    have hl := dataLength_spec hf hBY hn
    have hlv := level_none hf hLV
    have key : ∀ px py : Int, h.px * h.py = px * py → 0 ≤ px * py → px * py < 2 ^ 60 →
        n - ((header fs).length + 1) ≠ px * py → n - ((header fs).length + 1) ≠ 2 * (px * py) →
        identifyEncoding h = .unknown := by
      intro px py hpq k1 k2 k3 k4
      unfold identifyEncoding
      rw [hlv, hl, hpq]
      generalize px * py = q at *
      simp only [Option.isSome_none, Bool.false_eq_true, if_false]
      rw [wrap64_id (x := q) (by omega) (by omega), wrap64_id (x := q * 2) (by omega) (by omega)]
      obtain ⟨k, hk⟩ := wrap64_eq (n - (↑(header fs).length + 1))
      rw [if_neg (by omega), if_neg (by omega)]
    -- the returned composite has the dimensions of the header
    have hdim : c.px = h.px ∧ c.py = h.py := by
      have h3 := (parseData_keeps rest).out h
      cases hpd : parseData rest h with
      | ok r c' =>
        rw [hpd] at h3
        rw [M.bind_ok hpd] at hR
        have h4 := (arrangeData_keeps.bind (fun _ => Keeps.bind
          (m := M.modify (calibrateProjection E)) (k := fun _ => (Pure.pure r : M Bytes))
          (Keeps.modify fun _ => ⟨rfl, rfl⟩) fun _ => Keeps.pure)).out c'
        revert h4 hR
        cases (arrangeData >>= fun _ => M.modify (calibrateProjection E) >>= fun _ => (Pure.pure r : M Bytes)) c' with
        | ok r2 c2 =>
          intro hR h4
          simp only [Outcome.ret.injEq] at hR
          rw [← hR.1]; exact ⟨h4.1.trans h3.1, h4.2.trans h3.2⟩
        | err e c2 =>
          intro hR h4
          simp only [Outcome.ret.injEq] at hR
          rw [← hR.1]; exact ⟨h4.1.trans h3.1, h4.2.trans h3.2⟩
        | panic => intro hR h4; simp at hR
      | err e c' =>
        rw [hpd] at h3
        rw [M.bind_err hpd] at hR
        simp only [Outcome.ret.injEq] at hR
        rw [← hR.1]; exact h3
      | panic => rw [M.bind_panic hpd] at hR; simp at hR
    have hun := key c.px c.py (by rw [hdim.1, hdim.2]) hpos hsz h1 h2
    cases hpd : parseData rest h with
    | ok r c' => exact absurd hpd ((parseData_unknown h rest rest hun).2.1 r c')
    | panic => rw [M.bind_panic hpd] at hR; simp at hR
    | err e c' =>
      rw [M.bind_err hpd] at hR
      simp only [Outcome.ret.injEq] at hR
      obtain ⟨rfl, rfl⟩ := hR
      refine ⟨⟨e, rfl, (parseData_unknown h rest rest hun).2.2 e c' hpd⟩, fun data' => ?_⟩
      rw [M.bind_ok (he' data').symm, M.bind_err ((parseData_unknown h data' rest hun).1.trans hpd)]

/-- a file announcing 9 data bytes for 6 pixels -/
example : ∃ c, NewComposite env0 (file [⟨str "RX", str "021310100000217"⟩, ⟨str "BY", str " 55"⟩, ⟨str "VS", str " 3"⟩,
      ⟨str "INT", str " 5"⟩, ⟨str "PR", str " "⟩, ⟨str "E", str "+00"⟩, ⟨str "GP", str " 2x 3"⟩] [1, 2, 3])
    = .ret c (some .unknownEncoding) ∧ c.px = 3 ∧ c.py = 2 := by
  have : (match NewComposite env0 (file [⟨str "RX", str "021310100000217"⟩, ⟨str "BY", str " 55"⟩, ⟨str "VS", str " 3"⟩,
      ⟨str "INT", str " 5"⟩, ⟨str "PR", str " "⟩, ⟨str "E", str "+00"⟩, ⟨str "GP", str " 2x 3"⟩] [1, 2, 3]) with
    | .ret c (some .unknownEncoding) => c.px == 3 && c.py == 2 | _ => false) = true := by decide +kernel
  split at this
  · rename_i c h; simp only [Bool.and_eq_true, beq_iff_eq] at this; exact ⟨c, h, this.1, this.2⟩
  · simp at this

/-- the RX sample meets the hypotheses of C07 and C14, its top left pixel comes from the second data row -/
example : ∃ c, Success env0 (file fieldsRX [10, 20, 30, 40, 250, 60, 99]) c ∧ (∀ f ∈ fieldsRX, f.WF) ∧
    value fieldsRX (str "LV") = none ∧ value fieldsRX (str "BY") = some (str " 52") ∧ IsInt (str " 52") 52 ∧
    (52 : Int) - ((header fieldsRX).length + 1) = c.px * c.py ∧ Precision fieldsRX 0 ∧
    plain c 0 0 = some (Fl.lit f32 (-25 / 2)) := by
  obtain ⟨c, h, h2⟩ := sampleRX_ok
  rw [← fieldsRX_file] at h
  simp only [Bool.and_eq_true, beq_iff_eq] at h2
  obtain ⟨⟨⟨d1, d2⟩, d3⟩, d4⟩ := h2
  obtain ⟨_, _, _, hp, _, hl, _⟩ := C05_shape h
  refine ⟨c, h, fieldsRX_wf, by decide, by decide, ⟨1, .none, [5, 2], [], by decide, by decide, by decide, by decide,
    by decide, by decide, by decide, by decide⟩, ?_, ?_, ?_⟩
  · rw [← hl, ← hp, d1, d4]; decide
  · exact ⟨0, .plus, [0, 0], [], by decide, by decide, by decide, by decide, by decide, by decide, by decide, by decide⟩
  · unfold plain; rw [d4]; rfl

end Props
