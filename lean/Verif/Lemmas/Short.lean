/-
The error reported when the data section of a binary file is too short.
-/
import Verif.Lemmas.Rows
import Verif.Lemmas.Reader

namespace Radolan
open Go

theorem rowLoop_short (body : Nat → Bytes → M Bytes) (f : Bytes → Option (List F32 × Bytes)) (I : Composite → Prop)
    (e0 : Err) (last : Nat)
    (hbody : ∀ i b c, I c → i ≤ last → (f b = none → ∃ c', body i b c = .err e0 c') ∧
      ∀ r b', f b = some (r, b') → ∃ c', body i b c = .ok b' c' ∧ I c') :
    ∀ n i b c, I c → i + n ≤ last + 1 → rowsFrom f n b = none → ∃ c', rowLoop body n i b c = .err e0 c' := by
  intro n
  induction n with
  | zero => intro i b c _ _ h; simp [rowsFrom] at h
  | succ n ih =>
    intro i b c hI hi h
    obtain ⟨h1, h2⟩ := hbody i b c hI (by omega)
    unfold rowLoop
    unfold rowsFrom at h
    cases hf : f b with
    | none =>
      obtain ⟨c', hc⟩ := h1 hf
      exact ⟨c', by rw [M.bind_err hc]⟩
    | some q =>
      obtain ⟨r, b'⟩ := q
      obtain ⟨c', hc, hI'⟩ := h2 r b' hf
      rw [hf] at h
      simp only at h
      cases hr : rowsFrom f n b' with
      | some x => rw [hr] at h; simp at h
      | none =>
        obtain ⟨c2, hc2⟩ := ih (i + 1) b' c' hI' (by omega) hr
        exact ⟨c2, by rw [M.bind_ok hc]; exact hc2⟩

/-- the state between two rows -/
structure Between (h : Composite) (last : Nat) (x : Composite) : Prop where
  dx : x.dx = h.dx
  unit : x.dataUnit = h.dataUnit
  prec : x.precision = h.precision
  blank : Blank x
  len : x.plainData.length = last + 1
  width : ∀ r ∈ x.plainData, r.length = h.dx.toNat

theorem Between.set {h x : Composite} {last k : Nat} (hx : Between h last x) {row : List F32}
    (hr : row.length = h.dx.toNat) : Between h last { x with plainData := x.plainData.set k row } := by
  refine ⟨hx.dx, hx.unit, hx.prec, hx.blank.withPlain _, by simp [hx.len], ?_⟩
  intro r hm
  rcases List.mem_or_eq_of_mem_set hm with hm | rfl
  · exact hx.width r hm
  · exact hr

/-- a binary data section that is too short is reported as a read error -/
theorem parseData_short (c : Composite) (b : Bytes) (hb : Blank c) (hd : DimsOK c) (hs : dataOf c b = none) :
    (identifyEncoding c = .singleByte → ∃ c', parseData b c = .err .readSingleByte c') ∧
    (identifyEncoding c = .littleEndian → ∃ c', parseData b c = .err .readLittleEndian c') := by
  obtain ⟨⟨hx0, hx⟩, ⟨hy0, hy⟩, hdx⟩ := hd
  unfold parseData
  have m1 : makeOK 24 c.py = true := makeOK_iff.mpr ⟨by omega, hy⟩
  have m2 : makeOK 4 c.px = true := makeOK_iff.mpr ⟨by omega, hx⟩
  simp only [M.get_bind]
  rw [if_neg (by omega), m1, m2]
  simp only [Bool.not_true, Bool.false_eq_true, if_false, M.modify_bind, M.get_bind]
  generalize hc' : ({ c with
      plainData := List.replicate c.py.toNat (List.replicate c.px.toNat Fl.zero) } : Composite) = c'
  have hid : identifyEncoding c' = identifyEncoding c := by subst hc'; rfl
  have hpl : c'.plainData = List.replicate c.py.toNat (List.replicate c.px.toNat Fl.zero) := by subst hc'; rfl
  have hll : c'.plainData.length = c.py.toNat := by rw [hpl]; simp
  have hI : Between c (c.py.toNat - 1) c' := by
    refine ⟨by subst hc'; rfl, by subst hc'; rfl, by subst hc'; rfl, by subst hc'; exact hb.withPlain _, by omega, ?_⟩
    intro r hr; rw [hpl] at hr; rw [List.eq_of_mem_replicate hr, hdx]; simp
  rw [hid]
  unfold dataOf at hs
  constructor
  · intro he
    rw [he] at hs ⊢
    simp only [Option.map_eq_none_iff] at hs
    unfold parseWith parseSingleByte
    simp only [M.get_bind, hll]
    refine rowLoop_short _ _ (Between c (c.py.toNat - 1)) _ (c.py.toNat - 1) ?_ _ _ b c' hI (by omega) hs
    intro i b x hx hi
    have hmk : makeOK 1 c.dx = true := makeOK_iff.mpr ⟨by omega, by omega⟩
    have key := rowSingleByte_eq c.dataUnit c.precision c.dx hmk (c.py.toNat - 1) i b x ⟨hx.dx, hx.unit, hx.prec⟩
      hx.blank hi hx.len hx.width
    rw [hdx] at key
    constructor
    · intro hn
      unfold rowSB at hn
      rw [Option.map_eq_none_iff] at hn
      refine ⟨x, ?_⟩
      unfold rowSingleByte
      simp only [M.get_bind, hx.dx, hmk, Bool.not_true, Bool.false_eq_true, if_false]
      rw [hdx, hn]
      rfl
    · intro r b' hr
      rw [hr] at key
      exact ⟨_, key.1, hx.set (by rw [hdx]; exact rowSB_width _ _ _ hr)⟩
  · intro he
    rw [he] at hs ⊢
    simp only [Option.map_eq_none_iff] at hs
    unfold parseWith parseLittleEndian
    simp only [M.get_bind, hll]
    refine rowLoop_short _ _ (Between c (c.py.toNat - 1)) _ (c.py.toNat - 1) ?_ _ _ b c' hI (by omega) hs
    intro i b x hx hi
    have key := rowLittleEndian_eq c.dataUnit c.precision c.dx (by omega) (by omega) (c.py.toNat - 1) i b x
      ⟨hx.dx, hx.unit, hx.prec⟩ hx.blank hi hx.len hx.width
    rw [hdx] at key
    constructor
    · intro hn
      unfold rowLE at hn
      rw [Option.map_eq_none_iff] at hn
      refine ⟨x, ?_⟩
      have hwr : wrap64 (c.dx * 2) = c.dx * 2 := wrap64_id (by omega) (by omega)
      have hmk : makeOK 1 (c.dx * 2) = true := makeOK_iff.mpr ⟨by omega, by omega⟩
      have htn : (c.dx * 2).toNat = c.px.toNat * 2 := by omega
      unfold rowLittleEndian
      simp only [M.get_bind, hx.dx, hwr, hmk, htn, Bool.not_true, Bool.false_eq_true, if_false]
      rw [hn]
      rfl
    · intro r b' hr
      rw [hr] at key
      exact ⟨_, key.1, hx.set (by rw [hdx]; exact rowLE_width _ _ _ hr)⟩

theorem Quiet.rowLoop {body : Nat → Bytes → M Bytes} (h : ∀ i b, Quiet (body i b)) :
    ∀ n i b, Quiet (Radolan.rowLoop body n i b) := by
  intro n
  induction n with
  | zero => intro i b; exact Quiet.pure _
  | succ n ih => intro i b; exact Quiet.bind (h i b) fun b => ih _ _

/-- reading a run-length file never ends in io.ReadFull -/
theorem parseData_runlength {c : Composite} (b : Bytes) (he : identifyEncoding c = .runlength) :
    ∀ e c', parseData b c = .err e c' → hangs true e = false := by
  intro e c' h
  unfold parseData at h
  simp only [M.get_bind] at h
  split at h
  · exact Quiet.fail (α := Bytes) (e := .headerRequired) rfl _ _ _ h
  · split at h
    · exact Quiet.panic (α := Bytes) _ _ _ h
    · split at h
      · exact Quiet.panic (α := Bytes) _ _ _ h
      · simp only [M.modify_bind, M.get_bind] at h
        have hid : identifyEncoding { c with
            plainData := List.replicate c.py.toNat (List.replicate c.px.toNat Fl.zero) } = .runlength := he
        rw [hid] at h
        refine Quiet.bind Quiet.get (fun c => Quiet.rowLoop (fun i b => ?_) _ _ _) _ _ _ h
        refine Quiet.bind Quiet.get fun c => Quiet.bind (Quiet.orErr rfl _) fun x => ?_
        obtain ⟨l, b'⟩ := x
        refine Quiet.bind (Quiet.orPanic _) fun dst => Quiet.bind (Quiet.modify _) fun _ => ?_
        cases h : (decodeRunlength (c.level.getD []) dst l.dropLast).2 with
        | none => exact Quiet.pure _
        | some e => exact Quiet.fail (rlLoop_quiet _ _ _ _ _ _ _ h)

end Radolan
