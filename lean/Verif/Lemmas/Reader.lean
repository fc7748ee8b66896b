/-
The reader-passing program of Model/Reader.lean does what the byte-passing program does, for every relation between
readers and byte sequences that the two reader operations respect.
-/
import Verif.Lemmas.Bufio


namespace Radolan
open Go Go.Bufio _root_.Spec

variable {S : Source} {R : Reader S → Bytes → Prop} {N : Nat} {hang : Bool}

/-- errors of io.ReadFull: with a reader that stalls at its end (`hang`) io.ReadFull does not return -/
def hangs (hang : Bool) (e : Err) : Bool := hang && (e == .readSingleByte || e == .readLittleEndian)

/-- the reader operations on readers related to byte sequences do what the operations on byte sequences do -/
structure Steps (R : Reader S → Bytes → Prop) (N : Nat) (hang : Bool) : Prop where
  delim : ∀ d r b, R r b →
    match readDelim d b with
    | some (l, b') => ∃ r', readBytes N d [] r = some (l, none, r') ∧ R r' b'
    | none => ∃ l e r', readBytes N d [] r = some (l, some e, r')
  full : ∀ n r b, R r b →
    match readFull n b with
    | some (l, b') => ∃ r', Bufio.readFull N n [] none r = some (l, none, r') ∧ R r' b'
    | none => if hang then Bufio.readFull N n [] none r = none
        else ∃ l e r', Bufio.readFull N n [] none r = some (l, some e, r')

/-- the reader-passing program does what the byte-passing program does -/
def Rel (R : Reader S → Bytes → Prop) (hang : Bool) (mr : MR (Reader S)) (m : M Bytes) : Prop := ∀ c,
  match m c with
  | .ok b c' => ∃ r, mr c = some (.ok r c') ∧ R r b
  | .err e c' => mr c = if hangs hang e then none else some (.err e c')
  | .panic => mr c = some .panic

/-- code that does not return an error of io.ReadFull -/
def Quiet {α : Type} (m : M α) : Prop := ∀ c e c', m c = .err e c' → hangs true e = false

theorem hangs_of_true {e : Err} (h : hangs true e = false) : hangs hang e = false := by
  cases hang
  · rfl
  · exact h

theorem Quiet.pure {α : Type} (a : α) : Quiet (Pure.pure a : M α) := by intro c e c' h; simp at h
theorem Quiet.modify (g : Composite → Composite) : Quiet (M.modify g) := by intro c e c' h; simp at h
theorem Quiet.get : Quiet M.get := by intro c e c' h; simp at h
theorem Quiet.panic {α : Type} : Quiet (M.panic : M α) := by intro c e c' h; simp at h
theorem Quiet.fail {α : Type} {e : Err} (h : hangs true e = false) : Quiet (M.fail e : M α) := by
  intro c e' c' h'
  simp only [M.fail_apply, PRes.err.injEq] at h'
  exact h'.1 ▸ h
theorem Quiet.orErr {α : Type} {e : Err} (h : hangs true e = false) (x : Option α) : Quiet (M.orErr e x) := by
  cases x with
  | none => exact Quiet.fail h
  | some a => exact Quiet.pure a
theorem Quiet.orPanic {α : Type} (x : Option α) : Quiet (M.orPanic x) := by
  cases x with
  | none => exact Quiet.panic
  | some a => exact Quiet.pure a
theorem Quiet.bind {α β : Type} {m : M α} {k : α → M β} (hm : Quiet m) (hk : ∀ a, Quiet (k a)) : Quiet (m >>= k) := by
  intro c e c' h
  rw [M.bind_apply] at h
  cases hx : m c with
  | ok a c1 => rw [hx] at h; exact hk a _ _ _ h
  | err e1 c1 =>
    rw [hx] at h
    simp only [PRes.err.injEq] at h
    exact h.1 ▸ hm _ _ _ hx
  | panic => rw [hx] at h; simp at h
theorem Quiet.ite {α : Type} {P : Prop} [Decidable P] {m m' : M α} (h : Quiet m) (h' : Quiet m') :
    Quiet (if P then m else m') := by split <;> assumption

theorem MR.bind_apply (m : MR α) (k : α → MR β) (c : Composite) :
    (m >>= k) c = match m c with
      | none => none
      | some (.ok a c') => k a c'
      | some (.err e c') => some (.err e c')
      | some .panic => some .panic := rfl

theorem Rel.pure {r : Reader S} {b : Bytes} (h : R r b) :
    Rel R hang (Pure.pure r) (Pure.pure b) := fun c => ⟨r, rfl, h⟩

theorem Rel.lift {α : Type} {m : M α} (hq : Quiet m) {kr : α → MR (Reader S)} {k : α → M Bytes}
    (h : ∀ a, Rel R hang (kr a) (k a)) : Rel R hang (MR.lift m >>= kr) (m >>= k) := by
  intro c
  rw [M.bind_apply, MR.bind_apply]
  unfold MR.lift
  cases hm : m c with
  | ok a c' => exact h a c'
  | err e c' => simp only [hangs_of_true (hq _ _ _ hm)]; rfl
  | panic => rfl

theorem Rel.fail {e : Err} (h : hangs true e = false) : Rel R hang (MR.lift (M.fail e)) (M.fail e) := by
  intro c
  simp only [M.fail_apply, hangs_of_true h]
  rfl
theorem Rel.panic : Rel R hang (MR.lift M.panic) M.panic := fun c => rfl

theorem Rel.bind {mr : MR (Reader S)} {m : M Bytes} {kr : Reader S → MR (Reader S)} {k : Bytes → M Bytes}
    (hm : Rel R hang mr m) (hk : ∀ r b, R r b → Rel R hang (kr r) (k b)) :
    Rel R hang (mr >>= kr) (m >>= k) := by
  intro c
  rw [M.bind_apply, MR.bind_apply]
  have := hm c
  cases h : m c with
  | ok b c' =>
    rw [h] at this
    obtain ⟨r, h1, h2⟩ := this
    rw [h1]
    exact hk r b h2 c'
  | err e c' =>
    rw [h] at this
    simp only [this]
    split <;> rename_i h' <;> split at h' <;> simp_all
  | panic => rw [h] at this; simp only [this]

theorem Rel.readDelim (F : Steps R N hang) {e : Err} (he : hangs true e = false) (d : UInt8) {r : Reader S} {b : Bytes}
    (hs : R r b) {kr : Bytes × Reader S → MR (Reader S)} {k : Bytes × Bytes → M Bytes}
    (hk : ∀ l r b, R r b → Rel R hang (kr (l, r)) (k (l, b))) :
    Rel R hang (MR.orErr e (readBytes N d [] r) >>= kr) (M.orErr e (readDelim d b) >>= k) := by
  intro c
  have := F.delim d r b hs
  rw [MR.bind_apply]
  cases h : Radolan.readDelim d b with
  | some x =>
    obtain ⟨l, b'⟩ := x
    rw [h] at this
    obtain ⟨r', h1, h2⟩ := this
    rw [h1]
    exact hk l r' b' h2 c
  | none =>
    rw [h] at this
    obtain ⟨l', e', r', h1⟩ := this
    rw [h1]
    simp only [M.orErr_none_bind, hangs_of_true he]
    rfl

theorem Rel.readFull (F : Steps R N hang) {e : Err} (he : hangs true e = true) (n : Nat) {r : Reader S} {b : Bytes}
    (hs : R r b) {kr : Bytes × Reader S → MR (Reader S)} {k : Bytes × Bytes → M Bytes}
    (hk : ∀ l r b, R r b → Rel R hang (kr (l, r)) (k (l, b))) :
    Rel R hang (MR.orErr e (Bufio.readFull N n [] none r) >>= kr) (M.orErr e (readFull n b) >>= k) := by
  intro c
  have := F.full n r b hs
  rw [MR.bind_apply]
  cases h : Radolan.readFull n b with
  | some x =>
    obtain ⟨l, b'⟩ := x
    rw [h] at this
    obtain ⟨r', h1, h2⟩ := this
    rw [h1]
    exact hk l r' b' h2 c
  | none =>
    rw [h] at this
    simp only [M.orErr_none_bind]
    cases hang with
    | true =>
      simp only [if_true] at this
      rw [this, he]
      rfl
    | false =>
      simp only [Bool.false_eq_true, if_false] at this
      obtain ⟨l', e', r', h1⟩ := this
      rw [h1]
      rfl

theorem M.bind_assoc' (m : M α) (f : α → M β) (g : β → M γ) : (m >>= f) >>= g = m >>= fun a => f a >>= g := by
  funext c
  simp only [M.bind_apply]
  cases m c <;> rfl

theorem Quiet.levelLoop (E : Env) (lv : Bytes) : ∀ todo i, Quiet (levelLoop E lv todo i) := by
  intro todo
  induction todo with
  | zero => intro i; exact Quiet.pure _
  | succ todo ih =>
    intro i
    exact Quiet.bind (Quiet.orPanic _) fun _ => Quiet.bind (Quiet.orErr rfl _) fun _ =>
      Quiet.bind (Quiet.modify _) fun _ => ih _

theorem Quiet.assignDims {e : Err} (h : hangs true e = false) (x : Option Int × Option Int) : Quiet (assignDims e x) :=
  Quiet.bind (Quiet.modify _) fun _ => Quiet.bind (Quiet.orErr h _) fun _ =>
    Quiet.bind (Quiet.modify _) fun _ => Quiet.modify _

theorem Quiet.header (E : Env) (header : Bytes) : Quiet (do
    let body ← M.orPanic (slice? header 0 (header.length - 1))
    let sec ← M.orPanic (splitHeader E body)
    stageProduct header
    stageLength header sec
    stageCapture header
    stageForecast sec
    stageInterval sec
    stageDims sec
    stagePrecision sec
    stageLevel E sec
    stageFormat sec) := by
  refine Quiet.bind (Quiet.orPanic _) fun body => Quiet.bind (Quiet.orPanic _) fun sec => ?_
  refine Quiet.bind (Quiet.bind (Quiet.orPanic _) fun _ => Quiet.modify _) fun _ => ?_
  refine Quiet.bind (Quiet.bind (Quiet.orErr rfl _) fun _ => Quiet.modify _) fun _ => ?_
  refine Quiet.bind (Quiet.bind (Quiet.orPanic _) fun d1 => Quiet.bind (Quiet.orPanic _) fun d2 => ?_) fun _ => ?_
  · split
    · exact Quiet.modify _
    · exact Quiet.bind (Quiet.modify _) fun _ => Quiet.fail rfl
  refine Quiet.bind (Quiet.bind (Quiet.modify _) fun _ => ?_) fun _ => ?_
  · split
    · exact Quiet.bind (Quiet.orErr rfl _) fun _ => Quiet.modify _
    · exact Quiet.pure _
  refine Quiet.bind ?_ fun _ => ?_
  · unfold stageInterval
    split
    · exact Quiet.bind (Quiet.orErr rfl _) fun _ => Quiet.modify _
    · exact Quiet.pure _
  refine Quiet.bind ?_ fun _ => ?_
  · unfold stageDims
    split
    · exact Quiet.assignDims rfl _
    · split
      · exact Quiet.assignDims rfl _
      · exact Quiet.bind Quiet.get fun _ => Quiet.bind (Quiet.orErr rfl _) fun _ => Quiet.modify _
  refine Quiet.bind ?_ fun _ => ?_
  · unfold stagePrecision
    split
    · exact Quiet.bind (Quiet.orErr rfl _) fun _ => Quiet.modify _
    · exact Quiet.pure _
  refine Quiet.bind ?_ fun _ => ?_
  · unfold stageLevel
    split
    · refine Quiet.ite (Quiet.fail rfl) (Quiet.bind (Quiet.orPanic _) fun _ => Quiet.bind (Quiet.orErr rfl _) fun _ => ?_)
      refine Quiet.ite (Quiet.fail rfl) (Quiet.ite Quiet.panic ?_)
      exact Quiet.bind (Quiet.modify _) fun _ => Quiet.levelLoop _ _ _ _
    · exact Quiet.pure _
  unfold stageFormat
  split
  · exact Quiet.bind (Quiet.orErr rfl _) fun _ => Quiet.modify _
  · exact Quiet.pure _

theorem Rel.liftUnit {m : M _root_.Unit} (hq : Quiet m) {m' : M Bytes} {r : Reader S} {b : Bytes} (hs : R r b)
    (h : m' = (m >>= fun _ => Pure.pure b)) : Rel R hang (MR.lift m >>= fun _ => Pure.pure r) m' := by
  subst h
  exact Rel.lift hq fun _ => Rel.pure hs

theorem parseHeader_rel (F : Steps R N hang) (E : Env) {r : Reader S} {b : Bytes}
    (hs : R r b) : Rel R hang (parseHeaderR E N r) (parseHeader E b) := by
  unfold parseHeaderR parseHeader
  refine Rel.readDelim F rfl _ hs ?_
  intro l r b hs
  simp only
  by_cases h : l.length < 22
  · simp only [if_pos h]
    exact Rel.liftUnit (Quiet.fail rfl) hs (by funext c; rfl)
  · simp only [if_neg h]
    refine Rel.liftUnit (Quiet.header E l) hs ?_
    simp only [M.bind_assoc']

theorem rowLoop_rel {bodyR : Nat → Reader S → MR (Reader S)} {body : Nat → Bytes → M Bytes}
    (h : ∀ i r b, R r b → Rel R hang (bodyR i r) (body i b)) :
    ∀ todo i r b, R r b → Rel R hang (rowLoopR bodyR todo i r) (rowLoop body todo i b) := by
  intro todo
  induction todo with
  | zero => intro i r b hs; exact Rel.pure hs
  | succ todo ih =>
    intro i r b hs
    exact Rel.bind (h i r b hs) fun r b hs => ih (i + 1) r b hs

theorem rowSingleByte_rel (F : Steps R N hang) (last i : Nat) {r : Reader S} {b : Bytes}
    (hs : R r b) : Rel R hang (rowSingleByteR N last i r) (rowSingleByte last i b) := by
  unfold rowSingleByteR rowSingleByte
  refine Rel.lift Quiet.get fun c => ?_
  split
  · exact Rel.panic
  · refine Rel.readFull F rfl _ hs fun l r b hs => ?_
    simp only
    refine Rel.liftUnit (Quiet.bind (Quiet.orPanic _) fun _ => Quiet.bind (Quiet.orErr rfl _) fun _ => Quiet.modify _) hs ?_
    simp only [M.bind_assoc']

theorem rowLittleEndian_rel (F : Steps R N hang) (last i : Nat) {r : Reader S} {b : Bytes}
    (hs : R r b) : Rel R hang (rowLittleEndianR N last i r) (rowLittleEndian last i b) := by
  unfold rowLittleEndianR rowLittleEndian
  refine Rel.lift Quiet.get fun c => ?_
  split
  · exact Rel.panic
  · refine Rel.readFull F rfl _ hs fun l r b hs => ?_
    simp only
    refine Rel.liftUnit (Quiet.bind (Quiet.orPanic _) fun _ => Quiet.bind (Quiet.orErr rfl _) fun _ => Quiet.modify _) hs ?_
    simp only [M.bind_assoc']

theorem rlLoop_quiet (level : List F32) : ∀ (line : Bytes) (i : Nat) (dst : List F32) (pos : Nat) (off : Bool) (e : Err),
    (rlLoop level i dst pos off line).2 = some e → hangs true e = false := by
  intro line
  induction line with
  | nil => intro i dst pos off e h; simp [rlLoop] at h
  | cons x xs ih =>
    intro i dst pos off e h
    unfold rlLoop at h
    split at h
    · exact ih _ _ _ _ _ h
    · split at h
      · split at h
        · simp only [Option.some.injEq] at h
          subst h; rfl
        · exact ih _ _ _ _ _ h
      · split at h
        · exact ih _ _ _ _ _ h
        · simp only [Option.some.injEq] at h
          subst h; rfl

theorem rowRunlength_rel (F : Steps R N hang) (i : Nat) {r : Reader S} {b : Bytes}
    (hs : R r b) : Rel R hang (rowRunlengthR N i r) (rowRunlength i b) := by
  unfold rowRunlengthR rowRunlength
  refine Rel.lift Quiet.get fun c => ?_
  refine Rel.readDelim F rfl _ hs fun l r b hs => ?_
  simp only
  refine Rel.liftUnit (Quiet.bind (Quiet.orPanic _) fun dst => Quiet.bind (Quiet.modify _) fun _ => ?_) hs ?_
  · cases h : (decodeRunlength (c.level.getD []) dst l.dropLast).2 with
    | none => exact Quiet.pure _
    | some e => exact Quiet.fail (rlLoop_quiet _ _ _ _ _ _ _ h)
  simp only [M.bind_assoc']
  congr 1
  funext dst
  congr 1
  funext _
  cases (decodeRunlength (c.level.getD []) dst l.dropLast).2 <;> rfl

theorem parseWith_rel (F : Steps R N hang) (e : Encoding) {r : Reader S} {b : Bytes}
    (hs : R r b) : Rel R hang (parseWithR N e r) (parseWith e b) := by
  cases e with
  | runlength => exact Rel.lift Quiet.get fun c => rowLoop_rel (fun i r b hs => rowRunlength_rel F i hs) _ _ _ _ hs
  | littleEndian => exact Rel.lift Quiet.get fun c => rowLoop_rel (fun i r b hs => rowLittleEndian_rel F _ i hs) _ _ _ _ hs
  | singleByte => exact Rel.lift Quiet.get fun c => rowLoop_rel (fun i r b hs => rowSingleByte_rel F _ i hs) _ _ _ _ hs
  | unknown => exact Rel.fail rfl

theorem parseData_rel (F : Steps R N hang) {r : Reader S} {b : Bytes}
    (hs : R r b) : Rel R hang (parseDataR N r) (parseData b) := by
  unfold parseDataR parseData
  refine Rel.lift Quiet.get fun c => ?_
  split
  · exact Rel.fail rfl
  · split
    · exact Rel.panic
    · split
      · exact Rel.panic
      · exact Rel.lift (Quiet.modify _) fun _ => Rel.lift Quiet.get fun c => parseWith_rel F _ hs

theorem Quiet.arrangeData : Quiet arrangeData := by
  unfold Radolan.arrangeData
  refine Quiet.bind Quiet.get fun c => Quiet.ite Quiet.panic ?_
  have tail : ∀ dz : List (List (List F32)), Quiet (do
      let d0 ← M.orPanic (index? dz 0)
      M.modify fun c => { c with dataZ := dz, dz := dz.length, data := d0 }) :=
    fun dz => Quiet.bind (Quiet.orPanic _) fun _ => Quiet.modify _
  exact Quiet.ite (Quiet.ite (Quiet.bind Quiet.panic tail) (Quiet.bind (Quiet.orPanic _) tail))
    (Quiet.bind (Quiet.orPanic _) fun _ => Quiet.bind (Quiet.pure _) tail)

theorem newComposite_rel (F : Steps R N hang) (E : Env) {r : Reader S} {b : Bytes}
    (hs : R r b) : Rel R hang (newCompositeMR E N r) (newCompositeM E b) := by
  unfold newCompositeMR newCompositeM
  refine Rel.bind (parseHeader_rel F E hs) fun r b hs => ?_
  refine Rel.bind (parseData_rel F hs) fun r b hs => ?_
  exact Rel.lift Quiet.arrangeData fun _ => Rel.lift (Quiet.modify _) fun _ => Rel.pure hs

/-- a bufio.Reader over a faithful io.Reader -/
theorem faithful_steps {ok : S.State → Prop} {rem : S.State → Bytes} {idle : S.State → Nat} (F : Faithful S ok rem idle)
    (hN : 0 < N) : Steps (Sim ok rem N) N false where
  delim d r b hs := by
    have := readBytes_sim F hN d _ [] b r rfl hs
    cases h : readDelim d b with
    | some x => rw [h] at this; exact this
    | none =>
      rw [h] at this
      obtain ⟨e, r', h1⟩ := this
      exact ⟨_, e, r', h1⟩
  full n r b hs := by
    have := readFull_sim F hN n _ [] b r rfl (by simp) hs
    simp only [List.length_nil, Nat.sub_zero, List.nil_append] at this
    cases h : readFull n b with
    | some x => rw [h] at this; exact this
    | none => rw [h] at this; simpa using this

theorem newCompositeFrom_eq {ok : S.State → Prop} {rem : S.State → Bytes} {idle : S.State → Nat}
    (F : Faithful S ok rem idle) (E : Env) (hN : 0 < N) {r : Reader S} {b : Bytes}
    (hs : Sim ok rem N r b) : newCompositeFrom E N r = some (NewComposite E b) := by
  have := newComposite_rel (faithful_steps F hN) E hs Composite.zero
  unfold newCompositeFrom NewComposite newCompositeRest
  cases h : newCompositeM E b Composite.zero with
  | ok b' c =>
    rw [h] at this
    obtain ⟨r', h1, _⟩ := this
    rw [h1]
  | err e c => rw [h] at this; simp only [this]; rfl
  | panic => rw [h] at this; simp only [this]

end Radolan
