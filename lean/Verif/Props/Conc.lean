/-
C74: goroutines do not interfere.

A main goroutine runs any client and ends with composites `S`, in memory `R`. Then goroutines `i : ι`, as many as one likes, run
clients that parse inputs, read and modify their own composites and read the composites `S` they share. One goroutine at a time
makes one memory access, in any order (`Conc.Step`). (No two goroutines are ever about to make conflicting accesses,
C74_race_free, so the Go memory model gives them sequentially consistent behaviour.)
-/
import Verif.Lemmas.ConcComposite

namespace Props
open Go Radolan _root_.Spec
open Radolan.Conc
open Relation (ReflTransGen)

/-- the handles `hs` stand for the composites `cs` -/
def Reps (f : Conc.Mem) (hs : List Handle) (cs : List Composite) : Prop :=
  ∃ as : List (List Addr), hs.length = cs.length ∧ as.length = cs.length ∧
    (∀ (n : Nat) h a c, hs[n]? = some h → as[n]? = some a → cs[n]? = some c → Rep f h a c) ∧
    ∀ (n m : Nat) a b, n ≠ m → as[n]? = some a → as[m]? = some b → ∀ x ∈ a, x ∉ b

theorem Reps.get {f : Conc.Mem} {hs : List Handle} {cs : List Composite} (h : Reps f hs cs) (n : Nat) :
    (hs[n]? = none ∧ cs[n]? = none) ∨ ∃ hd c a, hs[n]? = some hd ∧ cs[n]? = some c ∧ Rep f hd a c := by
  obtain ⟨as, h1, h2, h3, _⟩ := h
  by_cases hn : n < cs.length
  · have e1 := List.getElem?_eq_getElem (l := hs) (show n < hs.length by omega)
    have e2 := List.getElem?_eq_getElem (l := as) (show n < as.length by omega)
    have e3 := List.getElem?_eq_getElem hn
    exact Or.inr ⟨_, _, _, e1, e3, h3 n _ _ _ e1 e2 e3⟩
  · exact Or.inl ⟨List.getElem?_eq_none (by omega), List.getElem?_eq_none (by omega)⟩

theorem Reps.view {f : Conc.Mem} {hs : List Handle} {cs : List Composite} (h : Reps f hs cs) : hs.map (·.view f) = cs := by
  apply List.ext_getElem?
  intro n
  rw [List.getElem?_map]
  rcases h.get n with ⟨h1, h2⟩ | ⟨hd, c, a, h1, h2, h3⟩
  · rw [h1, h2]; rfl
  · rw [h1, h2, Option.map_some, h3.view]

theorem Reps.mono {f g : Conc.Mem} {hs : List Handle} {cs : List Composite} (h : Reps f hs cs)
    (hfg : ∀ a o, f a = some o → g a = some o) : Reps g hs cs := by
  obtain ⟨as, h1, h2, h3, h4⟩ := h
  exact ⟨as, h1, h2, fun n h a c e1 e2 e3 => (h3 n h a c e1 e2 e3).mono hfg, h4⟩

theorem Reps.nil (f : Conc.Mem) : Reps f [] [] := ⟨[], rfl, rfl, by simp, by simp⟩

/-- another composite, in new memory -/
theorem Reps.snoc {f g : Conc.Mem} {hs : List Handle} {cs : List Composite} {hd : Handle} {a : List Addr} {c : Composite}
    (h : Reps g hs cs) (hc : Rep f hd a c) (hd' : ∀ x, f x ≠ none → g x = none) :
    Reps (union f g) (hs ++ [hd]) (cs ++ [c]) := by
  obtain ⟨as, h1, h2, h3, h4⟩ := h
  have hold : ∀ x o, g x = some o → union f g x = some o := by
    intro x o hx
    have : f x = none := by
      by_contra hn
      rw [hd' x hn] at hx; simp at hx
    rw [union_right this]; exact hx
  have hnew : ∀ x ∈ a, g x = none := fun x hx => by
    obtain ⟨l, hl⟩ := hc.floats hx
    exact hd' x (by rw [hl]; simp)
  have hown : ∀ (n : Nat) b, as[n]? = some b → ∀ x ∈ b, g x ≠ none := by
    intro n b hb x hx
    have hn := (List.getElem?_eq_some_iff.mp hb).1
    obtain ⟨l, hl⟩ := (h3 n _ b _ (List.getElem?_eq_getElem (by omega)) hb (List.getElem?_eq_getElem (by omega))).floats hx
    rw [hl]; simp
  refine ⟨as ++ [a], by simp [h1], by simp [h2], ?_, ?_⟩
  · intro n h' a' c' e1 e2 e3
    by_cases hn : n < cs.length
    · rw [List.getElem?_append_left (by omega)] at e1 e2 e3
      exact (h3 n h' a' c' e1 e2 e3).mono hold
    · have hn' : n = cs.length := by
        have := (List.getElem?_eq_some_iff.mp e3).1
        rw [List.length_append, List.length_singleton] at this; omega
      rw [List.getElem?_append_right (by omega)] at e1 e2 e3
      simp only [h1, h2, hn', Nat.sub_self, List.getElem?_cons_zero, Option.some.injEq] at e1 e2 e3
      rw [← e1, ← e2, ← e3]
      exact hc.mono fun _ _ => union_left
  · intro n m b b' hnm e1 e2 x hx hx'
    have key : ∀ (n : Nat) b, (as ++ [a])[n]? = some b → (n < as.length ∧ as[n]? = some b) ∨ (n = as.length ∧ b = a) := by
      intro n b hb
      by_cases hn : n < as.length
      · rw [List.getElem?_append_left hn] at hb; exact Or.inl ⟨hn, hb⟩
      · have hlt := (List.getElem?_eq_some_iff.mp hb).1
        rw [List.length_append, List.length_singleton] at hlt
        have hn' : n = as.length := by omega
        rw [hn', List.getElem?_append_right (by omega)] at hb
        simp only [Nat.sub_self, List.getElem?_cons_zero, Option.some.injEq] at hb
        exact Or.inr ⟨hn', hb.symm⟩
    rcases key n b e1 with ⟨_, k1⟩ | ⟨l1, k1⟩
    · rcases key m b' e2 with ⟨_, k2⟩ | ⟨l2, k2⟩
      · exact h4 n m b b' hnm k1 k2 x hx hx'
      · exact hown n b k1 x hx (hnew x (k2 ▸ hx'))
    · rcases key m b' e2 with ⟨_, k2⟩ | ⟨l2, k2⟩
      · exact hown m b' k2 x hx' (hnew x (k1 ▸ hx))
      · exact hnm (l1.trans l2.symm)

/-- changing a row of one composite -/
theorem Reps.set {f : Conc.Mem} {hs : List Handle} {cs : List Composite} {n : Nat} {hd : Handle} {c c' : Composite}
    {as : List (List Addr)} {a : List Addr} {x : Addr} {l l' : List F32}
    (h1 : hs.length = cs.length) (h2 : as.length = cs.length)
    (h3 : ∀ (n : Nat) h a c, hs[n]? = some h → as[n]? = some a → cs[n]? = some c → Rep f h a c)
    (h4 : ∀ (n m : Nat) a b, n ≠ m → as[n]? = some a → as[m]? = some b → ∀ x ∈ a, x ∉ b)
    (e1 : hs[n]? = some hd) (e2 : as[n]? = some a) (e3 : cs[n]? = some c) (hx : x ∈ a) (hf : f x = some (.floats l))
    (hr : Rep (Function.update f x (some (.floats l'))) hd a c') :
    Reps (Function.update f x (some (.floats l'))) hs (cs.set n c') := by
  refine ⟨as, by simpa using h1, by simpa using h2, ?_, h4⟩
  intro m h' a' c2 g1 g2 g3
  by_cases hm : n = m
  · subst hm
    rw [List.getElem?_set, if_pos rfl, if_pos (List.getElem?_eq_some_iff.mp e3).1] at g3
    rw [e1] at g1; rw [e2] at g2
    simp only [Option.some.injEq] at g1 g2 g3
    rw [← g1, ← g2, ← g3]; exact hr
  · rw [List.getElem?_set, if_neg hm] at g3
    exact (h3 m h' a' c2 g1 g2 g3).other (h4 n m a a' hm e2 g2 x hx) hf

/-- a client in memory of its own computes what it computes alone -/
theorem safe_client {R : Conc.Mem} {E : Env} {S : List Handle} {shared : List Composite} (hS : Reps R S shared)
    (cl : Client β) : ∀ (f : Conc.Mem) (hs : List Handle) (cs : List Composite), Reps f hs cs →
    Safe R (fun r f' => match cl.run E shared cs with
      | none => r = none
      | some (b, cs') => ∃ H, r = some (b, H) ∧ Reps f' H cs') (cl.prog E S hs) f := by
  induction cl with
  | done b => exact fun f hs cs h => ⟨hs, rfl, h⟩
  | parse input k ih =>
    intro f hs cs h
    have hp := (safe_newComposite (R := R) E input).frame (g := f) _ _ (by simp)
    rw [union_empty] at hp
    refine Safe.bind _ _ (Safe.mono ?_ _ _ hp)
    rintro r f' ⟨g, hg, hd, rfl⟩
    unfold Client.run
    cases hn : NewComposite E input with
    | panic => rw [hn] at hg; simp only at hg; subst hg; rfl
    | ret c err =>
      rw [hn] at hg
      obtain ⟨hdl, addrs, rfl, hrep⟩ := hg
      exact ih err _ _ _ (h.snoc hrep hd)
  | atZ n x y z k ih =>
    intro f hs cs h
    unfold Client.run Client.prog
    rcases h.get n with ⟨e1, e2⟩ | ⟨hd, c, a, e1, e2, hr⟩
    · rw [e1, e2]; rfl
    · rw [e1, e2]
      simp only [Option.bind_some]
      refine Safe.bind _ _ (safe_AtZ hr (fun _ _ h => Or.inl h) x y z ?_)
      cases c.AtZ x y z with
      | none => rfl
      | some v => exact ih v f hs cs h
  | sharedAtZ n x y z k ih =>
    intro f hs cs h
    unfold Client.run Client.prog
    rcases hS.get n with ⟨e1, e2⟩ | ⟨hd, c, a, e1, e2, hr⟩
    · rw [e1, e2]; rfl
    · rw [e1, e2]
      simp only [Option.bind_some]
      refine Safe.bind _ _ (safe_AtZ hr (fun _ _ h => Or.inr h) x y z ?_)
      cases c.AtZ x y z with
      | none => rfl
      | some v => exact ih v f hs cs h
  | write n w k ih =>
    intro f hs cs h
    unfold Client.run Client.prog
    rcases h.get n with ⟨e1, e2⟩ | ⟨hd, c, _, e1, e2, _⟩
    · rw [e1, e2]; rfl
    · obtain ⟨as, h1, h2, h3, h4⟩ := h
      rw [e1, e2]
      simp only [Option.bind_some]
      have hn := (List.getElem?_eq_some_iff.mp e2).1
      have e3 := List.getElem?_eq_getElem (l := as) (show n < as.length by omega)
      refine Safe.bind _ _ (safe_write (h3 n _ _ _ e1 e3 e2) w ?_ ?_)
      · intro c' x l l' hw hx hf hrep
        rw [hw]
        exact ih _ hs _ (Reps.set h1 h2 h3 h4 e1 e3 e2 hx hf hrep)
      · intro hw
        rw [hw]; rfl

/-- The main goroutine, alone at first, runs the client `main`; it ends with the result `g` and the composites `S`, in memory `R`. -/
def Published (E : Env) (main : Client γ) (g : γ) (S : List Handle) (R : Conc.Mem) : Prop :=
  ReflTransGen Step (⟨fun _ => none, fun _ => main.prog E [] []⟩ : State _root_.Unit _) ⟨R, fun _ => .ret (g, S)⟩

/-- The goroutines `i` run the clients `cl i`, in memory `R` and sharing the composites `S`; `s` is one of the states they can reach. -/
def Reaches [DecidableEq ι] (E : Env) (R : Conc.Mem) (S : List Handle) (cl : ι → Client β) (s : State ι (β × List Handle)) : Prop :=
  ReflTransGen Step ⟨R, fun i => (cl i).prog E S []⟩ s

/-- what holds in every state the goroutines can reach -/
theorem inv_of_reach {ι β γ : Type} [DecidableEq ι] {E : Env} {main : Client γ} {cl : ι → Client β} {R : Conc.Mem} {S : List Handle} {g : γ}
    (hmain : Published E main g S R)
    {s : State ι (β × List Handle)} (hs : Reaches E R S cl s) :
    ∃ shared fr, main.run E [] [] = some (g, shared) ∧ Reps R S shared ∧
      Inv R (fun i r f' => match (cl i).run E shared [] with
        | none => r = none
        | some (b, cs') => ∃ H, r = some (b, H) ∧ Reps f' H cs') s fr := by
  have h0 := Inv.init (ι := _root_.Unit) (R := fun _ => none) (prog := fun _ => main.prog E [] []) ⟨0, by simp⟩
    fun _ => safe_client (E := E) (Reps.nil _) main _ _ _ (Reps.nil _)
  obtain ⟨fr, h1⟩ := h0.steps hmain
  have h2 := h1.safe ()
  cases hrun : main.run E [] [] with
  | none => simp only [hrun, Safe] at h2; simp at h2
  | some q =>
    obtain ⟨b, shared⟩ := q
    simp only [hrun, Safe] at h2
    obtain ⟨H, he, hreps⟩ := h2
    simp only [Option.some.injEq, Prod.mk.injEq] at he
    obtain ⟨rfl, rfl⟩ := he
    have hR : Reps R S shared := hreps.mono (h1.own ())
    obtain ⟨fr', h3⟩ := (Inv.init h1.finite fun i => safe_client (E := E) hR (cl i) _ _ _ (Reps.nil _)).steps hs
    exact ⟨shared, fr', rfl, hR, h3⟩

variable {ι β γ : Type} [DecidableEq ι] {E : Env} {main : Client γ} {cl : ι → Client β} {R : Conc.Mem} {S : List Handle} {g : γ}

/-- Whatever the schedule: a goroutine that has finished has the result it has when it is alone, its composites are what they are
then, and the shared composites are as the main goroutine left them. -/
theorem C74_no_interference
    (hmain : Published E main g S R)
    {s : State ι (β × List Handle)} (hs : Reaches E R S cl s) :
    ∃ shared, main.run E [] [] = some (g, shared) ∧ S.map (·.view s.mem) = shared ∧
      ∀ i, (∀ b H, s.prog i = .ret (b, H) → (cl i).run E shared [] = some (b, H.map (·.view s.mem))) ∧
        (s.prog i = .panic → (cl i).run E shared [] = none) := by
  obtain ⟨shared, fr, h1, h2, hI⟩ := inv_of_reach hmain hs
  refine ⟨shared, h1, (h2.mono hI.frozen).view, fun i => ?_⟩
  have hsafe := hI.safe i
  constructor
  · intro b H he
    rw [he] at hsafe
    cases hrun : (cl i).run E shared [] with
    | none => simp only [hrun, Safe] at hsafe; simp at hsafe
    | some q =>
      obtain ⟨b', cs⟩ := q
      simp only [hrun, Safe] at hsafe
      obtain ⟨H', he', hr⟩ := hsafe
      simp only [Option.some.injEq, Prod.mk.injEq] at he'
      obtain ⟨rfl, rfl⟩ := he'
      rw [(hr.mono (hI.own i)).view]
  · intro he
    rw [he] at hsafe
    cases hrun : (cl i).run E shared [] with
    | none => rfl
    | some q =>
      obtain ⟨b', cs⟩ := q
      simp only [hrun, Safe] at hsafe
      simp at hsafe

/-- A goroutine that has not finished can always go on, whatever the others do: nobody waits for anybody. -/
theorem C74_progress
    (hmain : Published E main g S R)
    {s : State ι (β × List Handle)} (hs : Reaches E R S cl s) (i : ι)
    (hi : (∀ q, s.prog i ≠ .ret q) ∧ s.prog i ≠ .panic) : ∃ fresh m p, (s.prog i).step fresh s.mem = some (m, p) := by
  obtain ⟨shared, fr, _, _, hI⟩ := inv_of_reach hmain hs
  refine hI.progress i ?_
  cases hp : s.prog i with
  | ret q => exact absurd hp (hi.1 q)
  | panic => exact absurd hp hi.2
  | _ => rfl

/-- No two goroutines are ever about to access the same array, one of them to write. -/
theorem C74_race_free
    (hmain : Published E main g S R)
    {s : State ι (β × List Handle)} (hs : Reaches E R S cl s) {i j : ι} (hij : i ≠ j)
    {a : Addr} {w : Bool} (hi : (s.prog i).access = some (a, true)) : (s.prog j).access ≠ some (a, w) := by
  obtain ⟨shared, fr, _, _, hI⟩ := inv_of_reach hmain hs
  exact fun hj => hI.race_free hij hi hj

/-- Finitely many goroutines: no schedule goes on forever, and every one can be completed until all have finished. -/
theorem C74_terminates [Finite ι]
    (hmain : Published E main g S R)
    {s : State ι (β × List Handle)} (hs : Reaches E R S cl s) :
    (¬ ∃ t : Nat → State ι (β × List Handle), t 0 = s ∧ ∀ n, Step (t n) (t (n + 1))) ∧
    ∃ s', ReflTransGen Step s s' ∧ ∀ i, (∃ q, s'.prog i = .ret q) ∨ s'.prog i = .panic := by
  constructor
  · rintro ⟨t, _, ht⟩
    have hwf := step_wf (ι := ι) (α := β × List Handle)
    obtain ⟨m, ⟨n, rfl⟩, hm⟩ := hwf.has_min (Set.range t) ⟨t 0, 0, rfl⟩
    exact hm _ ⟨n + 1, rfl⟩ (ht n)
  · have key : ∀ s : State ι (β × List Handle), Reaches E R S cl s →
        ∃ s', ReflTransGen Step s s' ∧ ∀ i, (∃ q, s'.prog i = .ret q) ∨ s'.prog i = .panic := by
      intro s
      induction s using (step_wf (ι := ι) (α := β × List Handle)).induction with
      | _ s ih =>
        intro hs
        by_cases hall : ∀ i, (∃ q, s.prog i = .ret q) ∨ s.prog i = .panic
        · exact ⟨s, .refl, hall⟩
        · push Not at hall
          obtain ⟨i, h1, h2⟩ := hall
          obtain ⟨fresh, m, p, hp⟩ := C74_progress hmain hs i ⟨h1, h2⟩
          have hst : Step s ⟨m, Function.update s.prog i p⟩ := ⟨i, fresh, m, p, hp, rfl⟩
          obtain ⟨s', h3, h4⟩ := ih _ hst (hs.tail hst)
          exact ⟨s', .head hst h3, h4⟩
    exact key s hs

/-- A client that does not panic when it is alone can be the main goroutine, whatever memory it is given. -/
theorem C74_main (E : Env) (main : Client γ) {g : γ} {cs : List Composite} (h : main.run E [] [] = some (g, cs)) :
    ∃ S R, Published E main g S R ∧ S.map (·.view R) = cs := by
  have hm : Published E (Client.done ()) () [] (fun _ => none) := .refl
  obtain ⟨_, s, hs, hend⟩ := C74_terminates (cl := fun _ : _root_.Unit => main) hm .refl
  obtain ⟨shared, h1, _, h3⟩ := C74_no_interference (cl := fun _ : _root_.Unit => main) hm hs
  simp only [Client.run, Option.some.injEq, Prod.mk.injEq, true_and] at h1
  subst h1
  rcases hend () with ⟨⟨b, H⟩, hq⟩ | hq
  · have := (h3 ()).1 b H hq
    rw [h] at this
    simp only [Option.some.injEq, Prod.mk.injEq] at this
    obtain ⟨rfl, rfl⟩ := this
    refine ⟨H, s.mem, ?_, rfl⟩
    have e : s = ⟨s.mem, fun _ => .ret (g, H)⟩ := by
      cases s with
      | mk m p =>
        have : p = fun _ => .ret (g, H) := funext fun _ => hq
        rw [this]
    unfold Published
    rw [← e]; exact hs
  · have := (h3 ()).2 hq
    rw [h] at this; simp at this

/-- non-vacuity: a main goroutine that parses the RX sample and changes a pixel; three goroutines that read this pixel, parse the
sample again, change pixels of their own and read them. There is a schedule that completes, and the results are what they should be. -/
def exMain : Client _root_.Unit := .parse sampleRX fun _ => .write 0 (.data 0 0 (Fl.lit f32 7)) (.done ())

def exClient (i : Fin 3) : Client (F32 × F32 × F32) :=
  .sharedAtZ 0 0 0 0 fun a => .parse sampleRX fun _ => .atZ 0 0 0 0 fun b => .write 0 (.plain 0 0 (Fl.lit f32 (i : Int)))
    (.atZ 0 0 0 0 fun c => .done (a, b, c))

theorem exMain_run : ((exMain.run env0 [] []).map fun q => q.2.map (·.plainData)) = some
    [[[Fl.lit f32 7, .nan, Fl.lit f32 (-5/2)], [Fl.lit f32 (-55/2), Fl.lit f32 (-45/2), Fl.lit f32 (-35/2)]]] := by
  decide +kernel

theorem exClient_run : ∀ i, ((exMain.run env0 [] []).bind fun q => ((exClient i).run env0 q.2 []).map (·.1)) =
    some (Fl.lit f32 7, Fl.lit f32 (-25/2), Fl.lit f32 (i : Int)) := by
  decide +kernel

example : ∃ S R, Published env0 exMain () S R ∧ ∃ s, Reaches env0 R S exClient s ∧
    ∀ i, ∃ H, s.prog i = .ret ((Fl.lit f32 7, Fl.lit f32 (-25/2), Fl.lit f32 (i : Int)), H) := by
  have hr := exClient_run
  cases hq : exMain.run env0 [] [] with
  | none => rw [hq] at hr; exact absurd (hr 0) (by simp)
  | some q =>
    obtain ⟨⟨⟩, cs⟩ := q
    obtain ⟨S, R, hP, _⟩ := C74_main env0 exMain hq
    obtain ⟨_, s, hs, hend⟩ := C74_terminates (cl := exClient) hP .refl
    refine ⟨S, R, hP, s, hs, fun i => ?_⟩
    obtain ⟨shared, h1, _, h3⟩ := C74_no_interference hP hs
    rw [hq] at h1
    simp only [Option.some.injEq, Prod.mk.injEq, true_and] at h1
    subst h1
    have hi := hr i
    rw [hq] at hi
    simp only [Option.bind_some] at hi
    rcases hend i with ⟨⟨b, H⟩, he⟩ | he
    · rw [(h3 i).1 b H he] at hi
      simp only [Option.map_some, Option.some.injEq] at hi
      exact ⟨H, by rw [he, hi]⟩
    · rw [(h3 i).2 he] at hi; simp at hi

end Props
