import Verif.Props.Start
/-!
# C105, exactly
-/

namespace SMC.Http

/-- no call sets the listener of the server -/
def NoSet (s : StartState) : List StartAct → Prop
  | [] => True
  | a :: as => (∀ t l, a = .run t → s.pcs[t]? ≠ some (.set l)) ∧ ∀ s' e, s.step a = some (s', e) → NoSet s' as

/-- Listeners are different from each other. -/
structure Distinct (s : StartState) : Prop where
  old : ∀ (t l : Nat), s.pcs[t]? = some (.set l) → l < s.opened
  one : ∀ (t u l : Nat), s.pcs[t]? = some (.set l) → s.pcs[u]? = some (.set l) → t = u

theorem Distinct.init (n : Nat) : Distinct (.init n) := by
  have no : ∀ (t l : Nat), (StartState.init n).pcs[t]? ≠ some (.set l) := by
    intro t l h
    have := List.mem_of_getElem? h
    simp [StartState.init] at this
  exact ⟨fun t l h => absurd h (no t l), fun t u l h => absurd h (no t l)⟩

/-- What a step does to the goroutines about to set the listener, and to the listener. -/
theorem start_step {s s' : StartState} {a : StartAct} {e : List StartEvent} (h : s.step a = some (s', e)) :
    (∃ t, a = .call t true ∧ s'.opened = s.opened + 1 ∧ s'.pcs = s.pcs.set t (.set s.opened) ∧
      s'.world.listener = s.world.listener) ∨
    (∃ t l, a = .run t ∧ s.pcs[t]? = some (.set l) ∧ s'.opened = s.opened ∧ s'.pcs = s.pcs.set t (.register l) ∧
      s'.world.listener = some l) ∨
    ((∀ t l, a = .run t → s.pcs[t]? ≠ some (.set l)) ∧ s'.opened = s.opened ∧ s'.world.listener = s.world.listener ∧
      ∀ (u l : Nat), s'.pcs[u]? = some (.set l) → s.pcs[u]? = some (.set l)) := by
  have keep : ∀ (pcs : List StartPC) (t : Nat) (pc : StartPC), (∀ l, pc ≠ .set l) →
      ∀ (u l : Nat), (pcs.set t pc)[u]? = some (.set l) → pcs[u]? = some (.set l) := by
    intro pcs t pc hpc u l hu
    rw [List.getElem?_set] at hu
    split at hu
    · split at hu
      · exact absurd (Option.some.inj hu) (hpc l)
      · cases hu
    · exact hu
  cases a with
  | call t listen =>
    simp only [StartState.step] at h
    split at h
    · cases h
    split at h
    · split at h
      · rename_i hl
        cases h
        left
        exact ⟨t, by rw [hl], rfl, rfl, rfl⟩
      · cases h
        right; right
        exact ⟨(by rintro t l ⟨⟩), rfl, rfl, fun u l hu => hu⟩
    · cases h
  | run t =>
    simp only [StartState.step] at h
    split at h
    · cases h
    split at h
    · rename_i l hp
      cases h
      right; left
      exact ⟨t, l, rfl, hp, rfl, rfl, rfl⟩
    · rename_i l hp
      right; right
      have no : ∀ t' l', StartAct.run t = .run t' → s.pcs[t']? ≠ some (.set l') := by
        rintro t' l' ⟨⟩ h'
        rw [hp] at h'
        cases h'
      split at h <;> cases h
      · exact ⟨no, rfl, rfl, keep _ _ _ (by rintro l ⟨⟩)⟩
      · exact ⟨no, rfl, rfl, keep _ _ _ (by rintro l ⟨⟩)⟩
    · rename_i l hp
      right; right
      have no : ∀ t' l', StartAct.run t = .run t' → s.pcs[t']? ≠ some (.set l') := by
        rintro t' l' ⟨⟩ h'
        rw [hp] at h'
        cases h'
      cases h
      exact ⟨no, rfl, rfl, keep _ _ _ (by rintro l ⟨⟩)⟩
    · cases h

theorem pcs_get {pcs : List StartPC} {t u : Nat} {pc q : StartPC} (h : (pcs.set t pc)[u]? = some q) :
    (u = t ∧ q = pc) ∨ (u ≠ t ∧ pcs[u]? = some q) := by
  rw [List.getElem?_set] at h
  split at h
  · rename_i e
    split at h
    · exact .inl ⟨e.symm, (Option.some.inj h).symm⟩
    · cases h
  · rename_i e
    exact .inr ⟨fun c => e c.symm, h⟩

theorem Distinct.step {s s' : StartState} {a : StartAct} {e : List StartEvent} (d : Distinct s)
    (h : s.step a = some (s', e)) : Distinct s' := by
  rcases start_step h with ⟨t, -, ho, hp, -⟩ | ⟨t, l, -, ht, ho, hp, -⟩ | ⟨-, ho, -, hk⟩
  · constructor
    · intro u l hu
      rw [hp] at hu
      rcases pcs_get hu with ⟨-, e⟩ | ⟨-, e⟩
      · cases e; omega
      · have := d.old u l e; omega
    · intro u v l hu hv
      rw [hp] at hu hv
      rcases pcs_get hu with ⟨e1, e⟩ | ⟨-, e⟩ <;> rcases pcs_get hv with ⟨e2, e'⟩ | ⟨-, e'⟩
      · omega
      · cases e; have := d.old v _ e'; omega
      · cases e'; have := d.old u _ e; omega
      · exact d.one u v l e e'
  · have back : ∀ (u k : Nat), s'.pcs[u]? = some (.set k) → s.pcs[u]? = some (.set k) := by
      intro u k hu
      rw [hp] at hu
      rcases pcs_get hu with ⟨-, e⟩ | ⟨-, e⟩
      · cases e
      · exact e
    exact ⟨fun u k hu => ho ▸ d.old u k (back u k hu), fun u v k hu hv => d.one u v k (back u k hu) (back v k hv)⟩
  · exact ⟨fun u k hu => ho ▸ d.old u k (hk u k hu), fun u v k hu hv => d.one u v k (hk u k hu) (hk v k hv)⟩

theorem start_cons {s s' : StartState} {a : StartAct} {as : List StartAct} {es : List StartEvent}
    (h : s.run (a :: as) = some (s', es)) : ∃ s1 e1 e2, s.step a = some (s1, e1) ∧ s1.run as = some (s', e2) ∧ es = e1 ++ e2 := by
  simp only [StartState.run, Option.bind_eq_bind, Option.bind_eq_some_iff, Option.pure_def,
    Option.some.injEq, Prod.mk.injEq, Prod.exists] at h
  obtain ⟨s1, e1, h1, s2, e2, h2, rfl, rfl⟩ := h
  exact ⟨s1, e1, e2, h1, h2, rfl⟩

theorem Distinct.run {s s' : StartState} {as : List StartAct} {es : List StartEvent} (d : Distinct s)
    (h : s.run as = some (s', es)) : Distinct s' := by
  induction as generalizing s es with
  | nil => cases h; exact d
  | cons a as ih =>
    obtain ⟨s1, e1, e2, h1, h2, -⟩ := start_cons h
    exact ih (d.step h1) h2

/-- A listener opened earlier that no goroutine is about to set. -/
def Past (s : StartState) (l : Nat) : Prop := l < s.opened ∧ ∀ t : Nat, s.pcs[t]? ≠ some (.set l)

theorem Past.step {s s' : StartState} {a : StartAct} {e : List StartEvent} {l : Nat} (d : Past s l)
    (h : s.step a = some (s', e)) : Past s' l := by
  rcases start_step h with ⟨t, -, ho, hp, -⟩ | ⟨t, k, -, ht, ho, hp, -⟩ | ⟨-, ho, -, hk⟩
  · refine ⟨by have := d.1; omega, fun u hu => ?_⟩
    rw [hp] at hu
    rcases pcs_get hu with ⟨-, e⟩ | ⟨-, e⟩
    · cases e; exact absurd d.1 (Nat.lt_irrefl _)
    · exact d.2 u e
  · refine ⟨ho ▸ d.1, fun u hu => ?_⟩
    rw [hp] at hu
    rcases pcs_get hu with ⟨-, e⟩ | ⟨-, e⟩
    · cases e
    · exact d.2 u e
  · exact ⟨ho ▸ d.1, fun u hu => d.2 u (hk u l hu)⟩

/-- Once replaced, a listener does not come back. -/
theorem Past.gone {s s' : StartState} {as : List StartAct} {es : List StartEvent} {l : Nat} (d : Past s l)
    (hl : s.world.listener ≠ some l) (h : s.run as = some (s', es)) : s'.world.listener ≠ some l := by
  induction as generalizing s es with
  | nil => cases h; exact hl
  | cons a as ih =>
    obtain ⟨s1, e1, e2, h1, h2, -⟩ := start_cons h
    refine ih (d.step h1) ?_ h2
    rcases start_step h1 with ⟨t, -, -, -, e⟩ | ⟨t, k, -, ht, -, -, e⟩ | ⟨-, -, e, -⟩
    · rwa [e]
    · rw [e]
      intro c
      cases c
      exact d.2 t ht
    · rwa [e]

theorem Past.kept {s s' : StartState} {as : List StartAct} {es : List StartEvent} {l : Nat} (d : Past s l)
    (hl : s.world.listener = some l) (h : s.run as = some (s', es)) : s'.world.listener = some l ↔ NoSet s as := by
  induction as generalizing s es with
  | nil => cases h; exact ⟨fun _ => trivial, fun _ => hl⟩
  | cons a as ih =>
    obtain ⟨s1, e1, e2, h1, h2, -⟩ := start_cons h
    have next : (∀ s' e, s.step a = some (s', e) → NoSet s' as) ↔ NoSet s1 as := by
      constructor
      · exact fun h => h _ _ h1
      · intro h s' e h'
        rw [h1] at h'
        cases h'
        exact h
    rcases start_step h1 with ⟨t, ha, -, -, e⟩ | ⟨t, k, ha, ht, -, -, e⟩ | ⟨hn, -, e, -⟩
    · have hn : ∀ t l, a = .run t → s.pcs[t]? ≠ some (.set l) := by
        rintro t l rfl
        cases ha
      rw [ih (d.step h1) (e.trans hl) h2, ← next]
      exact ⟨fun h => ⟨hn, h⟩, fun h => h.2⟩
    · have hne : s1.world.listener ≠ some l := by
        rw [e]
        intro c
        cases c
        exact d.2 t ht
      exact ⟨fun c => absurd c ((d.step h1).gone hne h2), fun c => absurd ht (c.1 t k ha)⟩
    · rw [ih (d.step h1) (e.trans hl) h2, ← next]
      exact ⟨fun h => ⟨hn, h⟩, fun h => h.2⟩

end SMC.Http

namespace SMC.Props

open SMC.Http

theorem served_once {s s' : StartState} {as : List StartAct} {es : List StartEvent} {n : Nat}
    (h : (StartState.init n).run as = some (s, es)) {t l : Nat} (ht : s.pcs[t]? = some (.serve l)) {e : List StartEvent}
    (h' : s.step (.run t) = some (s', e)) : s'.world.served = [l] ∧ e = [.returned t] ∧ s'.world.listener = s.world.listener := by
  have i := (StartInv.init n).run h
  have c : go! "/" ∈ s.world.patterns := by
    refine Classical.byContradiction fun c => ?_
    have h0 := (i.none c).1
    have : 0 < s.pcs.countP StartPC.serving := List.countP_pos_iff.2 ⟨_, List.mem_of_getElem? ht, rfl⟩
    omega
  have hone := i.one c
  have hpos : 0 < s.pcs.countP StartPC.serving := List.countP_pos_iff.2 ⟨_, List.mem_of_getElem? ht, rfl⟩
  have hz : s.world.served = [] := List.length_eq_zero_iff.1 (by omega)
  simp only [StartState.step, ht] at h'
  split at h'
  · cases h'
  · cases h'
    exact ⟨by simp [StartState.goto, hz], rfl, rfl⟩

/-- **C105**, exactly: a call that sets the listener of the server and later returns has its own listener served, and the server
it returns has a listener that is served if and only if no other call set the listener in between. -/
theorem C105_exact (n : Nat) (as bs : List StartAct) (s0 s1 s2 s3 : StartState) (e0 e1 e2 e3 : List StartEvent) (t l : Nat)
    (h0 : (StartState.init n).run as = some (s0, e0)) (hset : s0.pcs[t]? = some (.set l))
    (h1 : s0.step (.run t) = some (s1, e1)) (h2 : s1.run bs = some (s2, e2)) (hserve : s2.pcs[t]? = some (.serve l))
    (h3 : s2.step (.run t) = some (s3, e3)) :
    e3 = [.returned t] ∧ s3.world.served = [l] ∧
      ((∃ l', s3.world.listener = some l' ∧ l' ∈ s3.world.served) ↔ NoSet s1 bs) := by
  have d := (Distinct.init n).run h0
  have hall : (StartState.init n).run (as ++ .run t :: bs) = some (s2, e0 ++ (e1 ++ e2)) := by
    have app : ∀ (as : List StartAct) (s : StartState) e, s.run as = some (s0, e) →
        s.run (as ++ .run t :: bs) = some (s2, e ++ (e1 ++ e2)) := by
      intro as
      induction as with
      | nil => intro s e h; cases h; simp [StartState.run, h1, h2]
      | cons a as ih =>
        intro s e h
        obtain ⟨s', f1, f2, g1, g2, rfl⟩ := start_cons h
        simp [StartState.run, g1, ih s' f2 g2]
    exact app as _ _ h0
  obtain ⟨hs, he, hl⟩ := served_once hall hserve h3
  refine ⟨he, hs, ?_⟩
  have hp : Past s1 l ∧ s1.world.listener = some l := by
    rcases start_step h1 with ⟨t', c, -⟩ | ⟨t', l', c, g1, g2, g3, g4⟩ | ⟨c, -⟩
    · cases c
    · cases c
      rw [hset] at g1
      cases g1
      refine ⟨⟨g2 ▸ d.old t l hset, fun u hu => ?_⟩, g4⟩
      rw [g3] at hu
      rcases pcs_get hu with ⟨-, c⟩ | ⟨c, c'⟩
      · cases c
      · exact c (d.one u t l c' hset)
    · exact absurd hset (c t l rfl)
  rw [← hp.1.kept hp.2 h2, hs, hl]
  simp

/-- the execution of `C105_false`, in which the other call sets the listener in between -/
example : ∃ s0 s1 s2 s3 e0 e1 e2 e3, (StartState.init 2).run [.call 0 true, .call 1 true] = some (s0, e0) ∧
    s0.pcs[0]? = some (.set 0) ∧ s0.step (.run 0) = some (s1, e1) ∧ s1.run [.run 0, .run 1] = some (s2, e2) ∧
    s2.pcs[0]? = some (.serve 0) ∧ s2.step (.run 0) = some (s3, e3) ∧ s3.world.listener = some 1 ∧ ¬ NoSet s1 [.run 0, .run 1] := by
  refine ⟨_, _, _, _, _, _, _, _, rfl, rfl, rfl, rfl, rfl, rfl, rfl, fun h => ?_⟩
  exact (h.2 _ _ rfl).1 1 1 rfl rfl

/-- and one in which the other call comes first and waits to register -/
example : ∃ s0 s1 s2 s3 e0 e1 e2 e3, (StartState.init 2).run [.call 1 true, .run 1, .call 0 true] = some (s0, e0) ∧
    s0.pcs[0]? = some (.set 1) ∧ s0.step (.run 0) = some (s1, e1) ∧ s1.run [.run 0, .run 1] = some (s2, e2) ∧
    s2.pcs[0]? = some (.serve 1) ∧ s2.step (.run 0) = some (s3, e3) ∧ s3.world.listener = some 1 ∧ e2 = [.panicked 1] ∧
    NoSet s1 [.run 0, .run 1] := by
  refine ⟨_, _, _, _, _, _, _, _, rfl, rfl, rfl, rfl, rfl, rfl, rfl, rfl, ?_, ?_⟩
  · rintro t l ⟨⟩ h
    cases h
  · intro s' e h
    cases h
    refine ⟨?_, fun _ _ _ => trivial⟩
    rintro t l ⟨⟩ h
    cases h

end SMC.Props
