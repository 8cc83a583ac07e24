import Verif.Http.Start
/-!
# C105: concurrent calls of StartServer
-/

namespace SMC.Http

/-- the calls that returned -/
def returns (es : List StartEvent) : Nat := es.countP fun
  | .returned _ => true
  | _ => false

/-- the calls that panicked -/
def panics (es : List StartEvent) : Nat := es.countP fun
  | .panicked _ => true
  | _ => false

/-- about to serve -/
def StartPC.serving : StartPC → Bool
  | .serve _ => true
  | _ => false

/-- in a call, with a listener of its own -/
def StartPC.busy : StartPC → Bool
  | .idle => false
  | _ => true

/-- the successful calls of net.Listen in a schedule -/
def listens (as : List StartAct) : Nat := as.countP fun
  | .call _ true => true
  | _ => false

/-- What holds after every execution: at most one call has registered its handler, and every listener
opened is in use by a call, was returned or left behind by a panic. -/
structure StartInv (s : StartState) (es : List StartEvent) : Prop where
  none : go! "/" ∉ s.world.patterns → s.pcs.countP StartPC.serving = 0 ∧ s.world.served = []
  one : go! "/" ∈ s.world.patterns → s.pcs.countP StartPC.serving + s.world.served.length = 1
  rets : returns es = s.world.served.length
  all : s.opened = s.pcs.countP StartPC.busy + returns es + panics es

theorem countP_goto {s : StartState} {t : Nat} {p q : StartPC} (h : s.pcs[t]? = some p) (f : StartPC → Bool) :
    (s.goto t q).pcs.countP f + (if f p then 1 else 0) = s.pcs.countP f + (if f q then 1 else 0) := by
  obtain ⟨lt, e⟩ := List.getElem?_eq_some_iff.1 h
  simp only [StartState.goto]
  rw [List.countP_set lt, e]
  have : f p = true → 0 < s.pcs.countP f := by
    intro hf
    exact List.countP_pos_iff.2 ⟨p, e ▸ List.getElem_mem lt, hf⟩
  split
  · rename_i hf; have := this hf; omega
  · omega

theorem StartInv.init (n : Nat) : StartInv (.init n) [] := by
  have h : ∀ f : StartPC → Bool, f .idle = false → (StartState.init n).pcs.countP f = 0 := by
    intro f hf
    rw [List.countP_eq_zero]
    intro p m
    rw [List.eq_of_mem_replicate m, hf]
    exact Bool.false_ne_true
  exact ⟨fun _ => ⟨h _ rfl, rfl⟩, fun m => by simp [StartState.init] at m, rfl, by rw [h _ rfl]; rfl⟩

theorem StartInv.step {s s' : StartState} {es e : List StartEvent} {a : StartAct} (h : StartInv s es)
    (hs : s.step a = some (s', e)) : StartInv s' (es ++ e) := by
  cases a with
  | call t listen =>
    simp only [StartState.step] at hs
    split at hs
    · cases hs
    split at hs
    · rename_i hp
      split at hs
      · cases hs
        have c1 := countP_goto (s := { s with opened := s.opened + 1 }) (q := .set s.opened) hp StartPC.serving
        have c2 := countP_goto (s := { s with opened := s.opened + 1 }) (q := .set s.opened) hp StartPC.busy
        simp only [StartPC.serving, StartPC.busy, Bool.false_eq_true, if_false, if_true] at c1 c2
        rw [List.append_nil]
        refine ⟨fun m => ?_, fun m => ?_, h.rets, ?_⟩
        · rw [Nat.add_zero, Nat.add_zero] at c1
          rw [c1]; exact h.none m
        · rw [Nat.add_zero, Nat.add_zero] at c1
          rw [c1]; exact h.one m
        · have := h.all
          show s.opened + 1 = _
          omega
      · cases hs
        refine ⟨h.none, h.one, ?_, ?_⟩
        · simpa [returns] using h.rets
        · simpa [returns, panics] using h.all
    · cases hs
  | run t =>
    simp only [StartState.step] at hs
    split at hs
    · cases hs
    split at hs
    · rename_i l hp
      cases hs
      have c1 := countP_goto (s := { s with world := { s.world with listener := some l } }) (q := .register l) hp StartPC.serving
      have c2 := countP_goto (s := { s with world := { s.world with listener := some l } }) (q := .register l) hp StartPC.busy
      simp only [StartPC.serving, StartPC.busy, Bool.false_eq_true, if_false, if_true, Nat.add_zero] at c1 c2
      rw [List.append_nil]
      refine ⟨fun m => by rw [c1]; exact h.none m, fun m => by rw [c1]; exact h.one m, h.rets, ?_⟩
      have := h.all
      show s.opened = _
      omega
    · rename_i l hp
      split at hs
      · rename_i m0
        cases hs
        have c1 := countP_goto (q := .idle) hp StartPC.serving
        have c2 := countP_goto (q := .idle) hp StartPC.busy
        simp only [StartPC.serving, StartPC.busy, Bool.false_eq_true, if_false, if_true, Nat.add_zero] at c1 c2
        refine ⟨fun m => absurd m0 m, fun m => by rw [c1]; exact h.one m, ?_, ?_⟩
        · have := h.rets
          simp only [returns, List.countP_append, List.countP_cons, List.countP_nil, Bool.false_eq_true, if_false] at this ⊢
          exact this
        · have := h.all
          simp only [returns, panics, List.countP_append, List.countP_cons, List.countP_nil, if_true, Bool.false_eq_true,
            if_false] at this ⊢
          show s.opened = _
          omega
      · rename_i m0
        cases hs
        have c1 := countP_goto (s := { s with world := { s.world with patterns := (go! "/") :: s.world.patterns } })
          (q := .serve l) hp StartPC.serving
        have c2 := countP_goto (s := { s with world := { s.world with patterns := (go! "/") :: s.world.patterns } })
          (q := .serve l) hp StartPC.busy
        simp only [StartPC.serving, StartPC.busy, Bool.false_eq_true, if_false, if_true, Nat.add_zero] at c1 c2
        obtain ⟨n1, n2⟩ := h.none m0
        rw [List.append_nil]
        refine ⟨fun m => absurd List.mem_cons_self m, fun m => ?_, h.rets, ?_⟩
        · rw [c1, n1]
          show 0 + 1 + s.world.served.length = 1
          rw [n2]; rfl
        · have := h.all
          show s.opened = _
          omega
    · rename_i l hp
      cases hs
      have c1 := countP_goto (s := { s with world := { s.world with served := l :: s.world.served } })
        (q := .idle) hp StartPC.serving
      have c2 := countP_goto (s := { s with world := { s.world with served := l :: s.world.served } })
        (q := .idle) hp StartPC.busy
      simp only [StartPC.serving, StartPC.busy, Bool.false_eq_true, if_false, if_true, Nat.add_zero] at c1 c2
      have hr := h.rets
      have ha := h.all
      simp only [returns, panics] at hr ha
      refine ⟨fun m => ?_, fun m => ?_, ?_, ?_⟩
      · have := h.none m
        omega
      · have := h.one m
        show _ + (s.world.served.length + 1) = 1
        omega
      · simp only [returns, List.countP_append, List.countP_cons, List.countP_nil, if_true]
        show _ = s.world.served.length + 1
        omega
      · simp only [returns, panics, List.countP_append, List.countP_cons, List.countP_nil, if_true, Bool.false_eq_true,
          if_false]
        show s.opened = _
        omega
    · cases hs

theorem StartInv.run {s s' : StartState} {es e : List StartEvent} {as : List StartAct} (h : StartInv s es)
    (hs : s.run as = some (s', e)) : StartInv s' (es ++ e) := by
  induction as generalizing s es e with
  | nil => cases hs; rw [List.append_nil]; exact h
  | cons a as ih =>
    simp only [StartState.run, Option.bind_eq_bind, Option.bind_eq_some_iff, Option.pure_def,
      Option.some.injEq, Prod.mk.injEq, Prod.exists] at hs
    obtain ⟨s1, e1, h1, s2, e2, h2, rfl, rfl⟩ := hs
    rw [← List.append_assoc]
    exact ih (h.step h1) h2

end SMC.Http

namespace SMC.Props
open SMC.Http

/-- **C105** A call that no other call interrupts is `startServer`: it ends in the same way and
leaves the same server behind. -/
theorem C105_alone (s : StartState) (t : Nat) (he : s.exited = false) (ht : s.pcs[t]? = some .idle) :
    (∃ w, startServer s.world (some s.opened) = .panicked w ∧
      s.run [.call t true, .run t, .run t] = some ({ s with world := w, opened := s.opened + 1 }, [.panicked t])) ∨
    ∃ w, startServer s.world (some s.opened) = .returned w ∧
      s.run [.call t true, .run t, .run t, .run t] = some ({ s with world := w, opened := s.opened + 1 }, [.returned t]) := by
  obtain ⟨lt, e⟩ := List.getElem?_eq_some_iff.1 ht
  obtain ⟨w, o, x, pcs⟩ := s
  simp only at he ht lt e
  subst he
  have back : pcs.set t .idle = pcs := by rw [← e]; exact List.set_getElem_self lt
  by_cases c : go! "/" ∈ w.patterns
  · left
    refine ⟨{ w with listener := some o }, by simp only [startServer, if_pos c], ?_⟩
    simp [StartState.run, StartState.step, StartState.goto, c, lt, e, back]
  · right
    refine ⟨⟨some o, (go! "/") :: w.patterns, o :: w.served⟩, by simp only [startServer, if_neg c], ?_⟩
    simp [StartState.run, StartState.step, StartState.goto, c, lt, e, back]

example : (StartState.init 2).exited = false ∧ (StartState.init 2).pcs[1]? = some .idle ∧
    (StartState.init 2).run [.call 1 true, .run 1, .run 1, .run 1] =
      some (⟨⟨some 0, [go! "/"], [0]⟩, 1, false, [.idle, .idle]⟩, [.returned 1]) := by
  refine ⟨?_, ?_, ?_⟩ <;> decide +kernel

/-- **C105** Of any number of concurrent calls at most one returns, with its listener as the only one
that is ever served. Every other call that got a listener is still running or has panicked. -/
theorem C105_once (n : Nat) (as : List StartAct) (s : StartState) (es : List StartEvent)
    (h : (StartState.init n).run as = some (s, es)) :
    returns es ≤ 1 ∧ returns es = s.world.served.length ∧ s.opened = s.pcs.countP StartPC.busy + returns es + panics es := by
  have i := (StartInv.init n).run h
  rw [List.nil_append] at i
  refine ⟨?_, i.rets, i.all⟩
  rw [i.rets]
  by_cases c : go! "/" ∈ s.world.patterns
  · have := i.one c; omega
  · rw [(i.none c).2]; exact Nat.zero_le _

/-- **C105** A call that gets no listener ends the process, with all other calls where they are: nothing happens after it. -/
theorem C105_exit (s s' : StartState) (as : List StartAct) (es : List StartEvent) (t : Nat) (listen : Bool)
    (h : s.run (.call t listen :: as) = some (s', es)) :
    (listen = false ∧ as = [] ∧ es = [.exited t] ∧ s'.world = s.world ∧ s'.pcs = s.pcs) ∨
    (listen = true ∧ ∃ s1 : StartState, s1.run as = some (s', es) ∧ s1.pcs[t]? = some (.set s.opened)) := by
  simp only [StartState.run, Option.bind_eq_bind, Option.bind_eq_some_iff, Option.pure_def,
    Option.some.injEq, Prod.mk.injEq, Prod.exists] at h
  obtain ⟨s1, e1, h1, s2, e2, h2, rfl, rfl⟩ := h
  simp only [StartState.step] at h1
  split at h1
  · cases h1
  split at h1
  · rename_i hp
    obtain ⟨lt, -⟩ := List.getElem?_eq_some_iff.1 hp
    cases listen with
    | true =>
      cases h1
      exact .inr ⟨rfl, _, h2, by simp [StartState.goto, lt]⟩
    | false =>
      cases h1
      left
      cases as with
      | nil => cases h2; exact ⟨rfl, rfl, rfl, rfl, rfl⟩
      | cons a as =>
        simp only [StartState.run, Option.bind_eq_bind, Option.bind_eq_some_iff, Prod.exists] at h2
        obtain ⟨s3, e3, h3, -⟩ := h2
        cases a <;> simp [StartState.step] at h3
  · cases h1

-- the process ends while the other call is about to set its listener
example : (StartState.init 2).run [.call 0 true, .call 1 false] = some (⟨{}, 1, true, [.set 0, .idle]⟩, [.exited 1]) ∧
    (StartState.init 2).run [.call 0 true, .call 1 false, .run 0] = none := by decide +kernel

/-- Two calls: both open a listener and set it, the first one registers the handler, the second one
panics. -/
def twoStarts : List StartAct :=
  [.call 0 true, .call 1 true, .run 0, .run 1, .run 0, .run 0, .run 1]

/-- After them the server has the listener of the second call, and the first one is served. -/
def afterTwo : StartState := ⟨⟨some 1, [go! "/"], [0]⟩, 2, false, [.idle, .idle]⟩

example : (StartState.init 2).run twoStarts = some (afterTwo, [.returned 0, .panicked 1]) := by decide +kernel

/-- The full statement of **C105** as a proposition: when a call returns, the listener of the server is
one that is served. -/
def ListenerServed : Prop :=
  ∀ n as s es t, (StartState.init n).run as = some (s, es) → es.getLast? = some (.returned t) →
    ∃ l, s.world.listener = some l ∧ l ∈ s.world.served

/-- **C105** is false: the first call serves its listener and returns a server with the listener of the
second call, which then panics; the listener stays open with nobody to serve or close it. -/
theorem C105_false : ¬ ListenerServed ∧ ∃ as s, (StartState.init 2).run as = some (s, [.returned 0, .panicked 1]) ∧
    s.world.listener = some 1 ∧ s.world.served = [0] ∧ s.pcs = [.idle, .idle] := by
  refine ⟨fun h => ?_, twoStarts, afterTwo, by decide +kernel, rfl, rfl, rfl⟩
  obtain ⟨l, h1, h2⟩ := h 2 (twoStarts.take 6)
    ⟨⟨some 1, [go! "/"], [0]⟩, 2, false, [.idle, .register 1]⟩ [.returned 0] 0 (by decide +kernel) rfl
  simp only [Option.some.injEq] at h1
  subst h1
  simp at h2

/-- **C105** There is a data race: two calls can be about to write to the listener of the server at the
same time. -/
theorem C105_race : ∃ as s es, (StartState.init 2).run as = some (s, es) ∧ s.pcs = [.set 0, .set 1] ∧
    (s.step (.run 0)).isSome ∧ (s.step (.run 1)).isSome :=
  ⟨[.call 0 true, .call 1 true], _, _, rfl, rfl, rfl, rfl⟩

/-- Nobody is about to set the listener, which is `l`, and goroutine `t` goes on with `l` if it is in a call. -/
structure Settled (t l : Nat) (s : StartState) : Prop where
  quiet : ∀ (u k : Nat), s.pcs[u]? ≠ some (StartPC.set k)
  set : s.world.listener = some l
  own : ∀ k : Nat, s.pcs[t]? = some (StartPC.register k) ∨ s.pcs[t]? = some (StartPC.serve k) → k = l

theorem settled_goto {t l u : Nat} {s : StartState} {q : StartPC} (h : Settled t l s) (hq : ∀ k, q ≠ .set k)
    (ho : u = t → ∀ k, q = .register k ∨ q = .serve k → k = l) : Settled t l (s.goto u q) := by
  refine ⟨fun v k e => ?_, h.set, fun k e => ?_⟩
  · simp only [StartState.goto, List.getElem?_set] at e
    split at e
    · split at e
      · exact hq k (Option.some.inj e)
      · cases e
    · exact h.quiet v k e
  · simp only [StartState.goto, List.getElem?_set] at e
    split at e
    · rename_i ut
      split at e
      · exact ho ut k (e.imp Option.some.inj Option.some.inj)
      · rcases e with e | e <;> cases e
    · exact h.own k e

theorem Settled.step {t l : Nat} {s s' : StartState} {a : StartAct} {e : List StartEvent} (h : Settled t l s)
    (ha : ∀ u, a ≠ .call u true) (hs : s.step a = some (s', e)) :
    Settled t l s' ∧ (l ∈ s.world.served → l ∈ s'.world.served) ∧ (.returned t ∈ e → l ∈ s'.world.served) := by
  cases a with
  | call u listen =>
    cases listen with
    | true => exact absurd rfl (ha u)
    | false =>
      simp only [StartState.step] at hs
      split at hs
      · cases hs
      split at hs
      · cases hs
        exact ⟨⟨h.quiet, h.set, h.own⟩, id, fun m => by simp at m⟩
      · cases hs
  | run u =>
    simp only [StartState.step] at hs
    split at hs
    · cases hs
    split at hs
    · rename_i k hp
      exact absurd hp (h.quiet u k)
    · rename_i k hp
      split at hs
      · cases hs
        refine ⟨settled_goto h (fun _ => by simp) fun _ _ m => ?_, id, fun m => by simp at m⟩
        rcases m with m | m <;> cases m
      · cases hs
        refine ⟨settled_goto (s := { s with world := _ }) ⟨h.quiet, h.set, h.own⟩ (fun _ => by simp) fun ut j m => ?_,
          id, fun m => by simp at m⟩
        rcases m with m | m
        · cases m
        · cases m
          subst ut
          exact h.own k (.inl hp)
    · rename_i k hp
      cases hs
      refine ⟨settled_goto (s := { s with world := _ }) ⟨h.quiet, h.set, h.own⟩ (fun _ => by simp) fun _ _ m => ?_,
        fun m => List.mem_cons_of_mem _ m, fun m => ?_⟩
      · rcases m with m | m <;> cases m
      · simp only [List.mem_singleton, StartEvent.returned.injEq] at m
        subst m
        rw [h.own k (.inr hp)]
        exact List.mem_cons_self
    · cases hs

theorem Settled.run {t l : Nat} {s s' : StartState} {as : List StartAct} {es : List StartEvent} (h : Settled t l s)
    (ha : ∀ u, .call u true ∉ as) (hs : s.run as = some (s', es)) :
    Settled t l s' ∧ (l ∈ s.world.served → l ∈ s'.world.served) ∧ (.returned t ∈ es → l ∈ s'.world.served) := by
  induction as generalizing s es with
  | nil => cases hs; exact ⟨h, id, fun m => by simp at m⟩
  | cons a as ih =>
    simp only [StartState.run, Option.bind_eq_bind, Option.bind_eq_some_iff, Option.pure_def,
      Option.some.injEq, Prod.mk.injEq, Prod.exists] at hs
    obtain ⟨s1, e1, h1, s2, e2, h2, rfl, rfl⟩ := hs
    obtain ⟨a1, a2, a3⟩ := h.step (fun u e => ha u (e ▸ List.mem_cons_self)) h1
    obtain ⟨b1, b2, b3⟩ := ih a1 (fun u m => ha u (List.mem_cons_of_mem _ m)) h2
    refine ⟨b1, fun m => b2 (a2 m), fun m => ?_⟩
    rcases List.mem_append.1 m with m | m
    · exact b2 (a3 m)
    · exact b3 m

/-- **C105**, what holds of it: when a call sets the listener while no other call is about to, and no
other call gets a listener from then on, then the server it returns has its listener, and that one is
served. Missing: calls that overlap (`C105_false`). -/
theorem C105_partial (s : StartState) (t l : Nat) (ht : s.pcs[t]? = some (.set l))
    (others : ∀ u k, u ≠ t → s.pcs[u]? ≠ some (StartPC.set k)) (as : List StartAct) (later : ∀ u, .call u true ∉ as)
    (s' : StartState) (es : List StartEvent) (h : s.run (.run t :: as) = some (s', es)) (ret : .returned t ∈ es) :
    s'.world.listener = some l ∧ l ∈ s'.world.served := by
  simp only [StartState.run, Option.bind_eq_bind, Option.bind_eq_some_iff, Option.pure_def,
    Option.some.injEq, Prod.mk.injEq, Prod.exists] at h
  obtain ⟨s1, e1, h1, s2, e2, h2, rfl, rfl⟩ := h
  obtain ⟨lt, e⟩ := List.getElem?_eq_some_iff.1 ht
  simp only [StartState.step, ht] at h1
  split at h1
  · cases h1
  cases h1
  have i : Settled t l (StartState.goto { s with world := { s.world with listener := some l } } t (.register l)) := by
    refine ⟨fun u k m => ?_, rfl, fun k m => ?_⟩
    · by_cases c : u = t
      · subst c
        simp [StartState.goto, lt] at m
      · simp only [StartState.goto, List.getElem?_set, if_neg (Ne.symm c)] at m
        exact others u k c m
    · simp only [StartState.goto, List.getElem?_set_self lt, Option.some.injEq, StartPC.register.injEq, reduceCtorEq,
        or_false] at m
      exact m.symm
  obtain ⟨r1, _, r3⟩ := i.run later h2
  rw [List.nil_append] at ret
  exact ⟨r1.set, r3 ret⟩

/-- The only call among two goroutines. -/
example : (StartState.init 2).run [.call 1 true] = some (⟨{}, 1, false, [.idle, .set 0]⟩, []) ∧
    (∀ u k, u ≠ 1 → ([.idle, .set 0] : List StartPC)[u]? ≠ some (StartPC.set k)) ∧
    StartState.run ⟨{}, 1, false, [.idle, .set 0]⟩ [.run 1, .run 1, .run 1] =
      some (⟨⟨some 0, [go! "/"], [0]⟩, 1, false, [.idle, .idle]⟩, [.returned 1]) := by
  refine ⟨by decide +kernel, fun u k h => ?_, by decide +kernel⟩
  match u, h with
  | 0, _ => simp
  | u + 2, _ => simp

end SMC.Props
