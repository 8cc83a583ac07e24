import Verif.Lemmas.HttpServer
/-!
# A request that is handled while nobody else uses the buffer
-/

namespace SMC.Http

theorem since_append (a b : List Op) :
    since (a ++ b) = if .reset ∈ b then since b else since a ++ b.flatMap Op.payload := by
  unfold since
  rw [List.reverse_append, List.takeWhile_append]
  by_cases h : Op.reset ∈ b
  · rw [if_pos h, if_neg]
    intro e
    have : b.reverse.takeWhile (· ≠ .reset) = b.reverse :=
      (List.takeWhile_prefix _).eq_of_length e
    have m : Op.reset ∈ b.reverse.takeWhile (· ≠ .reset) := by rw [this]; simpa using h
    have := List.all_eq_true.1 List.all_takeWhile _ m
    simp at this
  · have e : b.reverse.takeWhile (· ≠ .reset) = b.reverse := by
      refine takeWhile_all _ _ ?_
      intro x hx
      have : x ∈ b := List.mem_reverse.1 hx
      simp only [ne_eq, decide_not, Bool.not_eq_eq_eq_not, Bool.not_true, decide_eq_false_iff_not]
      intro e
      exact h (e ▸ this)
    rw [if_neg h, e, if_pos rfl]
    simp

theorem opsIn_append (h k : List SysPoint) : opsIn (h ++ k) = opsIn h ++ opsIn k := by
  simp [opsIn, points_append, effects_append]

/-- An action of goroutine `t` that is part of handling a request. -/
def SysAct.ofHandler (t : Nat) : SysAct → Prop
  | .run u _ => u = t
  | .serve u _ => u = t
  | .check u => u = t
  | _ => False

/-- The state of a request with query `q`, the buffer having the contents `c` before. -/
def AloneAt (s : State) (h : List SysPoint) (t : Nat) (q c : Bytes) : Handler → Prop
  | .copying r => r = q ∧ contentsAfter h = c ∧
      ∀ x, phase t (points h) = some (.answered (.copied x)) → x = c
  | .serving r d n => r = q ∧ contentsAfter h = c ∧ (s.array d).take n = c
  | .checking r => r = q ∧ contentsAfter h = c
  | .resetting => flushes q ∧ ∀ v, phase t (points h) = some (.answered v) → contentsAfter h = []
  | .free => phase t (points h) = some .idle ∧ contentsAfter h = if flushes q then [] else c

/-- A request of goroutine `t` is being handled and the other goroutines are idle. -/
structure Alone (y : Sys) (h : List SysPoint) (t : Nat) (q c : Bytes) : Prop where
  inv : SysInv y h
  idle : ∀ (u : Nat) p, u ≠ t → y.buf.pcs[u]? = some p → p = .idle
  here : ∃ hd, y.hs[t]? = some hd ∧ AloneAt y.buf h t q c hd

theorem pcs_set_other {s s' : State} {t spare : Nat} {p : PC} {es : List Event}
    (hs : s.next t spare p = some (s', es)) (u : Nat) (hu : u ≠ t) : s'.pcs[u]? = s.pcs[u]? := by
  have set : ∀ (l : List PC) (q : PC), (l.set t q)[u]? = l[u]? := by
    intro l q
    rw [List.getElem?_set, if_neg (Ne.symm hu)]
  cases p with
  | idle => cases hs
  | wGrow p =>
    simp only [State.next, Option.pure_def, Option.some.injEq, Prod.mk.injEq] at hs
    obtain ⟨rfl, rfl⟩ := hs
    have hg : (s.grow p.length spare).pcs = s.pcs := by unfold State.grow; split <;> rfl
    simp only [State.goto, hg, set]
  | wCopy p m i =>
    simp only [State.next] at hs
    split at hs
    · simp only [Option.pure_def, Option.some.injEq, Prod.mk.injEq] at hs
      obtain ⟨rfl, rfl⟩ := hs
      exact set _ _
    · simp only [Option.bind_eq_bind, Option.bind_eq_some_iff, Option.pure_def,
        Option.some.injEq, Prod.mk.injEq] at hs
      obtain ⟨a, ha, s1, h1, rfl, rfl⟩ := hs
      obtain ⟨hlt, rfl⟩ := poke_some h1
      exact set _ _
  | cCopy src n d i =>
    simp only [State.next] at hs
    split at hs
    · simp only [Option.bind_eq_bind, Option.bind_eq_some_iff, Option.pure_def,
        Option.some.injEq, Prod.mk.injEq] at hs
      obtain ⟨a, ha, b, hb, s1, h1, rfl, rfl⟩ := hs
      obtain ⟨hlt, rfl⟩ := poke_some h1
      exact set _ _
    · simp only [Option.pure_def, Option.some.injEq, Prod.mk.injEq] at hs
      obtain ⟨rfl, rfl⟩ := hs
      exact set _ _
  | fGrow | cBytes | cMake | rSet | out =>
    simp only [State.next, Option.pure_def, Option.some.injEq, Prod.mk.injEq] at hs
    obtain ⟨rfl, rfl⟩ := hs
    exact set _ _
  | wWait | fWait | cWait | rWait =>
    simp only [State.next, Option.bind_eq_bind, Option.bind_eq_some_iff, Option.pure_def,
      Option.some.injEq, Prod.mk.injEq] at hs
    obtain ⟨s1, h1, rfl, rfl⟩ := hs
    rw [(lock_some h1).2]
    exact set _ _
  | wDone | fDone | cDone | rDone =>
    simp only [State.next, Option.bind_eq_bind, Option.bind_eq_some_iff, Option.pure_def,
      Option.some.injEq, Prod.mk.injEq] at hs
    obtain ⟨s1, h1, rfl, rfl⟩ := hs
    rw [unlock_some h1]
    exact set _ _

theorem contentsAfter_eq (h : List SysPoint) : contentsAfter h = since (done (points h)) := rfl

theorem contentsAfter_seen (h : List SysPoint) (e : Event) :
    contentsAfter (h ++ [.pt (.seen e)]) = contentsAfter h := by
  simp [contentsAfter, opsIn_append]
  simp [opsIn, points, effects]

theorem contentsAfter_response (h : List SysPoint) (t : Nat) (b : Bytes) :
    contentsAfter (h ++ [.response t b]) = contentsAfter h := by
  simp [contentsAfter, opsIn_append]
  simp [opsIn, points, effects]

/-- Every step of the handler. -/
theorem Alone.step {y y' : Sys} {h : List SysPoint} {t : Nat} {q c : Bytes}
    (a : Alone y h t q c) {act : SysAct} {es : List SysEvent} (ha : act.ofHandler t)
    (hs : y.step act = some (y', es)) :
    ∃ k, Alone y' (h ++ k) t q c ∧ observed k = es ∧ ∀ u b, .response u b ∈ es → b <+: c := by
  obtain ⟨i, hidle, hd, hh, at_⟩ := a
  cases act with
  | call u op => exact ha.elim
  | request u op => exact ha.elim
  | run u spare =>
    cases ha
    simp only [Sys.step, Option.bind_eq_bind, Option.bind_eq_some_iff, Option.pure_def,
      Option.some.injEq, Prod.mk.injEq, Prod.exists] at hs
    obtain ⟨hd', hh', p, ht, s, e, h1, rfl, rfl⟩ := hs
    rw [hh] at hh'
    cases hh'
    obtain ⟨j, rfl⟩ := i.run hh ht h1
    have fz := fun d (f : Frozen y.buf d) => f.step h1
    obtain ⟨p', ht', hn⟩ := step_run h1
    rw [ht] at ht'
    cases ht'
    refine ⟨_, ⟨j, ?_, hd.after p, ?_, ?_⟩, observed_map _, ?_⟩
    · intro u x hu hx
      rw [pcs_set_other hn u hu] at hx
      exact hidle u x hu hx
    · rw [hset_get hh, if_pos rfl]
    · have pcs : phase t (points h) = some (y.buf.phase p) := by rw [i.inv.phases t, ht]; rfl
      have ok := i.ok t hd hh
      rcases points_kind y.buf t p with ⟨e, ho⟩ | ⟨op, v, e, ho⟩ | ⟨r, rfl, e⟩
      · have hm : hd.after p = hd := by
          cases p <;> first | rfl | exact absurd rfl (ho _)
        rw [hm, e, List.map_nil, List.append_nil]
        cases hd with
        | serving r d n =>
          obtain ⟨_, f, _⟩ := ok
          obtain ⟨a, b, c⟩ := at_
          refine ⟨a, b, ?_⟩
          rw [(fz d f).2]
          exact c
        | _ => exact at_
      · have hm : hd.after p = hd := by
          cases p <;> first | rfl | exact absurd rfl (ho _)
        have hp := j.inv.phases t
        have hl := j.inv.legal
        rw [points_append, points_map, e] at hp hl
        obtain ⟨h1, h2⟩ := phase_effect hp
        rw [h2] at hp
        have hv : v = answer (done (points h)) op := Legal.value (k := []) hl
        have pp' : phase t (points (h ++ [.pt (.effect t op v)])) = some (.answered v) := by
          rw [points_append]; exact hp
        have cc : contentsAfter (h ++ [.pt (.effect t op v)]) = since (opsIn h ++ [op]) := by
          rw [contentsAfter, opsIn_append]; rfl
        rw [hm, e]
        cases hd with
        | free => cases h1.symm.trans at_.1
        | copying r =>
          obtain ⟨a, b, d⟩ := at_
          have : op = .copy := by
            rcases ok with o | ⟨x, o, _⟩
            · cases h1.symm.trans o; rfl
            · cases h1.symm.trans o
          subst this
          refine ⟨a, ?_, ?_⟩
          · exact cc.trans ((since_copy _).trans b)
          · intro x hx
            have hx := pp'.symm.trans hx
            rw [hv] at hx
            cases hx
            exact b
        | serving r d n => cases h1.symm.trans ok.1
        | checking r => cases h1.symm.trans ok.1
        | resetting =>
          have : op = .reset := by
            rcases ok with ⟨o, _⟩ | ⟨v, o⟩
            · cases h1.symm.trans o; rfl
            · cases h1.symm.trans o
          subst this
          exact ⟨at_.1, fun _ _ => cc.trans (since_reset _)⟩
      · have pa : phase t (points h) = some (.answered (y.buf.value r)) := pcs
        have pidle : phase t (points (h ++ [.pt (.seen (.ret t (y.buf.value r)))])) = some .idle := by
          rw [points_append]
          show phase t (points h ++ [.seen (.ret t (y.buf.value r))]) = _
          rw [phase_snoc, pcs]
          simp [State.phase, Phase.next]
        rw [e]
        cases hd with
        | free => cases pa.symm.trans at_.1
        | copying r' =>
          rcases ok with o | ⟨x, o, _⟩
          · cases pa.symm.trans o
          · have o' := pa.symm.trans o
            simp only [Option.some.injEq, Phase.answered.injEq] at o'
            cases r with
            | wrote n => cases o'
            | failed => cases o'
            | wasReset => cases o'
            | copy d n =>
              obtain ⟨a, b, g⟩ := at_
              refine ⟨a, (contentsAfter_seen _ _).trans b, ?_⟩
              simp only [State.value, Val.copied.injEq] at o'
              rw [(fz d (i.inv.frozen t d n ht)).2, o', g x o]
        | serving r d n => cases pa.symm.trans ok.1
        | checking r => cases pa.symm.trans ok.1
        | resetting =>
          refine ⟨pidle, ?_⟩
          rw [if_pos at_.1]
          exact (contentsAfter_seen _ _).trans (at_.2 _ pa)
    · intro u b m
      simp at m
  | serve u k =>
    cases ha
    simp only [Sys.step, hh] at hs
    split at hs
    · rename_i q' d n e
      cases e
      split at hs
      · simp only [Option.some.injEq, Prod.mk.injEq] at hs
        obtain ⟨rfl, rfl⟩ := hs
        obtain ⟨rfl, a2, a3⟩ := at_
        refine ⟨_, ⟨i.serve hh k, hidle, .checking q', ?_, rfl, ?_⟩, rfl, ?_⟩
        · rw [hset_get hh, if_pos rfl]
        · exact (contentsAfter_response _ _ _).trans a2
        · intro u b m
          simp only [List.mem_cons, SysEvent.response.injEq, List.not_mem_nil, or_false] at m
          rw [m.2, a3]
          exact List.take_prefix _ _
      · cases hs
    · cases hs
  | check u =>
    cases ha
    simp only [Sys.step, hh] at hs
    split at hs
    · rename_i q' e
      cases e
      obtain ⟨rfl, a2⟩ := at_
      split at hs
      · rename_i hf
        simp only [Option.bind_eq_bind, Option.bind_eq_some_iff, Option.pure_def,
          Option.some.injEq, Prod.mk.injEq, Prod.exists] at hs
        obtain ⟨s, e, h1, rfl, rfl⟩ := hs
        obtain ⟨j, rfl⟩ := i.reset hh h1
        refine ⟨_, ⟨j, ?_, .resetting, ?_, hf, ?_⟩, rfl, ?_⟩
        · obtain ⟨ht, rfl, _⟩ := step_call h1
          intro u x hu hx
          simp only [State.goto] at hx
          rw [List.getElem?_set, if_neg (Ne.symm hu)] at hx
          exact hidle u x hu hx
        · rw [hset_get hh, if_pos rfl]
        · intro v hv
          have o := (i.ok t _ hh).1
          rw [points_append] at hv
          have := (phase_called (op := .reset) o).symm.trans hv
          cases this
        · intro u b m
          simp at m
      · rename_i hf
        simp only [Option.some.injEq, Prod.mk.injEq] at hs
        obtain ⟨rfl, rfl⟩ := hs
        refine ⟨[], ⟨by rw [List.append_nil]; exact i.skip hh, hidle, .free, ?_, ?_, ?_⟩, rfl, ?_⟩
        · rw [hset_get hh, if_pos rfl]
        · rw [List.append_nil]; exact (i.ok t _ hh).1
        · rw [List.append_nil, if_neg hf]; exact a2
        · intro u b m
          simp at m
    · cases hs

theorem Alone.runs {y y' : Sys} {h : List SysPoint} {t : Nat} {q c : Bytes}
    (a : Alone y h t q c) {as : List SysAct} {es : List SysEvent} (ha : ∀ x ∈ as, x.ofHandler t)
    (hs : y.run as = some (y', es)) :
    ∃ k, Alone y' (h ++ k) t q c ∧ observed k = es ∧ ∀ u b, .response u b ∈ es → b <+: c := by
  induction as generalizing y h es with
  | nil =>
    simp only [Sys.run, Option.some.injEq, Prod.mk.injEq] at hs
    obtain ⟨rfl, rfl⟩ := hs
    exact ⟨[], by simpa using a, rfl, by simp⟩
  | cons x as ih =>
    simp only [Sys.run, Option.bind_eq_bind, Option.bind_eq_some_iff, Option.pure_def,
      Option.some.injEq, Prod.mk.injEq, Prod.exists] at hs
    obtain ⟨y1, e1, h1, y2, e2, h2, rfl, rfl⟩ := hs
    obtain ⟨k1, i1, rfl, r1⟩ := a.step (ha x (by simp)) h1
    obtain ⟨k2, i2, rfl, r2⟩ := ih i1 (fun z m => ha z (by simp [m])) h2
    refine ⟨k1 ++ k2, by simpa using i2, observed_append _ _, ?_⟩
    intro u b m
    rcases List.mem_append.1 m with m | m
    · exact r1 u b m
    · exact r2 u b m

/-- The start of a request. -/
theorem Alone.start {y y' : Sys} {h : List SysPoint} {t : Nat} {q : Bytes} (i : SysInv y h)
    (hi : ∀ p ∈ y.buf.pcs, p = .idle) {es : List SysEvent}
    (hs : y.step (.request t q) = some (y', es)) :
    ∃ k, Alone y' (h ++ k) t q y.buf.contents ∧ observed k = es ∧ ∀ u b, .response u b ∉ es := by
  simp only [Sys.step] at hs
  split at hs
  · rename_i hh
    simp only [Option.bind_eq_bind, Option.bind_eq_some_iff, Option.pure_def,
      Option.some.injEq, Prod.mk.injEq, Prod.exists] at hs
    obtain ⟨s, e, h1, rfl, rfl⟩ := hs
    obtain ⟨ht, rfl, _⟩ := step_call h1
    obtain ⟨j, rfl⟩ := i.call (.copying q) hh h1 (by
      intro hidle
      left
      rw [points_append]
      exact phase_called hidle)
    have lk : y.buf.locked = false := by
      cases e : y.buf.locked with
      | false => rfl
      | true =>
        obtain ⟨u, p, hu, hp⟩ := i.inv.lock.1 e
        rw [hi p (List.mem_of_getElem? hu)] at hp
        cases hp
    refine ⟨_, ⟨j, ?_, .copying q, ?_, rfl, ?_, ?_⟩, rfl, by simp⟩
    · intro u x hu hx
      simp only [State.goto] at hx
      rw [List.getElem?_set, if_neg (Ne.symm hu)] at hx
      exact hi x (List.mem_of_getElem? hx)
    · rw [hset_get hh, if_pos rfl]
    · rw [contentsAfter_seen]
      exact (i.inv.quiet lk).symm
    · intro x hx
      have o : phase t (points h) = some .idle := by rw [i.inv.phases t, ht]; rfl
      rw [points_append] at hx
      have := (phase_called (op := .copy) o).symm.trans hx
      cases this
  · cases hs

/-- The end of a request. -/
theorem Alone.finish {y : Sys} {h : List SysPoint} {t : Nat} {q c : Bytes} (a : Alone y h t q c)
    (hf : y.hs[t]? = some .free) : y.buf.contents = if flushes q then [] else c := by
  obtain ⟨i, hidle, hd, hh, at_⟩ := a
  rw [hf] at hh
  cases hh
  obtain ⟨a1, a2⟩ := at_
  have lk : y.buf.locked = false := by
    cases e : y.buf.locked with
    | false => rfl
    | true =>
      obtain ⟨u, p, hu, hp⟩ := i.inv.lock.1 e
      by_cases eu : u = t
      · subst eu
        have := i.inv.phases u
        rw [a1, hu] at this
        cases p <;> first | cases hp; done | cases this
      · rw [hidle u p eu hu] at hp
        cases hp
  rw [i.inv.quiet lk]
  exact a2

end SMC.Http
