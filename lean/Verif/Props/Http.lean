import Verif.Lemmas.HttpProgress
import Verif.Lemmas.HttpHistory
/-!
# Properties of the buffer of pkg/http: C60, C61, C62, C66
-/

namespace SMC.Props
open SMC.Http

/-- A schedule of three goroutines: two writes, two copies and a reset that overlap. -/
def sched : List Act :=
  [.call 0 (.write [0x61, 0x62]), .call 1 .copy, .run 0 0, .call 2 .reset] ++
  List.replicate 5 (.run 0 3) ++ [.run 1 0, .run 0 0, .call 0 (.write [0x63])] ++
  List.replicate 7 (.run 1 0) ++ List.replicate 3 (.run 0 0) ++ [.call 1 .copy] ++
  List.replicate 3 (.run 0 0) ++ List.replicate 4 (.run 2 0) ++ List.replicate 5 (.run 1 0)

example : (run (.init 3) sched).map (·.2) = some [.call 0 (.write [0x61, 0x62]), .call 1 .copy,
    .call 2 .reset, .ret 0 (.wrote 2), .call 0 (.write [0x63]), .ret 1 (.copied [0x61, 0x62]),
    .call 1 .copy, .ret 0 (.wrote 1), .ret 2 .wasReset] := by decide

/-- **C60** In every interleaving of any number of goroutines the observable history of calls
and returns is linearizable: the operations return what they would if each of them happened
at one point between its call and its return. -/
theorem C60_linearizable (n : Nat) (as : List Act) (s : State) (es : List Event)
    (h : run (.init n) as = some (s, es)) : Linearizable es := by
  obtain ⟨pts, i, e⟩ := (Inv.init n).run h
  refine ⟨pts, by simpa [seen] using e, ?_, i.legal⟩
  intro t
  rw [i.phases t]
  rfl

example : (run (.init 3) sched).isSome := by decide

/-- **C60** Every copy is a sequence of whole writes: no write is torn or interleaved with
another. -/
theorem C60_whole_writes (n : Nat) (as : List Act) (s : State) (es : List Event)
    (h : run (.init n) as = some (s, es)) (t : Nat) (bs : Bytes) (hr : .ret t (.copied bs) ∈ es) :
    ∃ ps : List Bytes, bs = ps.flatten ∧ ∀ p ∈ ps, ∃ u, .call u (.write p) ∈ es :=
  (C60_linearizable n as s es h).whole hr

example : ∃ as s es, run (.init 3) as = some (s, es) ∧ .ret 1 (.copied [0x61, 0x62]) ∈ es :=
  ⟨sched, _, _, Option.eq_some_of_isSome (by decide), by decide⟩

/-- **C60** A write that returned before a copy was called is in the copy, if nobody ever
resets the buffer. -/
theorem C60_visible (n : Nat) (as : List Act) (s : State) (e1 e2 e3 e4 e5 : List Event)
    (t u : Nat) (p bs : Bytes) (v : Val)
    (h : run (.init n) as = some (s, e1 ++ .call t (.write p) :: (e2 ++ .ret t v :: (e3 ++
      .call u .copy :: (e4 ++ .ret u (.copied bs) :: e5)))))
    (ht : ∀ o, .call t o ∉ e2) (hu : ∀ o, .call u o ∉ e4)
    (hn : ∀ w, .call w .reset ∉ e1 ++ .call t (.write p) :: (e2 ++ .ret t v :: (e3 ++
      .call u .copy :: (e4 ++ .ret u (.copied bs) :: e5)))) : p <:+: bs := by
  obtain ⟨pts, hs, hp, hl⟩ := C60_linearizable _ _ _ _ h
  have noReset : ∀ w x, .effect w .reset x ∉ pts := by
    intro w x m
    refine hn w ?_
    rw [← hs]
    exact mem_seen.2 (effect_called (hp w) m)
  obtain ⟨p1, q1, rfl, -, s1⟩ := seen_split hs
  obtain ⟨p2, q2, rfl, s2', s2⟩ := seen_split s1
  obtain ⟨p3, q3, rfl, -, s3⟩ := seen_split s2
  obtain ⟨p4, q4, rfl, s4', s4⟩ := seen_split s3
  have m1 : .effect t (.write p) v ∈ p2 := by
    refine effect_between (hp t) (fun o m => ht o ?_)
    rw [← s2']
    exact mem_seen.2 m
  have m2 : .effect u .copy (.copied bs) ∈ p4 := by
    have := hp u
    rw [show p1 ++ .seen (.call t (.write p)) :: (p2 ++ .seen (.ret t v) :: (p3 ++
      .seen (.call u .copy) :: (p4 ++ .seen (.ret u (.copied bs)) :: q4)))
      = (p1 ++ .seen (.call t (.write p)) :: (p2 ++ .seen (.ret t v) :: p3)) ++
      .seen (.call u .copy) :: (p4 ++ .seen (.ret u (.copied bs)) :: q4) by simp] at this
    refine effect_between this (fun o m => hu o ?_)
    rw [← s4']
    exact mem_seen.2 m
  obtain ⟨a, b, rfl⟩ := List.append_of_mem m1
  obtain ⟨c, d, rfl⟩ := List.append_of_mem m2
  generalize hx : p1 ++ .seen (.call t (.write p)) :: a = x
  generalize hy : b ++ .seen (.ret t v) :: (p3 ++ .seen (.call u .copy) :: c) = y
  have split : p1 ++ .seen (.call t (.write p)) :: ((a ++ .effect t (.write p) v :: b) ++
      .seen (.ret t v) :: (p3 ++ .seen (.call u .copy) ::
      ((c ++ .effect u .copy (.copied bs) :: d) ++ .seen (.ret u (.copied bs)) :: q4)))
      = (x ++ .effect t (.write p) v :: y) ++
        .effect u .copy (.copied bs) :: (d ++ .seen (.ret u (.copied bs)) :: q4) := by
    rw [← hx, ← hy]
    simp
  rw [split] at hl noReset
  have hv := hl.value
  simp only [answer, Val.copied.injEq] at hv
  have nr : Op.reset ∉ done (x ++ .effect t (.write p) v :: y) := by
    intro m
    obtain ⟨⟨o, w⟩, m1, e⟩ := List.mem_map.1 m
    cases e
    obtain ⟨z, m3⟩ := mem_effects.1 m1
    exact noReset z w (List.mem_append_left _ m3)
  rw [hv, since_noReset nr]
  refine ⟨(done x).flatMap Op.payload, (done y).flatMap Op.payload, ?_⟩
  simp [done, effects, Op.payload]

/-- The hypotheses hold for a write of goroutine 0 and a copy of goroutine 1. -/
example : (run (.init 2) ([.call 0 (.write [0x61])] ++ List.replicate 6 (.run 0 0) ++ [.call 1 .copy] ++
    List.replicate 7 (.run 1 0))).map (·.2) = some ([] ++ .call 0 (.write [0x61]) :: ([] ++
    .ret 0 (.wrote 1) :: ([] ++ .call 1 .copy :: ([] ++ .ret 1 (.copied [0x61]) :: [])))) := by decide

/-- Not every history is linearizable: half a write must not be seen. -/
example : ¬ Linearizable [.call 0 (.write [1, 2]), .call 1 .copy, .ret 1 (.copied [1])] := by
  rintro ⟨pts, hs, hp, hl⟩
  obtain ⟨op, m⟩ := ret_effect (hp 1) (mem_seen.1 (by rw [hs]; simp : .ret 1 (.copied [1]) ∈ seen pts))
  obtain ⟨a, b, rfl⟩ := List.append_of_mem m
  have hv := hl.value
  cases op with
  | write p => cases hv
  | fail p => cases hv
  | reset => cases hv
  | copy =>
    simp only [answer, Val.copied.injEq] at hv
    obtain ⟨ps, e, hps⟩ := since_payloads (done a)
    have all : ∀ p ∈ ps, p = [1, 2] := by
      intro p hp'
      obtain ⟨⟨o, v⟩, m1, rfl⟩ := List.mem_map.1 (hps p hp')
      obtain ⟨u, m2⟩ := mem_effects.1 m1
      have := mem_seen.2 (effect_called (hp u) (List.mem_append_left _ m2))
      rw [hs] at this
      simp at this
      exact this.2
    cases ps with
    | nil => rw [e] at hv; cases hv
    | cons x xs =>
      rw [e, all x (by simp)] at hv
      cases hv

/-- **C61** No two goroutines are inside the critical section. -/
theorem C61_exclusion (n : Nat) (s : State) (h : Reachable n s) (t u : Nat) (p q : PC)
    (ht : s.pcs[t]? = some p) (hu : s.pcs[u]? = some q) (hp : p.crit) (hq : q.crit) : t = u := by
  obtain ⟨pts, i⟩ := Inv.reachable h
  exact i.excl t u p q ht hu hp hq

/-- A reachable state with goroutine 0 inside the critical section and 1 waiting for it. -/
def busy : State := ((run (.init 3) (sched.take 6)).map (·.1)).getD (.init 3)

example : Reachable 3 busy ∧ busy.pcs[0]? = some (.wCopy [0x61, 0x62] 0 1) ∧
    (PC.wCopy [0x61, 0x62] 0 1).crit ∧ busy.pcs[1]? = some .cWait ∧ step busy (.run 1 0) = none :=
  ⟨⟨sched.take 6, _, Option.eq_some_of_isSome (by decide)⟩, by decide, by decide, by decide, by decide⟩

/-- **C61** Only a goroutine inside the critical section changes the buffer or its bytes. -/
theorem C61_writes_inside (s s' : State) (a : Act) (es : List Event)
    (hs : step s a = some (s', es))
    (hc : (s'.arr, s'.len, s'.contents) ≠ (s.arr, s.len, s.contents)) :
    ∃ t spare, ∃ p : PC, a = .run t spare ∧ s.pcs[t]? = some p ∧ p.crit := by
  cases a with
  | call t op =>
    obtain ⟨_, rfl, _⟩ := step_call hs
    exact absurd rfl hc
  | run t spare =>
    obtain ⟨p, ht, hs⟩ := step_run hs
    refine ⟨t, spare, p, rfl, ht, ?_⟩
    cases hp : p.crit with
    | true => rfl
    | false =>
      obtain ⟨a, b, c⟩ := outside_same hp hs
      refine absurd ?_ hc
      simp only [State.contents, State.array, a, b, c]

/-- A step that changes the contents. -/
example : busy.contents = [0x61, 0] ∧
    (step busy (.run 0 3)).map (·.1.contents) = some [0x61, 0x62] := by decide

/-- **C62** What `CopyBuffer` returns is an array of its own, and no later step of any goroutine
changes it. -/
theorem C62_copy_independent (n : Nat) (s s' : State) (h : Reachable n s) (t d k : Nat)
    (ht : s.pcs[t]? = some (.out (.copy d k))) (as : List Act) (es : List Event)
    (hs : run s as = some (s', es)) :
    s'.arr ≠ some d ∧ s'.value (.copy d k) = s.value (.copy d k) := by
  obtain ⟨pts, i⟩ := Inv.reachable h
  obtain ⟨f, e⟩ := (i.frozen t d k ht).run hs
  exact ⟨f.2.1, by simp only [State.value, e]⟩

/-- A reachable state in which a copy is about to be returned, and a schedule that goes on with writes
and a reset. -/
example : ∃ s s' es as, Reachable 3 s ∧ s.pcs[1]? = some (.out (.copy 1 2)) ∧
    s.value (.copy 1 2) = .copied [0x61, 0x62] ∧ run s as = some (s', es) ∧
    s'.contents ≠ s.contents ∧ as.length = 15 :=
  ⟨((run (.init 3) (sched.take 18)).map (·.1)).getD (.init 3), _, _, sched.drop 18 |>.take 15,
    ⟨sched.take 18, _, Option.eq_some_of_isSome (by decide)⟩, by decide, by decide,
    Option.eq_some_of_isSome (by decide), by decide, by decide⟩

/-- **C66** As long as an operation is unfinished, some goroutine can take a step. -/
theorem C66_no_deadlock (n : Nat) (s : State) (h : Reachable n s) (t : Nat) (p : PC)
    (ht : s.pcs[t]? = some p) (hp : p ≠ .idle) : ∃ u, (step s (.run u 0)).isSome := by
  obtain ⟨pts, i⟩ := Inv.reachable h
  exact i.progress ht hp

/-- **C66** No schedule keeps the operations in progress from finishing: without further calls
there are only finitely many steps. -/
theorem C66_bounded (s s' : State) (as : List Act) (es : List Event) (hn : NoCalls as)
    (hs : run s as = some (s', es)) : as.length + s'.work ≤ s.work := by
  induction as generalizing s es with
  | nil =>
    simp only [Http.run, Option.some.injEq, Prod.mk.injEq] at hs
    simp [hs.1]
  | cons a as ih =>
    simp only [Http.run, Option.bind_eq_bind, Option.bind_eq_some_iff, Option.pure_def,
      Option.some.injEq, Prod.mk.injEq, Prod.exists] at hs
    obtain ⟨s1, e1, h1, s2, e2, h2, rfl, rfl⟩ := hs
    obtain ⟨t, spare, rfl⟩ := hn a (by simp)
    have w := work_step h1
    have := ih s1 e2 (fun b hb => hn b (by simp [hb])) h2
    simp only [List.length_cons]
    omega

/-- **C66** From every reachable state the operations in progress can finish: some schedule
leads to all goroutines having returned. -/
theorem C66_completes (n : Nat) (s : State) (h : Reachable n s) :
    ∃ as s' es, NoCalls as ∧ run s as = some (s', es) ∧ ∀ p ∈ s'.pcs, p = .idle := by
  obtain ⟨pts, i⟩ := Inv.reachable h
  generalize hw : s.work = w
  induction w using Nat.strongRecOn generalizing s pts with
  | _ w ih =>
    by_cases hi : ∀ p ∈ s.pcs, p = .idle
    · exact ⟨[], s, [], by simp [NoCalls], rfl, hi⟩
    · simp only [Classical.not_forall] at hi
      obtain ⟨p, hm, hp⟩ := hi
      obtain ⟨t, ht⟩ := List.getElem?_of_mem hm
      obtain ⟨u, hu⟩ := i.progress ht hp
      obtain ⟨⟨s1, e1⟩, h1⟩ := Option.isSome_iff_exists.1 hu
      obtain ⟨pts1, i1, _⟩ := i.step h1
      have hw1 : s1.work < w := hw ▸ work_step h1
      obtain ⟨as, s2, e2, hn, h2, hidle⟩ := ih s1.work hw1 s1 (Reachable.step h h1) pts1 i1 rfl
      refine ⟨.run u 0 :: as, s2, e1 ++ e2, ?_, ?_, hidle⟩
      · intro a ha
        rcases List.mem_cons.1 ha with rfl | ha
        · exact ⟨u, 0, rfl⟩
        · exact hn a ha
      · simp [Http.run, h1, h2]

/-- The hypotheses hold of `busy`, where two operations are unfinished. -/
example : busy.pcs[1]? = some .cWait ∧ busy.work > 0 ∧ NoCalls [.run 0 0, .run 0 0] ∧
    (run busy [.run 0 0, .run 0 0]).isSome :=
  ⟨by decide, by decide, by intro a h; simp at h; exact ⟨0, 0, h⟩, by decide⟩

end SMC.Props
