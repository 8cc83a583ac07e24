import Verif.Spec.Answer
import Verif.Lemmas.HttpProgress
import Verif.Lemmas.HttpServer
import Verif.Lemmas.Query
/-!
# Goroutines of the server from start to end
-/

namespace SMC.Http

/-! ## Steps of one goroutine in one operation -/

/-- At `pc` in operation `op` after `k` steps. -/
inductive In (s : State) : Op → PC → Nat → Prop where
  | w0 {p} : In s (.write p) (.wWait p) 0
  | w1 {p} : In s (.write p) (.wGrow p) 1
  | w2 {p m i} : i ≤ p.length → In s (.write p) (.wCopy p m i) (2 + i)
  | w3 {p} : In s (.write p) (.wDone p) (3 + p.length)
  | w4 {p} : In s (.write p) (.out (.wrote p.length)) (4 + p.length)
  | f0 {p} : In s (.fail p) (.fWait p) 0
  | f1 {p} : In s (.fail p) (.fGrow p) 1
  | f2 {p} : In s (.fail p) (.fDone p) 2
  | f3 {p} : In s (.fail p) (.out .failed) 3
  | c0 : In s .copy .cWait 0
  | c1 : In s .copy .cBytes 1
  | c2 {src n} : In s .copy (.cMake src n) 2
  | c3 {src n d i} : i ≤ n → In s .copy (.cCopy src n d i) (3 + i)
  | c4 {d n} : n ≤ (s.array d).length → In s .copy (.cDone d n) (4 + n)
  | c5 {d n} : n ≤ (s.array d).length → In s .copy (.out (.copy d n)) (5 + n)
  | r0 : In s .reset .rWait 0
  | r1 : In s .reset .rSet 1
  | r2 : In s .reset .rDone 2
  | r3 : In s .reset (.out .wasReset) 3

theorem In.entry (s : State) (op : Op) : In s op op.entry 0 := by
  cases op <;> constructor

theorem In.busy {s : State} {op : Op} {k : Nat} (h : In s op .idle k) : False := by cases h

theorem In.mono {s s' : State} {op : Op} {pc : PC} {k : Nat} (h : In s op pc k)
    (hl : ∀ d, (s.array d).length ≤ (s'.array d).length) : In s' op pc k := by
  cases h with
  | w2 h => exact .w2 h
  | c3 h => exact .c3 h
  | c4 h => exact .c4 (Nat.le_trans h (hl _))
  | c5 h => exact .c5 (Nat.le_trans h (hl _))
  | _ => constructor

/-- Arrays do not get shorter. -/
theorem array_append_le (s : State) (x : Bytes) (d : Nat) :
    (s.array d).length ≤ ((s.heap ++ [x])[d]?.getD []).length := by
  unfold State.array
  rcases Nat.lt_or_ge d s.heap.length with c | c
  · rw [List.getElem?_append_left c]; exact Nat.le_refl _
  · rw [List.getElem?_eq_none c]; exact Nat.zero_le _

theorem array_modify_le (s : State) (a i : Nat) (b : UInt8) (d : Nat) :
    (s.array d).length ≤ ((s.heap.modify a (·.set i b))[d]?.getD []).length := by
  unfold State.array
  rw [List.getElem?_modify]
  cases h : s.heap[d]? with
  | none => simp
  | some x => simp; split <;> simp

theorem array_grow_le (s : State) (n spare : Nat) (d : Nat) :
    (s.array d).length ≤ ((s.grow n spare).array d).length := by
  unfold State.grow
  split
  · exact Nat.le_refl _
  · exact array_append_le s _ d

theorem array_le {s s' : State} {a : Act} {es : List Event} (hs : Http.step s a = some (s', es)) (d : Nat) :
    (s.array d).length ≤ (s'.array d).length := by
  cases a with
  | call t op =>
    obtain ⟨_, rfl, _⟩ := step_call hs
    exact Nat.le_refl _
  | run t spare =>
    obtain ⟨p, ht, hs⟩ := step_run hs
    cases p with
    | idle => cases hs
    | wGrow p =>
      simp only [State.next, Option.pure_def, Option.some.injEq, Prod.mk.injEq] at hs
      obtain ⟨rfl, _⟩ := hs
      exact array_grow_le s _ _ d
    | cMake src n =>
      simp only [State.next, Option.pure_def, Option.some.injEq, Prod.mk.injEq] at hs
      obtain ⟨rfl, _⟩ := hs
      exact array_append_le s _ d
    | wCopy p m i =>
      simp only [State.next] at hs
      split at hs
      · simp only [Option.pure_def, Option.some.injEq, Prod.mk.injEq] at hs
        obtain ⟨rfl, _⟩ := hs
        exact Nat.le_refl _
      · simp only [Option.bind_eq_bind, Option.bind_eq_some_iff, Option.pure_def,
          Option.some.injEq, Prod.mk.injEq] at hs
        obtain ⟨a, ha, s1, h1, rfl, _⟩ := hs
        obtain ⟨_, rfl⟩ := poke_some h1
        exact array_modify_le s _ _ _ d
    | cCopy src n e i =>
      simp only [State.next] at hs
      split at hs
      · simp only [Option.bind_eq_bind, Option.bind_eq_some_iff, Option.pure_def,
          Option.some.injEq, Prod.mk.injEq] at hs
        obtain ⟨a, ha, b, hb, s1, h1, rfl, _⟩ := hs
        obtain ⟨_, rfl⟩ := poke_some h1
        exact array_modify_le s _ _ _ d
      · simp only [Option.pure_def, Option.some.injEq, Prod.mk.injEq] at hs
        obtain ⟨rfl, _⟩ := hs
        exact Nat.le_refl _
    | _ =>
      simp only [State.next, Option.bind_eq_bind, Option.bind_eq_some_iff, Option.pure_def,
        Option.some.injEq, Prod.mk.injEq] at hs
      first
      | (obtain ⟨s1, h1, rfl, _⟩ := hs
         first
         | (rw [(lock_some h1).2]; exact Nat.le_refl _)
         | (rw [unlock_some h1]; exact Nat.le_refl _))
      | (obtain ⟨rfl, _⟩ := hs
         exact Nat.le_refl _)

/-- A step in an operation: one further, or the return. -/
theorem In.next {s s' : State} {pts : List Point} (i : Inv s pts) {op : Op} {pc : PC} {k t spare : Nat} {es : List Event}
    (h : In s op pc k) (ht : s.pcs[t]? = some pc) (hs : s.next t spare pc = some (s', es)) :
    (∃ pc', s'.pcs = s.pcs.set t pc' ∧ es = [] ∧ In s' op pc' (k + 1) ∧ ∀ r, pc ≠ .out r) ∨
    ∃ r, pc = .out r ∧ s' = s.goto t .idle ∧ es = [.ret t (s.value r)] := by
  cases h with
  | w0 | f0 | c0 | r0 =>
    simp only [State.next, Option.bind_eq_bind, Option.bind_eq_some_iff, Option.pure_def,
      Option.some.injEq, Prod.mk.injEq] at hs
    obtain ⟨s1, h1, rfl, rfl⟩ := hs
    rw [(lock_some h1).2]
    exact .inl ⟨_, rfl, rfl, by constructor, by simp⟩
  | w1 =>
    simp only [State.next, Option.pure_def, Option.some.injEq, Prod.mk.injEq] at hs
    obtain ⟨rfl, rfl⟩ := hs
    refine .inl ⟨.wCopy _ s.len 0, ?_, rfl, .w2 (Nat.zero_le _), by simp⟩
    simp only [State.goto, State.grow]
    split <;> rfl
  | w2 hi =>
    rename_i p m i
    simp only [State.next] at hs
    split at hs
    · rename_i hn
      simp only [Option.pure_def, Option.some.injEq, Prod.mk.injEq] at hs
      obtain ⟨rfl, rfl⟩ := hs
      have : i = p.length := Nat.le_antisymm hi (List.getElem?_eq_none_iff.1 hn)
      subst this
      refine .inl ⟨_, rfl, rfl, ?_, by simp⟩
      rw [show 2 + p.length + 1 = 3 + p.length by omega]
      exact .w3
    · rename_i b hb
      simp only [Option.bind_eq_bind, Option.bind_eq_some_iff, Option.pure_def,
        Option.some.injEq, Prod.mk.injEq] at hs
      obtain ⟨a, ha, s1, h1, rfl, rfl⟩ := hs
      obtain ⟨_, rfl⟩ := poke_some h1
      have : i < p.length := (List.getElem?_eq_some_iff.1 hb).1
      exact .inl ⟨_, rfl, rfl, .w2 this, by simp⟩
  | w3 =>
    rename_i p
    simp only [State.next, Option.bind_eq_bind, Option.bind_eq_some_iff, Option.pure_def,
      Option.some.injEq, Prod.mk.injEq] at hs
    obtain ⟨s1, h1, rfl, rfl⟩ := hs
    rw [unlock_some h1]
    refine .inl ⟨_, rfl, rfl, ?_, by simp⟩
    rw [show 3 + p.length + 1 = 4 + p.length by omega]
    exact .w4
  | f2 | r2 =>
    simp only [State.next, Option.bind_eq_bind, Option.bind_eq_some_iff, Option.pure_def,
      Option.some.injEq, Prod.mk.injEq] at hs
    obtain ⟨s1, h1, rfl, rfl⟩ := hs
    rw [unlock_some h1]
    exact .inl ⟨_, rfl, rfl, by constructor, by simp⟩
  | f1 | c1 | r1 =>
    simp only [State.next, Option.pure_def, Option.some.injEq, Prod.mk.injEq] at hs
    obtain ⟨rfl, rfl⟩ := hs
    exact .inl ⟨_, rfl, rfl, by constructor, by simp⟩
  | c2 =>
    simp only [State.next, Option.pure_def, Option.some.injEq, Prod.mk.injEq] at hs
    obtain ⟨rfl, rfl⟩ := hs
    exact .inl ⟨_, rfl, rfl, .c3 (Nat.zero_le _), by simp⟩
  | c3 hi =>
    rename_i src n d j
    simp only [State.next] at hs
    split at hs
    · simp only [Option.bind_eq_bind, Option.bind_eq_some_iff, Option.pure_def,
        Option.some.injEq, Prod.mk.injEq] at hs
      obtain ⟨a, ha, b, hb, s1, h1, rfl, rfl⟩ := hs
      obtain ⟨_, rfl⟩ := poke_some h1
      exact .inl ⟨_, rfl, rfl, .c3 (by omega), by simp⟩
    · simp only [Option.pure_def, Option.some.injEq, Prod.mk.injEq] at hs
      obtain ⟨rfl, rfl⟩ := hs
      obtain ⟨_, _, _, _, _, _, hl, _⟩ := i.crit t _ ht rfl
      have : j = n := by omega
      subst this
      refine .inl ⟨_, rfl, rfl, ?_, by simp⟩
      rw [show 3 + j + 1 = 4 + j by omega]
      exact .c4 (Nat.le_of_eq hl.symm)
  | c4 hl =>
    rename_i d n
    simp only [State.next, Option.bind_eq_bind, Option.bind_eq_some_iff, Option.pure_def,
      Option.some.injEq, Prod.mk.injEq] at hs
    obtain ⟨s1, h1, rfl, rfl⟩ := hs
    rw [unlock_some h1]
    refine .inl ⟨_, rfl, rfl, ?_, by simp⟩
    rw [show 4 + n + 1 = 5 + n by omega]
    exact .c5 hl
  | w4 | f3 | c5 | r3 =>
    simp only [State.next, Option.pure_def, Option.some.injEq, Prod.mk.injEq] at hs
    obtain ⟨rfl, rfl⟩ := hs
    exact .inr ⟨_, rfl, rfl, rfl⟩

/-- What an operation returns, and what it cost. -/
theorem In.out {s : State} {op : Op} {r : Res} {k : Nat} (h : In s op (.out r) k) :
    (Job.call op (s.value r)).ok ∧ k + 2 = (Job.call op (s.value r)).cost := by
  cases h with
  | w4 => exact ⟨rfl, by simp only [Job.cost]; omega⟩
  | f3 => exact ⟨rfl, rfl⟩
  | r3 => exact ⟨rfl, rfl⟩
  | c5 hl =>
    refine ⟨⟨_, rfl⟩, ?_⟩
    simp only [Job.cost, State.value, List.length_take]
    omega

/-! ## What a goroutine is doing -/

/-- How the present job of goroutine `t` was started, what was observed of it and the number of its steps. -/
inductive Stage (s : State) (t : Nat) : Handler → PC → List SysAct → List SysEvent → Nat → Prop where
  | none : Stage s t .free .idle [] [] 0
  | call {op pc k} : In s op pc k → Stage s t .free pc [.call t op] [.buf (.call t op)] (k + 1)
  | copying {q pc k} : In s .copy pc k → Stage s t (.copying q) pc [.request t q] [.buf (.call t .copy)] (k + 1)
  | serving {q d n} : Frozen s d → n ≤ (s.array d).length → Stage s t (.serving q d n) .idle [.request t q]
      [.buf (.call t .copy), .buf (.ret t (.copied ((s.array d).take n)))] (n + 7)
  | checking {q x w} : w <+: x → Stage s t (.checking q) .idle [.request t q]
      [.buf (.call t .copy), .buf (.ret t (.copied x)), .response t w] (x.length + 8)
  | resetting {q x w pc k} : w <+: x → flushes q → In s .reset pc k → Stage s t .resetting pc [.request t q]
      [.buf (.call t .copy), .buf (.ret t (.copied x)), .response t w, .buf (.call t .reset)] (x.length + 9 + k)

/-- Steps of others do not matter. -/
theorem Stage.other {s s' : State} {t : Nat} {h : Handler} {pc : PC} {st : List SysAct} {ev : List SysEvent} {k : Nat}
    (g : Stage s t h pc st ev k) (hl : ∀ d, (s.array d).length ≤ (s'.array d).length)
    (hf : ∀ d, Frozen s d → Frozen s' d ∧ s'.array d = s.array d) : Stage s' t h pc st ev k := by
  cases g with
  | none => exact .none
  | call i => exact .call (i.mono hl)
  | copying i => exact .copying (i.mono hl)
  | serving f l =>
    obtain ⟨f', e⟩ := hf _ f
    rw [← e]
    exact .serving f' (e ▸ l)
  | checking w => exact .checking w
  | resetting w q i => exact .resetting w q (i.mono hl)

/-- All jobs of goroutine `t`. -/
structure Trace (y : Sys) (t : Nat) (as : List SysAct) (es : List SysEvent) (jobs : List Job) (h : Handler) (pc : PC)
    (st : List SysAct) (ev : List SysEvent) (k : Nat) : Prop where
  ok : ∀ j ∈ jobs, j.ok
  handler : y.hs[t]? = some h
  pcs : y.buf.pcs[t]? = some pc
  stage : Stage y.buf t h pc st ev k
  starts : startsOf t as = jobs.map (·.start t) ++ st
  events : eventsOf t es = jobs.flatMap (·.events t) ++ ev
  steps : (stepsOf t as).length = (jobs.map Job.cost).sum + k

/-- There is a trace. -/
def Traced (y : Sys) (t : Nat) (as : List SysAct) (es : List SysEvent) : Prop :=
  ∃ jobs h pc st ev k, Trace y t as es jobs h pc st ev k

theorem stepsOf_append (t : Nat) (as bs : List SysAct) : stepsOf t (as ++ bs) = stepsOf t as ++ stepsOf t bs :=
  List.filter_append ..

theorem startsOf_append (t : Nat) (as bs : List SysAct) : startsOf t (as ++ bs) = startsOf t as ++ startsOf t bs := by
  unfold startsOf
  rw [stepsOf_append, List.filter_append]

theorem eventsOf_append (t : Nat) (as bs : List SysEvent) : eventsOf t (as ++ bs) = eventsOf t as ++ eventsOf t bs :=
  List.filter_append ..

theorem Traced.init (n t : Nat) (ht : t < n) : Traced (Sys.init n) t [] [] :=
  ⟨[], .free, .idle, [], [], 0, by simp, by simp [Sys.init, ht], by simp [Sys.init, State.init, ht], .none, rfl, rfl, rfl⟩

/-- A step inside a method moves only its goroutine. -/
theorem next_pcs {s s' : State} {t spare : Nat} {p : PC} {es : List Event} (hs : s.next t spare p = some (s', es)) :
    ∃ p', s'.pcs = s.pcs.set t p' ∧ ∀ x ∈ es.map SysEvent.buf, x.actor = t := by
  cases p with
  | idle => cases hs
  | wGrow p =>
    simp only [State.next, Option.pure_def, Option.some.injEq, Prod.mk.injEq] at hs
    obtain ⟨rfl, rfl⟩ := hs
    refine ⟨.wCopy p s.len 0, ?_, by simp⟩
    simp only [State.goto, State.grow]
    split <;> rfl
  | wCopy p m i =>
    simp only [State.next] at hs
    split at hs
    · simp only [Option.pure_def, Option.some.injEq, Prod.mk.injEq] at hs
      obtain ⟨rfl, rfl⟩ := hs
      exact ⟨_, rfl, by simp⟩
    · simp only [Option.bind_eq_bind, Option.bind_eq_some_iff, Option.pure_def,
        Option.some.injEq, Prod.mk.injEq] at hs
      obtain ⟨a, ha, s1, h1, rfl, rfl⟩ := hs
      obtain ⟨_, rfl⟩ := poke_some h1
      exact ⟨_, rfl, by simp⟩
  | cCopy src n e i =>
    simp only [State.next] at hs
    split at hs
    · simp only [Option.bind_eq_bind, Option.bind_eq_some_iff, Option.pure_def,
        Option.some.injEq, Prod.mk.injEq] at hs
      obtain ⟨a, ha, b, hb, s1, h1, rfl, rfl⟩ := hs
      obtain ⟨_, rfl⟩ := poke_some h1
      exact ⟨_, rfl, by simp⟩
    · simp only [Option.pure_def, Option.some.injEq, Prod.mk.injEq] at hs
      obtain ⟨rfl, rfl⟩ := hs
      exact ⟨_, rfl, by simp⟩
  | _ =>
    simp only [State.next, Option.bind_eq_bind, Option.bind_eq_some_iff, Option.pure_def,
      Option.some.injEq, Prod.mk.injEq] at hs
    first
    | (obtain ⟨s1, h1, rfl, rfl⟩ := hs
       first
       | (rw [(lock_some h1).2]; exact ⟨_, rfl, by simp⟩)
       | (rw [unlock_some h1]; exact ⟨_, rfl, by simp⟩))
    | (obtain ⟨rfl, rfl⟩ := hs
       exact ⟨_, rfl, by simp [SysEvent.actor]⟩)

theorem set_other {α : Type} (l : List α) {t u : Nat} (h : α) (n : u ≠ t) : (l.set t h)[u]? = l[u]? := by
  rw [List.getElem?_set, if_neg (Ne.symm n)]

/-- The ways a step of the server comes about. -/
theorem sys_cases {y y' : Sys} {a : SysAct} {e : List SysEvent} (hs : y.step a = some (y', e)) :
    (∃ t op, a = .call t op ∧ y.hs[t]? = some .free ∧ y.buf.pcs[t]? = some .idle ∧
      y' = ⟨y.buf.goto t op.entry, y.hs⟩ ∧ e = [.buf (.call t op)]) ∨
    (∃ t spare h pc s es, a = .run t spare ∧ y.hs[t]? = some h ∧ y.buf.pcs[t]? = some pc ∧
      y.buf.next t spare pc = some (s, es) ∧ y' = ⟨s, y.hs.set t (h.after pc)⟩ ∧ e = es.map .buf) ∨
    (∃ t q, a = .request t q ∧ y.hs[t]? = some .free ∧ y.buf.pcs[t]? = some .idle ∧
      y' = ⟨y.buf.goto t .cWait, y.hs.set t (.copying q)⟩ ∧ e = [.buf (.call t .copy)]) ∨
    (∃ t k q d n, a = .serve t k ∧ y.hs[t]? = some (.serving q d n) ∧ k ≤ n ∧
      y' = ⟨y.buf, y.hs.set t (.checking q)⟩ ∧ e = [.response t (((y.buf.array d).take n).take k)]) ∨
    (∃ t q, a = .check t ∧ y.hs[t]? = some (.checking q) ∧ flushes q = true ∧ y.buf.pcs[t]? = some .idle ∧
      y' = ⟨y.buf.goto t .rWait, y.hs.set t .resetting⟩ ∧ e = [.buf (.call t .reset)]) ∨
    (∃ t q, a = .check t ∧ y.hs[t]? = some (.checking q) ∧ flushes q = false ∧
      y' = ⟨y.buf, y.hs.set t .free⟩ ∧ e = []) := by
  cases a with
  | call t op =>
    simp only [Sys.step] at hs
    split at hs
    · rename_i hh
      simp only [Option.bind_eq_bind, Option.bind_eq_some_iff, Option.pure_def,
        Option.some.injEq, Prod.mk.injEq, Prod.exists] at hs
      obtain ⟨s, es, h1, rfl, rfl⟩ := hs
      obtain ⟨ht, rfl, rfl⟩ := step_call h1
      exact .inl ⟨t, op, rfl, hh, ht, rfl, rfl⟩
    · cases hs
  | run t spare =>
    simp only [Sys.step, Option.bind_eq_bind, Option.bind_eq_some_iff, Option.pure_def,
      Option.some.injEq, Prod.mk.injEq, Prod.exists] at hs
    obtain ⟨h, hh, pc, hpc, s, es, h1, rfl, rfl⟩ := hs
    obtain ⟨pc', hpc', h2⟩ := step_run h1
    rw [hpc] at hpc'
    cases hpc'
    exact .inr (.inl ⟨t, spare, h, pc, s, es, rfl, hh, hpc, h2, rfl, rfl⟩)
  | request t q =>
    simp only [Sys.step] at hs
    split at hs
    · rename_i hh
      simp only [Option.bind_eq_bind, Option.bind_eq_some_iff, Option.pure_def,
        Option.some.injEq, Prod.mk.injEq, Prod.exists] at hs
      obtain ⟨s, es, h1, rfl, rfl⟩ := hs
      obtain ⟨ht, rfl, rfl⟩ := step_call h1
      exact .inr (.inr (.inl ⟨t, q, rfl, hh, ht, rfl, rfl⟩))
    · cases hs
  | serve t k =>
    simp only [Sys.step] at hs
    split at hs
    · rename_i q d n hh
      split at hs
      · rename_i hk
        simp only [Option.some.injEq, Prod.mk.injEq] at hs
        obtain ⟨rfl, rfl⟩ := hs
        exact .inr (.inr (.inr (.inl ⟨t, k, q, d, n, rfl, hh, hk, rfl, rfl⟩)))
      · cases hs
    · cases hs
  | check t =>
    simp only [Sys.step] at hs
    split at hs
    · rename_i q hh
      split at hs
      · rename_i hf
        simp only [Option.bind_eq_bind, Option.bind_eq_some_iff, Option.pure_def,
          Option.some.injEq, Prod.mk.injEq, Prod.exists] at hs
        obtain ⟨s, es, h1, rfl, rfl⟩ := hs
        obtain ⟨ht, rfl, rfl⟩ := step_call h1
        exact .inr (.inr (.inr (.inr (.inl ⟨t, q, rfl, hh, hf, ht, rfl, rfl⟩))))
      · rename_i hf
        simp only [Option.some.injEq, Prod.mk.injEq] at hs
        obtain ⟨rfl, rfl⟩ := hs
        exact .inr (.inr (.inr (.inr (.inr ⟨t, q, rfl, hh, by simpa using hf, rfl, rfl⟩))))
    · cases hs

theorem step_of_next {s s' : State} {t spare : Nat} {pc : PC} {es : List Event} (h : s.pcs[t]? = some pc)
    (hs : s.next t spare pc = some (s', es)) : Http.step s (.run t spare) = some (s', es) := by
  simp only [Http.step, h, hs]

theorem step_of_call {s : State} {t : Nat} (op : Op) (h : s.pcs[t]? = some .idle) :
    Http.step s (.call t op) = some (s.goto t op.entry, [.call t op]) := by
  simp only [Http.step, h, if_true]

/-- What a step of the server does to its parts. -/
theorem sys_step {y y' : Sys} {a : SysAct} {e : List SysEvent} (hs : y.step a = some (y', e)) :
    ((∃ b es, Http.step y.buf b = some (y'.buf, es)) ∨ y'.buf = y.buf) ∧
    (∀ u, u ≠ a.actor → y'.hs[u]? = y.hs[u]? ∧ y'.buf.pcs[u]? = y.buf.pcs[u]?) ∧
    ∀ x ∈ e, x.actor = a.actor := by
  rcases sys_cases hs with ⟨t, op, rfl, _, ht, rfl, rfl⟩ | ⟨t, spare, h, pc, s, es, rfl, _, ht, hn, rfl, rfl⟩ |
    ⟨t, q, rfl, _, ht, rfl, rfl⟩ | ⟨t, k, q, d, n, rfl, _, _, rfl, rfl⟩ | ⟨t, q, rfl, _, _, ht, rfl, rfl⟩ |
    ⟨t, q, rfl, _, _, rfl, rfl⟩
  · exact ⟨.inl ⟨_, _, step_of_call op ht⟩, fun u hu => ⟨rfl, set_other _ _ hu⟩, by simp [SysEvent.actor, SysAct.actor]⟩
  · obtain ⟨p', e', he⟩ := next_pcs hn
    refine ⟨.inl ⟨_, _, step_of_next ht hn⟩, fun u hu => ⟨set_other _ _ hu, ?_⟩, he⟩
    show s.pcs[u]? = _
    rw [e']
    exact set_other _ _ hu
  · exact ⟨.inl ⟨_, _, step_of_call .copy ht⟩, fun u hu => ⟨set_other _ _ hu, set_other _ _ hu⟩,
      by simp [SysEvent.actor, SysAct.actor]⟩
  · exact ⟨.inr rfl, fun u hu => ⟨set_other _ _ hu, rfl⟩, by simp [SysEvent.actor, SysAct.actor]⟩
  · exact ⟨.inl ⟨_, _, step_of_call .reset ht⟩, fun u hu => ⟨set_other _ _ hu, set_other _ _ hu⟩,
      by simp [SysEvent.actor, SysAct.actor]⟩
  · exact ⟨.inr rfl, fun u hu => ⟨set_other _ _ hu, rfl⟩, by simp⟩

/-- The buffer of the server keeps its invariant. -/
theorem sys_inv {y y' : Sys} {a : SysAct} {e : List SysEvent} (i : ∃ pts, Inv y.buf pts)
    (hs : y.step a = some (y', e)) : ∃ pts, Inv y'.buf pts := by
  obtain ⟨pts, i⟩ := i
  rcases (sys_step hs).1 with ⟨b, es, h⟩ | h
  · obtain ⟨pts', i', _⟩ := i.step h
    exact ⟨pts', i'⟩
  · exact ⟨pts, h ▸ i⟩

theorem events_own {t : Nat} {e : List SysEvent} (h : ∀ x ∈ e, x.actor = t) : eventsOf t e = e :=
  List.filter_eq_self.2 (by simpa using h)

theorem events_other {t u : Nat} {e : List SysEvent} (n : u ≠ t) (h : ∀ x ∈ e, x.actor = u) : eventsOf t e = [] :=
  List.filter_eq_nil_iff.2 (fun x m => by simp [h x m, n])

/-- A step of another goroutine. -/
theorem Traced.other {y y' : Sys} {t : Nat} {as : List SysAct} {es e : List SysEvent} {a : SysAct}
    (tr : Traced y t as es) (hs : y.step a = some (y', e)) (ha : a.actor ≠ t) : Traced y' t (as ++ [a]) (es ++ e) := by
  obtain ⟨jobs, h, pc, st, ev, k, tr⟩ := tr
  obtain ⟨h1, h2, h3⟩ := sys_step hs
  obtain ⟨e1, e2⟩ := h2 t (Ne.symm ha)
  have s0 : stepsOf t [a] = [] := by simp [stepsOf, ha]
  refine ⟨jobs, h, pc, st, ev, k, tr.ok, e1.trans tr.handler, e2.trans tr.pcs, ?_, ?_, ?_, ?_⟩
  · rcases h1 with ⟨b, es, h1⟩ | h1
    · exact tr.stage.other (array_le h1) (fun d f => f.step h1)
    · rw [h1]; exact tr.stage
  · rw [startsOf_append, tr.starts]
    simp [startsOf, s0]
  · rw [eventsOf_append, tr.events, events_other ha h3, List.append_nil]
  · rw [stepsOf_append, s0, List.append_nil, tr.steps]

/-- The present job goes on. -/
theorem Trace.more {y y' : Sys} {t : Nat} {as : List SysAct} {es e : List SysEvent} {jobs : List Job} {h h' : Handler}
    {pc pc' : PC} {st st' : List SysAct} {ev : List SysEvent} {k : Nat} {a : SysAct}
    (tr : Trace y t as es jobs h pc st ev k) (ha : a.actor = t) (he : ∀ x ∈ e, x.actor = t)
    (hh : y'.hs[t]? = some h') (hp : y'.buf.pcs[t]? = some pc') (es' : st' = st ++ [a].filter (·.starts))
    (g : Stage y'.buf t h' pc' st' (ev ++ e) (k + 1)) : Traced y' t (as ++ [a]) (es ++ e) := by
  have s1 : stepsOf t [a] = [a] := by simp [stepsOf, ha]
  refine ⟨jobs, h', pc', st', ev ++ e, k + 1, tr.ok, hh, hp, g, ?_, ?_, ?_⟩
  · rw [startsOf_append, tr.starts, es', List.append_assoc, startsOf, s1]
  · rw [eventsOf_append, tr.events, events_own he, List.append_assoc]
  · rw [stepsOf_append, s1, List.length_append, tr.steps]
    rfl

/-- The present job ends. -/
theorem Trace.finish {y y' : Sys} {t : Nat} {as : List SysAct} {es e : List SysEvent} {jobs : List Job} {h : Handler}
    {pc : PC} {st : List SysAct} {ev : List SysEvent} {k : Nat} {a : SysAct}
    (tr : Trace y t as es jobs h pc st ev k) (ha : a.actor = t) (he : ∀ x ∈ e, x.actor = t)
    (hh : y'.hs[t]? = some .free) (hp : y'.buf.pcs[t]? = some .idle) (hst : a.starts = false) (j : Job) (ok : j.ok)
    (e1 : st = [j.start t]) (e2 : ev ++ e = j.events t) (e3 : k + 1 = j.cost) : Traced y' t (as ++ [a]) (es ++ e) := by
  have s1 : stepsOf t [a] = [a] := by simp [stepsOf, ha]
  refine ⟨jobs ++ [j], .free, .idle, [], [], 0, ?_, hh, hp, .none, ?_, ?_, ?_⟩
  · intro x m
    rcases List.mem_append.1 m with m | m
    · exact tr.ok x m
    · rw [List.mem_singleton.1 m]; exact ok
  · rw [startsOf_append, tr.starts, e1]
    simp [startsOf, s1, hst]
  · rw [eventsOf_append, tr.events, events_own he, List.append_assoc, e2]
    simp
  · rw [stepsOf_append, s1, List.length_append, tr.steps]
    simp only [List.map_append, List.sum_append, List.map_cons, List.map_nil, List.sum_cons, List.sum_nil, List.length_singleton]
    omega

/-- A step of the goroutine itself. -/
theorem Traced.own {y y' : Sys} {pts : List Point} {as : List SysAct} {es e : List SysEvent} {a : SysAct}
    (i : Inv y.buf pts) (tr : Traced y a.actor as es) (hs : y.step a = some (y', e)) :
    Traced y' a.actor (as ++ [a]) (es ++ e) := by
  obtain ⟨jobs, h, pc, st, ev, k, tr⟩ := tr
  have hac := (sys_step hs).2.2
  have g := tr.stage
  rcases sys_cases hs with ⟨t, op, rfl, hh, ht, rfl, rfl⟩ | ⟨t, spare, h', pc', s, es', rfl, hh, ht, hn, rfl, rfl⟩ |
    ⟨t, q, rfl, hh, ht, rfl, rfl⟩ | ⟨t, m, q, d, n, rfl, hh, hm, rfl, rfl⟩ | ⟨t, q, rfl, hh, hf, ht, rfl, rfl⟩ |
    ⟨t, q, rfl, hh, hf, rfl, rfl⟩
  all_goals
    obtain rfl := Option.some.inj (tr.handler.symm.trans hh)
  · obtain rfl := Option.some.inj (tr.pcs.symm.trans ht)
    cases g with
    | call i => exact i.busy.elim
    | none =>
      refine tr.more (pc' := op.entry) rfl hac hh ?_ rfl (.call (In.entry _ _))
      simp only [State.goto, SysAct.actor]; rw [set_get ht]; simp
  · obtain rfl := Option.some.inj (tr.pcs.symm.trans ht)
    have hstep := step_of_next ht hn
    have same : ∀ pc, (∀ r, pc ≠ .out r) → ∀ h : Handler, h.after pc = h := by
      intro pc hp h
      cases pc <;> first | rfl | exact absurd rfl (hp _)
    cases g with
    | none => cases hn
    | serving => cases hn
    | checking => cases hn
    | call j =>
      rcases j.next i ht hn with ⟨p', e1, rfl, j', hr⟩ | ⟨r, rfl, rfl, rfl⟩
      · refine tr.more (h' := .free) (pc' := p') rfl hac ?_ ?_ (List.append_nil _).symm ?_
        · rw [same _ hr]; simp only [SysAct.actor]; rw [hset_get hh]; simp
        · simp only [SysAct.actor]; rw [e1, set_get ht]; simp
        · simpa using Stage.call j'
      · obtain ⟨ok, hc⟩ := j.out
        refine tr.finish rfl hac ?_ ?_ rfl _ ok rfl rfl hc
        · simp only [SysAct.actor, Handler.after, Handler.returned]; rw [hset_get hh]; simp
        · simp only [SysAct.actor, State.goto]; rw [set_get ht]; simp
    | copying j =>
      rename_i q k
      rcases j.next i ht hn with ⟨p', e1, rfl, j', hr⟩ | ⟨r, rfl, rfl, rfl⟩
      · refine tr.more (h' := .copying q) (pc' := p') rfl hac ?_ ?_ (List.append_nil _).symm ?_
        · rw [same _ hr]; simp only [SysAct.actor]; rw [hset_get hh]; simp
        · simp only [SysAct.actor]; rw [e1, set_get ht]; simp
        · simpa using Stage.copying j'
      · cases j with
        | c5 hl =>
        rename_i d n
        obtain ⟨f, e1⟩ := (i.frozen t d n ht).step hstep
        refine tr.more (h' := .serving q d n) (pc' := .idle) rfl hac ?_ ?_ (List.append_nil _).symm ?_
        · simp only [SysAct.actor, Handler.after, Handler.returned]; rw [hset_get hh]; simp
        · simp only [SysAct.actor, State.goto]; rw [set_get ht]; simp
        · rw [show 5 + n + 1 + 1 = n + 7 by omega]
          exact Stage.serving f hl
    | resetting w hq j =>
      rename_i q x b k
      rcases j.next i ht hn with ⟨p', e1, rfl, j', hr⟩ | ⟨r, rfl, rfl, rfl⟩
      · refine tr.more (h' := .resetting) (pc' := p') rfl hac ?_ ?_ (List.append_nil _).symm ?_
        · rw [same _ hr]; simp only [SysAct.actor]; rw [hset_get hh]; simp
        · simp only [SysAct.actor]; rw [e1, set_get ht]; simp
        · exact Stage.resetting w hq j'
      · cases j with
        | r3 =>
        refine tr.finish rfl hac ?_ ?_ rfl (.request q x b true) ⟨w, by simpa using (flushes_iff q).1 hq⟩ rfl rfl ?_
        · simp only [SysAct.actor, Handler.after, Handler.returned]; rw [hset_get hh]; simp
        · simp only [SysAct.actor, State.goto]; rw [set_get ht]; simp
        · simp only [Job.cost, if_true]
  · obtain rfl := Option.some.inj (tr.pcs.symm.trans ht)
    cases g with
    | call i => exact i.busy.elim
    | none =>
      refine tr.more (h' := .copying q) (pc' := .cWait) rfl hac ?_ ?_ rfl (.copying .c0)
      · simp only [SysAct.actor]; rw [hset_get hh]; simp
      · simp only [State.goto, SysAct.actor]; rw [set_get ht]; simp
  · cases g with
    | serving f hl =>
    refine tr.more (h' := .checking q) (pc' := .idle) rfl hac ?_ tr.pcs (List.append_nil _).symm ?_
    · simp only [SysAct.actor]; rw [hset_get hh]; simp
    · have := Stage.checking (s := y.buf) (t := t) (q := q) (List.take_prefix m ((y.buf.array d).take n))
      rw [List.length_take, Nat.min_eq_left hl] at this
      exact this
  · cases g with
    | checking w =>
    refine tr.more (h' := .resetting) (pc' := .rWait) rfl hac ?_ ?_ (List.append_nil _).symm (.resetting w hf .r0)
    · simp only [SysAct.actor]; rw [hset_get hh]; simp
    · simp only [State.goto, SysAct.actor]; rw [set_get ht]; simp
  · cases g with
    | checking w =>
    rename_i x b
    refine tr.finish rfl hac ?_ tr.pcs rfl (.request q x b false) ⟨w, ?_⟩ rfl rfl rfl
    · simp only [SysAct.actor]; rw [hset_get hh]; simp
    · rw [← flushes_iff, hf]

theorem Traced.run {y y' : Sys} {t : Nat} {as bs : List SysAct} {es e : List SysEvent} (i : ∃ pts, Inv y.buf pts)
    (tr : Traced y t as es) (hs : y.run bs = some (y', e)) :
    (∃ pts, Inv y'.buf pts) ∧ Traced y' t (as ++ bs) (es ++ e) := by
  induction bs generalizing y as es e with
  | nil =>
    simp only [Sys.run, Option.some.injEq, Prod.mk.injEq] at hs
    obtain ⟨rfl, rfl⟩ := hs
    simpa using ⟨i, tr⟩
  | cons b bs ih =>
    simp only [Sys.run, Option.bind_eq_bind, Option.bind_eq_some_iff, Option.pure_def,
      Option.some.injEq, Prod.mk.injEq, Prod.exists] at hs
    obtain ⟨y1, e1, h1, y2, e2, h2, rfl, rfl⟩ := hs
    have tr1 : Traced y1 t (as ++ [b]) (es ++ e1) := by
      by_cases hb : b.actor = t
      · subst hb
        obtain ⟨pts, i⟩ := i
        exact tr.own i h1
      · exact tr.other h1 hb
    have := ih (sys_inv i h1) tr1 h2
    simpa using this

/-- Everything about a run from the start. -/
theorem Traced.runs {n : Nat} {as : List SysAct} {y : Sys} {es : List SysEvent} (hs : (Sys.init n).run as = some (y, es))
    (t : Nat) (ht : t < n) : (∃ pts, Inv y.buf pts) ∧ Traced y t as es := by
  have := Traced.run ⟨_, Inv.init n⟩ (Traced.init n t ht) hs
  simpa using this

/-- There is a way for an operation to end, and it has not used up its steps. -/
theorem In.ends {s : State} {op : Op} {pc : PC} {k : Nat} (h : In s op pc k) :
    (∃ v, (Job.call op v).ok ∧ k + 1 < (Job.call op v).cost) ∧ (op = .copy → ∃ x : Bytes, k < x.length + 6) ∧
    (op = .reset → k < 4) := by
  have cp : ∀ n, k ≤ 5 + n → op = .copy → (∃ v, (Job.call op v).ok ∧ k + 1 < (Job.call op v).cost) ∧
      (op = .copy → ∃ x : Bytes, k < x.length + 6) ∧ (op = .reset → k < 4) := by
    intro n hk e
    subst e
    refine ⟨⟨.copied (List.replicate n 0), ⟨_, rfl⟩, ?_⟩, fun _ => ⟨List.replicate n 0, ?_⟩, nofun⟩
    · simp only [Job.cost, List.length_replicate]; omega
    · simp only [List.length_replicate]; omega
  cases h with
  | w0 | w1 | w3 | w4 =>
    exact ⟨⟨_, rfl, by simp only [Job.cost]; omega⟩, nofun, nofun⟩
  | w2 h => exact ⟨⟨_, rfl, by simp only [Job.cost]; omega⟩, nofun, nofun⟩
  | f0 | f1 | f2 | f3 => exact ⟨⟨_, rfl, by simp [Job.cost]⟩, nofun, nofun⟩
  | r0 | r1 | r2 | r3 => exact ⟨⟨_, rfl, by simp [Job.cost]⟩, nofun, fun _ => by omega⟩
  | c0 | c1 | c2 => exact cp 0 (by omega) rfl
  | c3 h => rename_i n _ _; exact cp n (by omega) rfl
  | c4 h => rename_i n; exact cp n (by omega) rfl
  | c5 h => exact cp _ (Nat.le_refl _) rfl

/-- What is cut off the end does not matter. -/
theorem dropLast_events (t : Nat) (jobs : List Job) :
    jobs.dropLast.flatMap (·.events t) <+: jobs.flatMap (·.events t) := by
  rcases List.eq_nil_or_concat jobs with rfl | ⟨l, j, rfl⟩
  · exact List.prefix_refl _
  · rw [List.concat_eq_append, List.dropLast_concat, List.flatMap_append]
    exact List.prefix_append _ _

theorem flatMap_dropLast {t : Nat} {jobs : List Job} {j : Job} :
    ((jobs ++ [j]).dropLast).flatMap (·.events t) = jobs.flatMap (·.events t) := by
  rw [List.dropLast_concat]

/-! ## Progress -/

theorem sys_lengths {y y' : Sys} {a : SysAct} {e : List SysEvent} (hs : y.step a = some (y', e)) :
    y'.hs.length = y.hs.length ∧ y'.buf.pcs.length = y.buf.pcs.length := by
  rcases sys_cases hs with ⟨t, op, rfl, _, ht, rfl, rfl⟩ | ⟨t, spare, h, pc, s, es, rfl, _, ht, hn, rfl, rfl⟩ |
    ⟨t, q, rfl, _, ht, rfl, rfl⟩ | ⟨t, k, q, d, n, rfl, _, _, rfl, rfl⟩ | ⟨t, q, rfl, _, _, ht, rfl, rfl⟩ |
    ⟨t, q, rfl, _, _, rfl, rfl⟩
  case inr.inl =>
    obtain ⟨p', e', he⟩ := next_pcs hn
    exact ⟨List.length_set .., by show s.pcs.length = _; rw [e', List.length_set]⟩
  all_goals simp [State.goto]

theorem sys_runs_lengths {y y' : Sys} {as : List SysAct} {e : List SysEvent} (hs : y.run as = some (y', e)) :
    y'.hs.length = y.hs.length ∧ y'.buf.pcs.length = y.buf.pcs.length := by
  induction as generalizing y e with
  | nil =>
    simp only [Sys.run, Option.some.injEq, Prod.mk.injEq] at hs
    obtain ⟨rfl, rfl⟩ := hs
    exact ⟨rfl, rfl⟩
  | cons b bs ih =>
    simp only [Sys.run, Option.bind_eq_bind, Option.bind_eq_some_iff, Option.pure_def,
      Option.some.injEq, Prod.mk.injEq, Prod.exists] at hs
    obtain ⟨y1, e1, h1, y2, e2, h2, rfl, rfl⟩ := hs
    have := ih h2
    have := sys_lengths h1
    omega

theorem sys_run_append {y y1 y2 : Sys} {as bs : List SysAct} {e1 e2 : List SysEvent} (h1 : y.run as = some (y1, e1))
    (h2 : y1.run bs = some (y2, e2)) : y.run (as ++ bs) = some (y2, e1 ++ e2) := by
  induction as generalizing y e1 with
  | nil =>
    simp only [Sys.run, Option.some.injEq, Prod.mk.injEq] at h1
    obtain ⟨rfl, rfl⟩ := h1
    exact h2
  | cons b bs ih =>
    simp only [Sys.run, Option.bind_eq_bind, Option.bind_eq_some_iff, Option.pure_def,
      Option.some.injEq, Prod.mk.injEq, Prod.exists] at h1
    obtain ⟨y3, e3, h3, y4, e4, h4, rfl, rfl⟩ := h1
    simp [Sys.run, h3, ih h4]

/-- A goroutine that is not finished and does not send can go on, or waits for another one that can. -/
theorem Traced.progress {y : Sys} {pts : List Point} {t : Nat} {as : List SysAct} {es : List SysEvent}
    (i : Inv y.buf pts) (tr : Traced y t as es) (hl : y.hs.length = y.buf.pcs.length) (hf : ¬ y.finished t) :
    y.sending t ∨ ∃ a, a.starts = false ∧ a.sends = false ∧ (y.step a).isSome := by
  obtain ⟨jobs, h, pc, st, ev, k, tr⟩ := tr
  have busy : pc ≠ .idle → y.sending t ∨ ∃ a : SysAct, a.starts = false ∧ a.sends = false ∧ (y.step a).isSome := by
    intro hp
    obtain ⟨u, hu⟩ := i.progress tr.pcs hp
    obtain ⟨⟨s, es⟩, hs⟩ := Option.isSome_iff_exists.1 hu
    obtain ⟨p, hp, _⟩ := step_run hs
    have lt : u < y.hs.length := hl ▸ (List.getElem?_eq_some_iff.1 hp).1
    exact .inr ⟨.run u 0, rfl, rfl, by simp [Sys.step, List.getElem?_eq_getElem lt, hp, hs]⟩
  cases tr.stage with
  | none => exact absurd ⟨tr.handler, tr.pcs⟩ hf
  | call j => exact busy (fun e => (e ▸ j).busy)
  | copying j => exact busy (fun e => (e ▸ j).busy)
  | resetting w q j => exact busy (fun e => (e ▸ j).busy)
  | serving f l => exact .inl ⟨_, _, _, tr.handler⟩
  | checking w =>
    refine .inr ⟨.check t, rfl, rfl, ?_⟩
    simp only [Sys.step, tr.handler]
    split
    · simp [step_of_call .reset tr.pcs]
    · rfl

theorem hsum_set {l : List Handler} {t : Nat} {p : Handler} (h : l[t]? = some p) (q : Handler) :
    ((l.set t q).map Handler.todo).sum + p.todo = (l.map Handler.todo).sum + q.todo := by
  induction l generalizing t with
  | nil => simp at h
  | cons x l ih =>
    cases t with
    | zero =>
      simp only [List.getElem?_cons_zero, Option.some.injEq] at h
      subst h
      simp only [List.set_cons_zero, List.map_cons, List.sum_cons]
      omega
    | succ t =>
      simp only [List.getElem?_cons_succ] at h
      simp only [List.set_cons_succ, List.map_cons, List.sum_cons]
      have := ih h
      omega

/-- Every step that starts nothing leaves less to do. -/
theorem sys_work {y y' : Sys} {a : SysAct} {e : List SysEvent} (ha : a.starts = false)
    (hs : y.step a = some (y', e)) : y'.work < y.work := by
  rcases sys_cases hs with ⟨t, op, rfl, _, ht, rfl, rfl⟩ | ⟨t, spare, h, pc, s, es, rfl, hh, ht, hn, rfl, rfl⟩ |
    ⟨t, q, rfl, _, ht, rfl, rfl⟩ | ⟨t, k, q, d, n, rfl, hh, _, rfl, rfl⟩ | ⟨t, q, rfl, hh, _, ht, rfl, rfl⟩ |
    ⟨t, q, rfl, hh, _, rfl, rfl⟩
  · cases ha
  · have h1 := work_step (step_of_next ht hn)
    have h2 := hsum_set hh (h.after pc)
    have h3 : (h.after pc).todo ≤ h.todo := by
      cases pc <;> try exact Nat.le_refl _
      rename_i r
      cases h <;> cases r <;> simp [Handler.after, Handler.returned, Handler.todo]
    simp only [Sys.work]
    omega
  · cases ha
  · have h2 := hsum_set hh (.checking q)
    simp only [Handler.todo] at h2
    simp only [Sys.work]
    omega
  · have h2 := hsum_set hh .resetting
    have h1 := sum_set PC.pending ht .rWait
    have h3 : (y.buf.goto t .rWait).bound = y.buf.bound := by
      simp only [State.bound, State.goto]
      simp only [PC.pending] at h1
      omega
    have h4 := sum_set (PC.todo y.buf.bound) ht .rWait
    have h5 : (y.buf.goto t .rWait).work = ((y.buf.pcs.set t .rWait).map (PC.todo y.buf.bound)).sum := by
      simp only [State.work, h3]
      rfl
    simp only [Handler.todo] at h2
    simp only [PC.todo] at h4
    have h6 : y.buf.work = (y.buf.pcs.map (PC.todo y.buf.bound)).sum := rfl
    simp only [Sys.work]
    omega
  · have h2 := hsum_set hh .free
    simp only [Handler.todo] at h2
    simp only [Sys.work]
    omega

end SMC.Http
