import Verif.Lemmas.Answer
import Verif.Props.HttpServer
/-!
# C116: every request is answered
-/

namespace SMC.Props
open SMC.Http

/-! ## Progress -/

/-- **C116** As long as a goroutine is not finished, some goroutine can take a step without anything being started. -/
theorem C116_no_deadlock (n : Nat) (as : List SysAct) (y : Sys) (es : List SysEvent)
    (hs : (Sys.init n).run as = some (y, es)) (t : Nat) (ht : t < n) (hf : ¬ y.finished t) :
    ∃ a, a.starts = false ∧ (y.step a).isSome := by
  obtain ⟨⟨pts, i⟩, tr⟩ := Traced.runs hs t ht
  have := sys_runs_lengths hs
  rcases tr.progress i (by simp only [Sys.init, State.init, List.length_replicate] at this; omega) hf with
    ⟨q, d, m, h⟩ | ⟨a, h1, _, h2⟩
  · exact ⟨.serve t 0, rfl, by simp [Sys.step, h]⟩
  · exact ⟨a, h1, h2⟩

/-- **C116** No schedule keeps the requests from being answered: unless something is started there are only finitely many
steps. -/
theorem C116_bounded (y y' : Sys) (as : List SysAct) (es : List SysEvent) (hn : ∀ a ∈ as, a.starts = false)
    (hs : y.run as = some (y', es)) : as.length + y'.work ≤ y.work := by
  induction as generalizing y es with
  | nil =>
    simp only [Sys.run, Option.some.injEq, Prod.mk.injEq] at hs
    simp [hs.1]
  | cons a as ih =>
    simp only [Sys.run, Option.bind_eq_bind, Option.bind_eq_some_iff, Option.pure_def,
      Option.some.injEq, Prod.mk.injEq, Prod.exists] at hs
    obtain ⟨s1, e1, h1, s2, e2, h2, rfl, rfl⟩ := hs
    have w := sys_work (hn a (by simp)) h1
    have := ih s1 e2 (fun b hb => hn b (by simp [hb])) h2
    simp only [List.length_cons]
    omega

/-- **C116** Whatever has happened, all goroutines can finish what they have started. -/
theorem C116_completes (n : Nat) (as : List SysAct) (y : Sys) (es : List SysEvent)
    (hs : (Sys.init n).run as = some (y, es)) :
    ∃ bs y' es', (∀ b ∈ bs, b.starts = false) ∧ y.run bs = some (y', es') ∧ ∀ t < n, y'.finished t := by
  generalize hw : y.work = w
  induction w using Nat.strongRecOn generalizing y as es with
  | _ w ih =>
    by_cases hi : ∀ t < n, y.finished t
    · exact ⟨[], y, [], by simp, rfl, hi⟩
    · simp only [Classical.not_forall] at hi
      obtain ⟨t, ht, hf⟩ := hi
      obtain ⟨a, ha, hu⟩ := C116_no_deadlock n as y es hs t ht hf
      obtain ⟨⟨y1, e1⟩, h1⟩ := Option.isSome_iff_exists.1 hu
      have h1' : y.run [a] = some (y1, e1) := by simp [Sys.run, h1]
      obtain ⟨bs, y2, e2, hn, h2, hidle⟩ :=
        ih y1.work (hw ▸ sys_work ha h1) (as ++ [a]) y1 (es ++ e1) (sys_run_append hs h1') rfl
      refine ⟨a :: bs, y2, e1 ++ e2, ?_, ?_, hidle⟩
      · intro b hb
        rcases List.mem_cons.1 hb with rfl | hb
        · exact ha
        · exact hn b hb
      · simp [Sys.run, h1, h2]

/-- **C116** Clients that take their time hold up nobody: without any byte being sent, all goroutines that are not sending a
response can finish or get to sending one. -/
theorem C116_slow_clients (n : Nat) (as : List SysAct) (y : Sys) (es : List SysEvent)
    (hs : (Sys.init n).run as = some (y, es)) :
    ∃ bs y' es', (∀ b ∈ bs, b.starts = false ∧ b.sends = false) ∧ y.run bs = some (y', es') ∧
      ∀ t < n, y'.finished t ∨ y'.sending t := by
  generalize hw : y.work = w
  induction w using Nat.strongRecOn generalizing y as es with
  | _ w ih =>
    by_cases hi : ∀ t < n, y.finished t ∨ y.sending t
    · exact ⟨[], y, [], by simp, rfl, hi⟩
    · simp only [Classical.not_forall] at hi
      obtain ⟨t, ht, hf⟩ := hi
      obtain ⟨⟨pts, i⟩, tr⟩ := Traced.runs hs t ht
      have hl := sys_runs_lengths hs
      simp only [Sys.init, State.init, List.length_replicate] at hl
      rcases tr.progress i (by omega) (fun f => hf (.inl f)) with h | ⟨a, ha, hsd, hu⟩
      · exact absurd (.inr h) hf
      obtain ⟨⟨y1, e1⟩, h1⟩ := Option.isSome_iff_exists.1 hu
      have h1' : y.run [a] = some (y1, e1) := by simp [Sys.run, h1]
      obtain ⟨bs, y2, e2, hn, h2, hidle⟩ :=
        ih y1.work (hw ▸ sys_work ha h1) (as ++ [a]) y1 (es ++ e1) (sys_run_append hs h1') rfl
      refine ⟨a :: bs, y2, e1 ++ e2, ?_, ?_, hidle⟩
      · intro b hb
        rcases List.mem_cons.1 hb with rfl | hb
        · exact ⟨ha, hsd⟩
        · exact hn b hb
      · simp [Sys.run, h1, h2]

/-! ## What a goroutine has done -/

/-- **C116** What a goroutine starts it does one after the other. An operation is called and returns. A request copies the
buffer, sends one response, which is a beginning of the copy, and then resets the buffer exactly if the first value of the
parameter flush is "true". Nothing else is observed of it, the last of these may be unfinished, and all take a
number of the goroutine's own steps that depends on the bytes that were copied only, however many others there are. -/
theorem C116_jobs (n : Nat) (as : List SysAct) (y : Sys) (es : List SysEvent)
    (hs : (Sys.init n).run as = some (y, es)) (t : Nat) (ht : t < n) :
    ∃ jobs : List Job, (∀ j ∈ jobs, j.ok) ∧ startsOf t as = jobs.map (·.start t) ∧
      eventsOf t es <+: jobs.flatMap (·.events t) ∧ jobs.dropLast.flatMap (·.events t) <+: eventsOf t es ∧
      (stepsOf t as).length ≤ (jobs.map Job.cost).sum ∧
      (y.finished t ↔ (stepsOf t as).length = (jobs.map Job.cost).sum) ∧
      (y.finished t → eventsOf t es = jobs.flatMap (·.events t)) := by
  obtain ⟨⟨pts, i⟩, jobs, h, pc, st, ev, k, tr⟩ := Traced.runs hs t ht
  have last : ∀ j : Job, j.ok → st = [j.start t] → ev <+: j.events t → k < j.cost →
      ¬ y.finished t → ∃ jobs : List Job, (∀ j ∈ jobs, j.ok) ∧ startsOf t as = jobs.map (·.start t) ∧
      eventsOf t es <+: jobs.flatMap (·.events t) ∧ jobs.dropLast.flatMap (·.events t) <+: eventsOf t es ∧
      (stepsOf t as).length ≤ (jobs.map Job.cost).sum ∧
      (y.finished t ↔ (stepsOf t as).length = (jobs.map Job.cost).sum) ∧
      (y.finished t → eventsOf t es = jobs.flatMap (·.events t)) := by
    intro j ok e1 e2 hk hf
    have hc : (stepsOf t as).length < ((jobs ++ [j]).map Job.cost).sum := by
      rw [tr.steps]
      simp only [List.map_append, List.sum_append, List.map_cons, List.map_nil, List.sum_cons, List.sum_nil]
      omega
    refine ⟨jobs ++ [j], ?_, ?_, ?_, ?_, Nat.le_of_lt hc, ⟨fun f => absurd f hf, fun e => by omega⟩, fun f => absurd f hf⟩
    · intro x m
      rcases List.mem_append.1 m with m | m
      · exact tr.ok x m
      · rw [List.mem_singleton.1 m]; exact ok
    · rw [tr.starts, e1]; simp
    · rw [tr.events, List.flatMap_append]
      refine (List.prefix_append_right_inj _).2 ?_
      simpa using e2
    · rw [flatMap_dropLast, tr.events]
      exact List.prefix_append _ _
  have handler := tr.handler
  have pcs := tr.pcs
  cases tr.stage with
  | none =>
    refine ⟨jobs, tr.ok, by simpa using tr.starts, ?_, ?_, ?_, ?_, fun _ => by simpa using tr.events⟩
    · rw [tr.events, List.append_nil]; exact List.prefix_refl _
    · rw [tr.events, List.append_nil]; exact dropLast_events t jobs
    · exact Nat.le_of_eq tr.steps
    · exact ⟨fun _ => tr.steps, fun _ => ⟨handler, pcs⟩⟩
  | call j =>
    obtain ⟨⟨v, ok, hk⟩, -⟩ := j.ends
    exact last _ ok rfl ⟨[_], rfl⟩ hk (fun f => by obtain rfl := Option.some.inj (pcs.symm.trans f.2); exact j.busy)
  | copying j =>
    rename_i q k
    obtain ⟨x, hx⟩ := j.ends.2.1 rfl
    refine last (.request q x [] (flushes q)) ⟨List.nil_prefix, flushes_iff q⟩ rfl ⟨_, rfl⟩ ?_
      (fun f => by cases handler.symm.trans f.1)
    simp only [Job.cost]
    omega
  | serving f l =>
    rename_i q d m
    refine last (.request q ((y.buf.array d).take m) [] (flushes q)) ⟨List.nil_prefix, flushes_iff q⟩ rfl ⟨_, rfl⟩ ?_
      (fun f => by cases handler.symm.trans f.1)
    simp only [Job.cost, List.length_take]
    omega
  | checking w =>
    rename_i q x b
    refine last (.request q x b (flushes q)) ⟨w, flushes_iff q⟩ rfl ⟨_, rfl⟩ ?_
      (fun f => by cases handler.symm.trans f.1)
    simp only [Job.cost]
    omega
  | resetting w hq j =>
    rename_i q x b k
    have := j.ends.2.2 rfl
    refine last (.request q x b true) ⟨w, by simpa using (flushes_iff q).1 hq⟩ rfl ⟨[_], rfl⟩ ?_
      (fun f => by cases handler.symm.trans f.1)
    simp only [Job.cost, if_true]
    omega

/-- **C116** A goroutine that has finished has sent exactly one response to every request; before, at most one is missing
and none is sent twice. -/
theorem C116_answered (n : Nat) (as : List SysAct) (y : Sys) (es : List SysEvent)
    (hs : (Sys.init n).run as = some (y, es)) (t : Nat) (ht : t < n) :
    responses t es ≤ requests t as ∧ requests t as ≤ responses t es + 1 ∧
    (y.finished t → responses t es = requests t as) := by
  obtain ⟨jobs, -, h1, ⟨r, h2⟩, ⟨r', h3⟩, -, -, h4⟩ := C116_jobs n as y es hs t ht
  have e1 : requests t as = requests t (startsOf t as) := by
    simp only [requests, startsOf, stepsOf, List.filter_filter, List.countP_filter]
    refine List.countP_congr fun a _ => ?_
    cases a <;> simp [SysAct.starts, SysAct.actor]
    intro h; simp [h]
  have e2 : responses t es = responses t (eventsOf t es) := by
    simp only [responses, eventsOf, List.countP_filter]
    refine List.countP_congr fun a _ => ?_
    rcases a with (_ | _) | _ <;> simp [SysEvent.actor]
    intro h; simp [h]
  have app : ∀ a b, responses t (a ++ b) = responses t a + responses t b := fun a b => List.countP_append
  have apq : ∀ a b, requests t (a :: b) = requests t [a] + requests t b := fun a b => List.countP_append (l₁ := [a])
  have hj : ∀ jobs : List Job, responses t (jobs.flatMap (·.events t)) = requests t (jobs.map (·.start t)) := by
    intro jobs
    induction jobs with
    | nil => rfl
    | cons j jobs ih =>
      simp only [List.flatMap_cons, List.map_cons]
      rw [app, ih, apq]
      cases j with
      | call op v => rfl
      | request q x w b => cases b <;> simp [Job.events, Job.start, responses, requests]
  have d1 : requests t (jobs.map (·.start t)) ≤ requests t (jobs.dropLast.map (·.start t)) + 1 := by
    rcases List.eq_nil_or_concat jobs with rfl | ⟨l, j, rfl⟩
    · exact Nat.zero_le _
    · rw [List.concat_eq_append, List.dropLast_concat, List.map_append, requests, List.countP_append]
      refine Nat.add_le_add_left ?_ _
      exact List.countP_le_length
  rw [e1, e2, h1]
  refine ⟨?_, ?_, fun f => by rw [h4 f, hj]⟩
  · rw [← hj, ← h2, app]; omega
  · refine Nat.le_trans d1 (Nat.add_le_add_right ?_ 1)
    rw [← hj, ← h3, app]
    omega

/-! ## Examples -/

/-- A write, a request with flush=true that has sent one of two bytes, and a writer that waits. -/
def midway : List SysAct :=
  [.call 0 (.write [0x61, 0x62])] ++ List.replicate 7 (.run 0 5) ++ [.request 1 flushTrue] ++ List.replicate 8 (.run 1 0) ++
  [.serve 1 1, .check 1, .run 1 0, .call 0 (.write [0x63]), .request 2 (go! "a=b")]

/-- In `midway` no goroutine is finished, goroutine 1 holds the lock and the others wait for it; 24 steps are left at most. -/
example : ((Sys.init 3).run midway).map (fun x => (x.1.hs, x.1.buf.pcs, x.1.work)) =
    some ([.free, .resetting, .copying (go! "a=b")], [.wWait [0x63], .rSet, .cWait], 24) := by decide +kernel

/-- What goroutine 1 does in `midway` and when it has finished: one request, 15 steps. -/
example : ((Sys.init 3).run (midway ++ List.replicate 3 (.run 1 0))).map
      (fun x => (x.1.hs[1]?, x.1.buf.pcs[1]?, eventsOf 1 x.2)) =
      some (some .free, some .idle, (Job.request flushTrue [0x61, 0x62] [0x61] true).events 1) ∧
    startsOf 1 midway = [.request 1 flushTrue] ∧
    (stepsOf 1 (midway ++ List.replicate 3 (.run 1 0))).length = (Job.request flushTrue [0x61, 0x62] [0x61] true).cost := by
  decide +kernel

/-- Goroutine 1 sends a response and its client takes nothing; the writer 0 finishes all the same. -/
example : ((Sys.init 2).run ([.request 1 flushTrue] ++ List.replicate 6 (.run 1 0) ++ [.call 0 (.write [0x63])] ++
      List.replicate 6 (.run 0 0))).map (fun x => (x.1.hs, x.1.buf.pcs)) =
    some ([.free, .serving flushTrue 0 0], [.idle, .idle]) := by decide +kernel

end SMC.Props
