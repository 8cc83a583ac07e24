import Verif.Lemmas.ParallelRun
import Verif.Lemmas.Steps
/-!
# C97: parsing in several goroutines at once

`jobs` are calls of the parsers, each in a goroutine of its own; several of them may be given the
same buffer. `ms` is what happens: steps of the goroutines in any order, and writes of others to
shared arrays in between, but not to the buffers that are parsed.
-/

namespace SMC.Props

open SMC Spec HGo

variable {h : Heap} {jobs : List Job} {ms : List Move} {i : Nat} {j : Job} {t : Task}

/-! ## What goroutines do is what they do alone -/

/-- C97: a goroutine that has returned has logged, allocated and returned what it does when it is
alone and nobody writes; one that has panicked panics when alone, too. -/
theorem C97_alone (hm : Apart jobs ms) (hj : jobs[i]? = some j)
    (ht : ((World.start h jobs).after ms).tasks[i]? = some t) :
    (∀ r, t.Returned r → j.code h = .ret t.log (r, h ++ t.own)) ∧ (t.Panicked → j.code h = .panic t.log) := by
  have hs := ((Inv.reach (h := h) hm).same i j t hj ht).1
  obtain ⟨own, log, todo⟩ := t
  refine ⟨?_, ?_⟩
  · rintro r ⟨⟩
    rw [hs.2, run, Go.logged_ret, List.append_nil]
  · rintro ⟨⟩
    exact hs

/-- C97: nobody waits for anybody: a goroutine has finished after as many steps of its own as it
needs when it is alone, whatever the others do. -/
theorem C97_wait_free (hm : Apart jobs ms) (hj : jobs[i]? = some j)
    (ht : ((World.start h jobs).after ms).tasks[i]? = some t) (hn : stepsOf j.code h ≤ ms.count (.step i)) :
    (∃ r, t.Returned r) ∨ t.Panicked := by
  have hs := ((Inv.reach (h := h) hm).same i j t hj ht).2
  rw [Nat.sub_eq_zero_of_le hn] at hs
  obtain ⟨own, log, todo⟩ := t
  cases todo with
  | none => exact .inr rfl
  | some x =>
    cases x with
    | done r => exact .inl ⟨r, rfl⟩
    | comp x k => cases x <;> cases hs
    | look r f k =>
      simp only [left, stepsOf] at hs
      split at hs <;> cases hs
    | alloc n k => cases hs
    | fill dst src k => cases hs

/-- C97: no call makes more than 1070 steps, so every goroutine has finished after so many. -/
theorem C97_finishes (hm : Apart jobs ms) (hj : jobs[i]? = some j)
    (ht : ((World.start h jobs).after ms).tasks[i]? = some t) (hn : 1070 ≤ ms.count (.step i)) :
    (∃ r, t.Returned r) ∨ t.Panicked :=
  C97_wait_free hm hj ht (Nat.le_trans (Job.code_bounded j h) hn)

/-- C97: every goroutine is there all the time. -/
theorem C97_there (hm : Apart jobs ms) (hj : jobs[i]? = some j) :
    ∃ t, ((World.start h jobs).after ms).tasks[i]? = some t := by
  have hc := (Inv.reach (h := h) hm).count
  have hi : i < jobs.length := by
    rcases Nat.lt_or_ge i jobs.length with h1 | h1
    · exact h1
    · rw [List.getElem?_eq_none h1] at hj; cases hj
  exact ⟨_, List.getElem?_eq_getElem (by rw [hc]; exact hi)⟩

/-- C97: parsing changes no shared array: they are what the writes of others make them. -/
theorem C97_shared (hm : Apart jobs ms) : ((World.start h jobs).after ms).shared = written h ms :=
  (Inv.reach (h := h) hm).shared

/-! ## Data races -/

/-- C97: the next step of a goroutine looks at no shared array but its buffer, and writes to no
shared array. -/
theorem C97_footprint (hm : Apart jobs ms) (hj : jobs[i]? = some j)
    (ht : ((World.start h jobs).after ms).tasks[i]? = some t) {x : HGo Parsed} (hx : t.todo = some x) :
    (∀ a ∈ nextReads x, a < h.length → a = j.buf.arr) ∧ ∀ a ∈ nextWrites x, h.length ≤ a := by
  have hs := ((Inv.reach (h := h) hm).same i j t hj ht).1
  obtain ⟨own, log, todo⟩ := t
  cases hx
  have hw := hs.1
  cases x with
  | done r => exact ⟨(fun a ha => by cases ha), fun a ha => by cases ha⟩
  | comp x k => exact ⟨(fun a ha => by cases ha), fun a ha => by cases ha⟩
  | look r f k =>
    refine ⟨fun a ha hl => ?_, fun a ha => by cases ha⟩
    simp only [nextReads, List.mem_singleton] at ha
    rcases hw.1 with h1 | h1
    · rw [ha, h1]
    · omega
  | alloc n k => exact ⟨(fun a ha => by cases ha), fun a ha => by cases ha⟩
  | fill dst src k =>
    refine ⟨fun a ha hl => ?_, fun a ha => ?_⟩
    · simp only [nextReads, List.mem_singleton] at ha
      rcases hw.2.1 with h1 | h1
      · rw [ha, h1]
      · omega
    · simp only [nextWrites, List.mem_singleton] at ha
      rw [ha]
      exact hw.1

/-- C97: there are no data races between goroutines that parse. -/
theorem C97_no_race (hm : Apart jobs ms) : ¬((World.start h jobs).after ms).Race := by
  rintro ⟨i, k, s, t, x, y, a, _, hs, _, hx, _, ha, hw, _⟩
  have hi := Inv.reach (h := h) hm
  obtain ⟨j, hj⟩ : ∃ j, jobs[i]? = some j := by
    refine ⟨_, List.getElem?_eq_getElem (h := ?_)⟩
    rw [← hi.count]
    rcases Nat.lt_or_ge i ((World.start h jobs).after ms).tasks.length with h1 | h1
    · exact h1
    · rw [List.getElem?_eq_none h1] at hs; cases hs
  have h1 := (C97_footprint hm hj hs hx).2 a hw
  rw [hi.length] at ha
  omega

/-! ## The messages -/

/-- the memory of goroutines is the same in all but shared arrays -/
theorem own_slice {h H own : Heap} (hl : H.length = h.length) {r : Ref} (hr : r.Own h.length (h ++ own)) :
    Heap.slice (H ++ own) r = Heap.slice (h ++ own) r := by
  obtain ⟨h1, h2 | h2⟩ := hr
  · have : r.len = 0 := by have := h1.1; omega
    simp [Heap.slice, this, h2]
  · refine Heap.slice_congr h1 fun _ => ?_
    rw [Heap.getD_append_right _ _ _ h2, Heap.getD_append_right _ _ _ (by omega), hl]

theorem own_bytes {h H own : Heap} (hl : H.length = h.length) {r : Ref} (hr : r.Own h.length (h ++ own)) :
    Heap.bytes (H ++ own) r = Heap.bytes (h ++ own) r := by
  rw [Heap.bytes, own_slice hl hr, Heap.bytes]

theorem llc_view {h H own : Heap} (hl : H.length = h.length) {m : LLC.HMsg} (hr : m.s.Own h.length (h ++ own)) :
    m.view (H ++ own) = m.view (h ++ own) := by
  obtain ⟨v, s⟩ := m
  obtain ⟨h2, h3, h4⟩ := hr
  cases v <;> simp only [LLC.HMsg.view, LLC.ConfirmLink.on, LLC.AddLink.on, own_bytes hl h2, own_bytes hl h3,
    own_bytes hl h4]

theorem roce_view {h H own : Heap} (hl : H.length = h.length) {m : RoCE.HRoCE} (hr : m.Own h.length (h ++ own))
    (hc : Heap.slice (H ++ own) m.ICRC = Heap.slice (h ++ own) m.ICRC) :
    m.view (H ++ own) = m.view (h ++ own) := by
  obtain ⟨typ, grh, bth, llc, crc⟩ := m
  obtain ⟨h2, h3, h4⟩ := hr
  dsimp only at hc
  simp only [RoCE.HRoCE.view, RoCE.HBTH.view, own_bytes hl h3, llc_view hl h2, hc]
  cases grh with
  | none => rfl
  | some g =>
    obtain ⟨h5, h6, h7⟩ := h4 g rfl
    simp only [Option.map_some, RoCE.HGRH.view, own_bytes hl h5, own_bytes hl h6, own_bytes hl h7]

theorem clc_view {h H own : Heap} (hl : H.length = h.length) {m : CLC.HMessage} (hr : m.s.Own h.length (h ++ own))
    (hb : Heap.slice (H ++ own) m.s.raw = Heap.slice (h ++ own) m.s.raw) :
    m.view (H ++ own) = m.view (h ++ own) := by
  obtain ⟨v, s⟩ := m
  obtain ⟨h2, h3, h4, h5⟩ := hr
  have hp : CLC.prefixesOn (H ++ own) s.prefixes = CLC.prefixesOn (h ++ own) s.prefixes :=
    List.map_congr_left fun p hm => by rw [own_bytes hl (h5 p hm)]
  dsimp only at hb
  cases v <;> simp only [CLC.HMessage.view, CLC.Proposal.on, CLC.ProposalV2.on,
    CLC.AcceptSMCR.on, own_bytes hl h2, own_bytes hl h3, own_bytes hl h4, hp, hb]

theorem mapped {α β : Type} {x : HGo α} {c : α → β} {h h1 : Heap} {l : List Bytes} {r : β}
    (e : (x >>= fun a => (pure (c a) : HGo β)) h = .ret l (r, h1)) : ∃ a, x h = .ret l (a, h1) ∧ r = c a := by
  rw [run_bind] at e
  cases hx : x h with
  | panic k => rw [hx] at e; cases e
  | ret k p =>
    rw [hx] at e
    have e : Go.ret (k ++ []) (c p.1, p.2) = .ret l (r, h1) := e
    rw [List.append_nil] at e
    cases e
    exact ⟨_, rfl, rfl⟩

theorem mapped_panic {α β : Type} {x : HGo α} {c : α → β} {h : Heap} {l : List Bytes}
    (e : (x >>= fun a => (pure (c a) : HGo β)) h = .panic l) : x h = .panic l := by
  rw [run_bind] at e
  cases hx : x h with
  | panic k => rw [hx] at e; cases e; rfl
  | ret k p => rw [hx] at e; cases e

/-- C97 for `ParseLLC`: the message, seen with the memory as it is now, and the log are those of the
parser on values for the bytes that the buffer had at the beginning. -/
theorem C97_llc {buf : Ref} (hb : buf.Valid h) (hm : Apart jobs ms) (hj : jobs[i]? = some (.llc buf))
    (ht : ((World.start h jobs).after ms).tasks[i]? = some t) :
    (∀ r, t.Returned r → ∃ m, r = .llc m ∧
      LLC.parseLLC (h.slice buf) = .ret t.log (m.view (((World.start h jobs).after ms).shared ++ t.own))) ∧
    (t.Panicked → LLC.parseLLC (h.slice buf) = .panic t.log) := by
  obtain ⟨h1, h2⟩ := C97_alone hm hj ht
  refine ⟨fun r hr => ?_, fun hp => ((LLC.parseLLCH_sim hb).panic_iff _).1 (mapped_panic (h2 hp))⟩
  obtain ⟨m, e, rfl⟩ := mapped (h1 r hr)
  obtain ⟨_, v, hv, ho, rfl⟩ := (LLC.parseLLCH_sim hb).ret e
  refine ⟨m, rfl, ?_⟩
  rw [hv, llc_view (Inv.reach (h := h) hm).length ho]

/-- the buffer of a job is what it was -/
theorem buffer_slice (hm : Apart jobs ms) (hj : jobs[i]? = some j) {own : Heap} {r : Ref} (hr : r.arr = j.buf.arr) :
    Heap.slice (((World.start h jobs).after ms).shared ++ own) r = Heap.slice (h ++ own) r :=
  have hi := Inv.reach (h := h) hm
  slice_shared hi.length (hi.bufs j (List.mem_of_getElem? hj)) (.inl hr)

/-- C97 for `ParseRoCEv1` -/
theorem C97_rocev1 {buf : Ref} (hb : buf.Valid h) (hm : Apart jobs ms) (hj : jobs[i]? = some (.rocev1 buf))
    (ht : ((World.start h jobs).after ms).tasks[i]? = some t) :
    (∀ r, t.Returned r → ∃ m, r = .roce m ∧
      RoCE.parseRoCEv1 (h.slice buf) = .ret t.log (m.view (((World.start h jobs).after ms).shared ++ t.own))) ∧
    (t.Panicked → RoCE.parseRoCEv1 (h.slice buf) = .panic t.log) := by
  obtain ⟨h1, h2⟩ := C97_alone hm hj ht
  refine ⟨fun r hr => ?_, fun hp => ((RoCE.parseRoCEv1H_sim hb).panic_iff _).1 (mapped_panic (h2 hp))⟩
  obtain ⟨m, e, rfl⟩ := mapped (h1 r hr)
  obtain ⟨_, v, hv, ho, rfl, _, _, hc⟩ := (RoCE.parseRoCEv1H_sim hb).ret e
  refine ⟨m, rfl, ?_⟩
  rw [hv, roce_view (Inv.reach (h := h) hm).length ho (buffer_slice hm hj (by rw [hc]; rfl))]

/-- C97 for `ParseRoCEv2` -/
theorem C97_rocev2 {buf : Ref} (hb : buf.Valid h) (hm : Apart jobs ms) (hj : jobs[i]? = some (.rocev2 buf))
    (ht : ((World.start h jobs).after ms).tasks[i]? = some t) :
    (∀ r, t.Returned r → ∃ m, r = .roce m ∧
      RoCE.parseRoCEv2 (h.slice buf) = .ret t.log (m.view (((World.start h jobs).after ms).shared ++ t.own))) ∧
    (t.Panicked → RoCE.parseRoCEv2 (h.slice buf) = .panic t.log) := by
  obtain ⟨h1, h2⟩ := C97_alone hm hj ht
  refine ⟨fun r hr => ?_, fun hp => ((RoCE.parseRoCEv2H_sim hb).panic_iff _).1 (mapped_panic (h2 hp))⟩
  obtain ⟨m, e, rfl⟩ := mapped (h1 r hr)
  obtain ⟨_, v, hv, ho, rfl, _, _, hc⟩ := (RoCE.parseRoCEv2H_sim hb).ret e
  refine ⟨m, rfl, ?_⟩
  rw [hv, roce_view (Inv.reach (h := h) hm).length ho (buffer_slice hm hj (by rw [hc]; rfl))]

/-- C97 for `Parse` of a new CLC message -/
theorem C97_clc {v : CLC.Message} {buf : Ref} (hb : buf.Valid h) (hm : Apart jobs ms)
    (hj : jobs[i]? = some (.clc v buf)) (ht : ((World.start h jobs).after ms).tasks[i]? = some t) :
    (∀ r, t.Returned r → ∃ m, r = .clc m ∧ ((CLC.HMessage.mk v {}).view h).parse (h.slice buf)
      = .ret t.log (m.view (((World.start h jobs).after ms).shared ++ t.own))) ∧
    (t.Panicked → ((CLC.HMessage.mk v {}).view h).parse (h.slice buf) = .panic t.log) := by
  obtain ⟨h1, h2⟩ := C97_alone hm hj ht
  have hsim := CLC.HMessage.parse_sim hb (Nat.le_refl _) ⟨v, {}⟩ (.nil _ _)
  refine ⟨fun r hr => ?_, fun hp => (hsim.panic_iff _).1 (mapped_panic (h2 hp))⟩
  obtain ⟨m, e, rfl⟩ := mapped (h1 r hr)
  obtain ⟨_, v, hv, rfl, ho, hraw⟩ := hsim.ret e
  refine ⟨m, rfl, ?_⟩
  rw [hv, clc_view (Inv.reach (h := h) hm).length ho (buffer_slice hm hj (by rw [hraw]; rfl))]

/-! ## Examples -/

/-- two arrays: a Test Link message, and something else -/
def exampleShared : Heap := [hex! "07 2c 00 00 01 02 03 04 05 06 07 08 09 0a 0b 0c 0d 0e 0f 10" ++ zeros 24, [1, 2, 3]]

/-- the message in the first array, twice -/
def exampleJobs : List Job := [.llc ⟨0, 0, 44, 44⟩, .llc ⟨0, 0, 44, 44⟩]

/-- steps in turn, and a write to the other array -/
def exampleMoves : List Move :=
  [.step 0, .step 1, .step 1, .write 1 0 7, .step 0, .step 0, .step 1, .step 1, .step 0, .step 0]

/-- the LLC message that a goroutine has returned -/
def Task.llc? (shared : Heap) (t : Task) : Option LLC.Msg :=
  match t.todo with
  | some (.done (.llc m)) => some (m.view (shared ++ t.own))
  | _ => none

/-- the LLC messages that the goroutines have returned -/
def World.llc (w : World) : List (Option LLC.Msg) := w.tasks.map (Task.llc? w.shared)

example : Ref.Valid exampleShared ⟨0, 0, 44, 44⟩ ∧ Apart exampleJobs exampleMoves ∧
    stepsOf (Job.llc ⟨0, 0, 44, 44⟩).code exampleShared = 4 := by
  refine ⟨⟨by decide, .inr ⟨by decide, by decide⟩⟩, ?_, by decide +kernel⟩
  intro arr i b hm j hj
  simp [exampleMoves] at hm
  simp [exampleJobs] at hj
  rw [hj, hm.1]
  decide

example : World.llc ((World.start exampleShared exampleJobs).after exampleMoves)
    = [(LLC.parseLLC (exampleShared.slice ⟨0, 0, 44, 44⟩)).val?, (LLC.parseLLC (exampleShared.slice ⟨0, 0, 44, 44⟩)).val?] ∧
    (LLC.parseLLC (exampleShared.slice ⟨0, 0, 44, 44⟩)).val?.isSome := by
  decide +kernel

/-- C97 needs that nobody writes to the buffer: if somebody does while it is parsed, the message may
be neither that of the buffer before nor that of the buffer after. -/
theorem C97_torn : ∃ m, World.llc ((World.start exampleShared [.llc ⟨0, 0, 44, 44⟩]).after
      [.step 0, .step 0, .step 0, .write 0 4 0xff, .step 0]) = [some m] ∧
    some m ≠ (LLC.parseLLC (exampleShared.slice ⟨0, 0, 44, 44⟩)).val? ∧
    some m ≠ (LLC.parseLLC (Heap.slice (exampleShared.set 0 4 0xff) ⟨0, 0, 44, 44⟩)).val? := by
  refine ⟨_, rfl, ?_, ?_⟩ <;> decide +kernel

end SMC.Props
