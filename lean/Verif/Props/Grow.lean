import Verif.Http.Grow
import Verif.Http.Memory
import Verif.Lemmas.HttpStep
/-!
# C113: the memory of the page
-/

namespace SMC.Props

open SMC Http

/-- the array of the buffer exists -/
def ArrOK (s : State) : Prop := ∀ a, s.arr = some a → a < s.heap.length

/-- the same array of the same size, used to the same length -/
structure SameBuf (s s' : State) : Prop where
  arr : s'.arr = s.arr
  len : s'.len = s.len
  cap : s'.cap = s.cap
  ok : ArrOK s'

theorem sameBuf_goto {s : State} (h : ArrOK s) (t : Nat) (pc : PC) : SameBuf s (s.goto t pc) := ⟨rfl, rfl, rfl, h⟩

theorem sameBuf_append {s : State} (h : ArrOK s) (x : Bytes) : SameBuf s { s with heap := s.heap ++ [x] } := by
  refine ⟨rfl, rfl, ?_, fun a ha => ?_⟩
  · unfold State.cap
    cases e : s.arr with
    | none => rfl
    | some a =>
      show (((s.heap ++ [x])[a]?).getD []).length = ((s.heap[a]?).getD []).length
      rw [array_append _ _ _ (h a e)]
  · have := h a ha
    show a < (s.heap ++ [x]).length
    rw [List.length_append]
    omega

theorem sameBuf_poke {s s' : State} (h : ArrOK s) {a i : Nat} {b : UInt8} (hp : s.poke a i b = some s') : SameBuf s s' := by
  obtain ⟨hlt, rfl⟩ := poke_some hp
  refine ⟨rfl, rfl, ?_, fun d hd => ?_⟩
  · unfold State.cap
    cases e : s.arr with
    | none => rfl
    | some d =>
      show (((s.heap.modify a (·.set i b))[d]?).getD []).length = ((s.heap[d]?).getD []).length
      by_cases c : a = d
      · subst c
        rw [array_modify_eq, List.length_set]
      · rw [array_modify_ne _ _ _ _ c]
  · show d < (s.heap.modify a (·.set i b)).length
    rw [List.length_modify]
    exact h d hd

theorem SameBuf.trans {s s' s'' : State} (h : SameBuf s s') (h' : SameBuf s' s'') : SameBuf s s'' :=
  ⟨h'.arr.trans h.arr, h'.len.trans h.len, h'.cap.trans h.cap, h'.ok⟩

/-- only growing and resetting change the buffer -/
theorem next_sameBuf {s s' : State} (h : ArrOK s) {t spare : Nat} {pc : PC} {es : List Event}
    (hs : s.next t spare pc = some (s', es)) (h1 : ∀ p, pc ≠ .wGrow p) (h2 : pc ≠ .rSet) : SameBuf s s' := by
  cases pc with
  | idle => cases hs
  | wGrow p => exact absurd rfl (h1 p)
  | rSet => exact absurd rfl h2
  | wCopy p m i =>
    simp only [State.next] at hs
    split at hs
    · simp only [Option.pure_def, Option.some.injEq, Prod.mk.injEq] at hs
      obtain ⟨rfl, rfl⟩ := hs
      exact sameBuf_goto h _ _
    · simp only [Option.bind_eq_bind, Option.bind_eq_some_iff, Option.pure_def, Option.some.injEq, Prod.mk.injEq] at hs
      obtain ⟨a, ha, s1, h1, rfl, rfl⟩ := hs
      have := sameBuf_poke h h1
      exact this.trans (sameBuf_goto this.ok _ _)
  | cCopy src n d i =>
    simp only [State.next] at hs
    split at hs
    · simp only [Option.bind_eq_bind, Option.bind_eq_some_iff, Option.pure_def, Option.some.injEq, Prod.mk.injEq] at hs
      obtain ⟨a, ha, b, hb, s1, h1, rfl, rfl⟩ := hs
      have := sameBuf_poke h h1
      exact this.trans (sameBuf_goto this.ok _ _)
    · simp only [Option.pure_def, Option.some.injEq, Prod.mk.injEq] at hs
      obtain ⟨rfl, rfl⟩ := hs
      exact sameBuf_goto h _ _
  | cMake src n =>
    simp only [State.next, Option.pure_def, Option.some.injEq, Prod.mk.injEq] at hs
    obtain ⟨rfl, rfl⟩ := hs
    have := sameBuf_append h (zeros n)
    exact this.trans (sameBuf_goto this.ok _ _)
  | fGrow | cBytes | out =>
    simp only [State.next, Option.pure_def, Option.some.injEq, Prod.mk.injEq] at hs
    obtain ⟨rfl, rfl⟩ := hs
    exact sameBuf_goto h _ _
  | wWait | fWait | cWait | rWait =>
    simp only [State.next, Option.bind_eq_bind, Option.bind_eq_some_iff, Option.pure_def,
      Option.some.injEq, Prod.mk.injEq] at hs
    obtain ⟨s1, h1, rfl, rfl⟩ := hs
    rw [(lock_some h1).2]
    exact ⟨rfl, rfl, rfl, h⟩
  | wDone | fDone | cDone | rDone =>
    simp only [State.next, Option.bind_eq_bind, Option.bind_eq_some_iff, Option.pure_def,
      Option.some.injEq, Prod.mk.injEq] at hs
    obtain ⟨s1, h1, rfl, rfl⟩ := hs
    rw [unlock_some h1]
    exact ⟨rfl, rfl, rfl, h⟩

/-- what `moved` and `added` bytes are accounted for by: `b` bytes were added before the last reset, and `k` moved since -/
structure Paid (size : Nat → Nat) (s : State) (moved added : Nat) : Prop where
  ok : ArrOK s
  empty : s.len = 0 → s.arr = none
  room : s.len ≤ s.cap
  cap : s.cap ≤ max 64 (size (2 * s.len))
  paid : ∃ b k, moved ≤ 2 * b + k ∧ k ≤ s.cap ∧ k ≤ 2 * s.len ∧ b + s.len ≤ added

theorem Paid.init (size : Nat → Nat) (n : Nat) : Paid size (State.init n) 0 0 :=
  ⟨fun a h => (by cases h), fun _ => rfl, Nat.le_refl _, by simp [State.init, State.cap], 0, 0, by simp, by simp, by simp, by simp [State.init]⟩

theorem Paid.same {size : Nat → Nat} {s s' : State} {m w : Nat} (h : Paid size s m w) (c : SameBuf s s') : Paid size s' m w := by
  obtain ⟨h1, h2, h3, h4, h5⟩ := h
  exact ⟨c.ok, by rw [c.len, c.arr]; exact h2, by rw [c.len, c.cap]; exact h3, by rw [c.len, c.cap]; exact h4,
    by rw [c.len, c.cap]; exact h5⟩

theorem Paid.step {size : Nat → Nat} (mono : ∀ a b, a ≤ b → size a ≤ size b) (large : ∀ a, a ≤ size a) {s s' : State}
    {m w : Nat} (h : Paid size s m w) {a : Act} {es : List Event} (hs : step s (a.exact size s) = some (s', es)) :
    Paid size s' (m + (a.cost s).1) (w + (a.cost s).2) := by
  cases a with
  | call t op =>
    simp only [Act.exact, Http.step] at hs
    split at hs
    · simp only [Option.some.injEq, Prod.mk.injEq] at hs
      obtain ⟨rfl, rfl⟩ := hs
      exact h.same (sameBuf_goto h.ok _ _)
    · cases hs
  | run t sp =>
    obtain ⟨pc, ht, hn⟩ := step_run hs
    by_cases c1 : ∃ p, pc = .wGrow p
    · obtain ⟨p, rfl⟩ := c1
      have hcost : Act.cost s (.run t sp) = (if s.len + p.length ≤ s.cap then 0 else s.len, p.length) := by
        simp only [Act.cost, ht]
      rw [hcost]
      simp only [ht, State.next, Option.pure_def, Option.some.injEq, Prod.mk.injEq] at hn
      obtain ⟨rfl, rfl⟩ := hn
      obtain ⟨h1, h2, h3, h4, b, k, h5, h6, h7, h8⟩ := h
      by_cases c : s.len + p.length ≤ s.cap
      · have hg : ∀ x, s.grow p.length x = { s with len := s.len + p.length } := fun x => by unfold State.grow; rw [if_pos c]
        rw [hg, if_pos c]
        refine ⟨h1, fun e => h2 ?_, c, ?_, b, k, h5, h6, ?_, ?_⟩
        · have : s.len + p.length = 0 := e
          omega
        · show s.cap ≤ max 64 (size (2 * (s.len + p.length)))
          have := mono (2 * s.len) (2 * (s.len + p.length)) (by omega)
          omega
        · show k ≤ 2 * (s.len + p.length)
          omega
        · show b + (s.len + p.length) ≤ w + p.length
          omega
      · rw [if_neg c]
        have hc : s.contents.length = s.len := by
          unfold State.contents
          unfold State.cap at h3
          cases e : s.arr with
          | none => rw [e] at h3; simp at h3 ⊢; omega
          | some a => rw [e] at h3; simp at h3 ⊢; omega
        have hcap0 : s.arr = none → s.cap = 0 := fun e => by unfold State.cap; rw [e]
        have hnc : s.len + p.length ≤ s.newCap size p.length ∧ 2 * s.cap ≤ s.newCap size p.length ∧
            s.newCap size p.length ≤ max 64 (size (2 * (s.len + p.length))) := by
          unfold State.newCap
          split
          · rename_i c'
            have := hcap0 c'.1
            omega
          · have := large (max (s.len + p.length) (2 * s.cap))
            have := mono (max (s.len + p.length) (2 * s.cap)) (2 * (s.len + p.length)) (by omega)
            omega
        generalize s.newCap size p.length = N at hnc ⊢
        have hg : s.grow p.length (N - (s.len + p.length)) = { s with
            heap := s.heap ++ [s.contents ++ zeros (p.length + (N - (s.len + p.length)))],
            arr := some s.heap.length, len := s.len + p.length } := by unfold State.grow; rw [if_neg c]
        rw [hg]
        have hcap : State.cap { s with
            heap := s.heap ++ [s.contents ++ zeros (p.length + (N - (s.len + p.length)))],
            arr := some s.heap.length, len := s.len + p.length } = N := by
          show ((s.heap ++ [s.contents ++ zeros (p.length + (N - (s.len + p.length)))])[s.heap.length]?.getD []).length = N
          rw [List.getElem?_append_right (Nat.le_refl _), Nat.sub_self]
          simp only [List.getElem?_cons_zero, Option.getD_some, List.length_append, hc, zeros, List.length_replicate]
          omega
        refine ⟨fun a ha => ?_, fun e => ?_, ?_, ?_, b, k + s.len, ?_, ?_, ?_, ?_⟩
        · cases ha
          show s.heap.length < (s.heap ++ [_]).length
          rw [List.length_append, List.length_singleton]
          omega
        · have : s.len + p.length = 0 := e
          omega
        · show s.len + p.length ≤ State.cap { s with
            heap := s.heap ++ [s.contents ++ zeros (p.length + (N - (s.len + p.length)))],
            arr := some s.heap.length, len := s.len + p.length }
          rw [hcap]
          exact hnc.1
        · show State.cap { s with
            heap := s.heap ++ [s.contents ++ zeros (p.length + (N - (s.len + p.length)))],
            arr := some s.heap.length, len := s.len + p.length } ≤ max 64 (size (2 * (s.len + p.length)))
          rw [hcap]
          exact hnc.2.2
        · omega
        · show k + s.len ≤ State.cap { s with
            heap := s.heap ++ [s.contents ++ zeros (p.length + (N - (s.len + p.length)))],
            arr := some s.heap.length, len := s.len + p.length }
          rw [hcap]
          omega
        · show k + s.len ≤ 2 * (s.len + p.length)
          omega
        · show b + (s.len + p.length) ≤ w + p.length
          omega
    · have hcost : Act.cost s (.run t sp) = (0, 0) := by
        simp only [Act.cost, ht]
        split
        · rename_i p e
          exact absurd ⟨p, Option.some.inj e⟩ c1
        · rfl
      rw [hcost, Nat.add_zero, Nat.add_zero]
      by_cases c2 : pc = .rSet
      · subst c2
        simp only [State.next, Option.pure_def, Option.some.injEq, Prod.mk.injEq] at hn
        obtain ⟨rfl, rfl⟩ := hn
        obtain ⟨h1, h2, h3, h4, b, k, h5, h6, h7, h8⟩ := h
        exact ⟨fun a ha => (by cases ha), fun _ => rfl, Nat.le_refl _, Nat.zero_le _, b + s.len, 0, by omega, Nat.zero_le _,
          Nat.zero_le _, h8⟩
      · exact h.same (next_sameBuf h.ok hn (fun p e => c1 ⟨p, e⟩) c2)

theorem Paid.run {size : Nat → Nat} (mono : ∀ a b, a ≤ b → size a ≤ size b) (large : ∀ a, a ≤ size a) {as : List Act}
    {s s' : State} {m w m' w' : Nat} (h : Paid size s m w) (hr : exactRun size s as = some (s', m', w')) :
    Paid size s' (m + m') (w + w') := by
  induction as generalizing s m w m' w' with
  | nil =>
    simp only [exactRun, Option.some.injEq, Prod.mk.injEq] at hr
    obtain ⟨rfl, rfl, rfl⟩ := hr
    exact h
  | cons a as ih =>
    simp only [exactRun, Option.bind_eq_bind, Option.bind_eq_some_iff, Option.pure_def, Option.some.injEq, Prod.mk.injEq] at hr
    obtain ⟨⟨s1, e1⟩, h1, ⟨s2, m2, w2⟩, h2, rfl, rfl, rfl⟩ := hr
    have := ih (h.step mono large h1) h2
    rwa [Nat.add_assoc, Nat.add_assoc] at this

/-- **C113** The executions are executions of the buffer. -/
theorem C113_executions (size : Nat → Nat) (s s' : State) (as : List Act) (m w : Nat)
    (h : exactRun size s as = some (s', m, w)) : ∃ as' es, run s as' = some (s', es) := by
  induction as generalizing s m w with
  | nil =>
    simp only [exactRun, Option.some.injEq, Prod.mk.injEq] at h
    obtain ⟨rfl, rfl, rfl⟩ := h
    exact ⟨[], [], rfl⟩
  | cons a as ih =>
    simp only [exactRun, Option.bind_eq_bind, Option.bind_eq_some_iff, Option.pure_def, Option.some.injEq, Prod.mk.injEq] at h
    obtain ⟨⟨s1, e1⟩, h1, ⟨s2, m2, w2⟩, h2, rfl, rfl, rfl⟩ := h
    obtain ⟨as', es, h3⟩ := ih s1 m2 w2 h2
    refine ⟨a.exact size s :: as', e1 ++ es, ?_⟩
    simp only [run, h1, h3, Option.bind_eq_bind, Option.bind_some, Option.pure_def]

/-- **C113** In every execution the array of the page has at most twice the bytes of the page, or 64, and an empty page has none;
all Writes together move at most twice the bytes they add. -/
theorem C113_memory (size : Nat → Nat) (mono : ∀ a b, a ≤ b → size a ≤ size b) (large : ∀ a, a ≤ size a) (n : Nat)
    (as : List Act) (s : State) (moved added : Nat) (h : exactRun size (State.init n) as = some (s, moved, added)) :
    s.cap ≤ max 64 (size (2 * s.len)) ∧ (s.len = 0 → s.arr = none) ∧ moved ≤ 2 * added := by
  have := (Paid.init size n).run mono large h
  rw [Nat.zero_add, Nat.zero_add] at this
  obtain ⟨-, h2, -, h4, b, k, h5, h6, h7, h8⟩ := this
  exact ⟨h4, h2, by omega⟩

/-- whether a byte of an array is read -/
def readsByte : Action → Bool
  | .read (.elem _ _) => true
  | _ => false

/-- **C113** What is counted: a Write moves as many bytes as it reads from the old array, and the page gets longer by what it adds. -/
theorem C113_counted (size : Nat → Nat) (mono : ∀ a b, a ≤ b → size a ≤ size b) (large : ∀ a, a ≤ size a) (n : Nat)
    (as : List Act) (s : State) (moved added : Nat) (h : exactRun size (State.init n) as = some (s, moved, added)) (t x : Nat)
    (p : Bytes) (ht : s.pcs[t]? = some (.wGrow p)) (spare : Nat) (s' : State) (es : List Event)
    (hs : step s (.run t spare) = some (s', es)) :
    (Act.cost s (.run t x)).1 = (((PC.wGrow p).actions s spare).filter readsByte).length ∧
    s'.len = s.len + (Act.cost s (.run t x)).2 := by
  have hp := (Paid.init size n).run mono large h
  have hcost : Act.cost s (.run t x) = (if s.len + p.length ≤ s.cap then 0 else s.len, p.length) := by
    simp only [Act.cost, ht]
  rw [hcost]
  constructor
  · have hw : ∀ (a m : Nat), ((elems a m).map Action.write).filter readsByte = [] := by
      intro a m
      rw [List.filter_eq_nil_iff]
      intro y hy
      obtain ⟨l, -, rfl⟩ := List.mem_map.1 hy
      simp [readsByte]
    have hr : ∀ (a m : Nat), ((elems a m).map Action.read).filter readsByte = (elems a m).map Action.read := by
      intro a m
      rw [List.filter_eq_self]
      intro y hy
      obtain ⟨l, hl, rfl⟩ := List.mem_map.1 hy
      obtain ⟨i, -, rfl⟩ := List.mem_map.1 hl
      rfl
    have h0 : [Action.read .header, .write .header].filter readsByte = [] := rfl
    unfold PC.actions
    simp only
    rw [List.filter_append, h0, List.nil_append]
    by_cases c : s.len + p.length ≤ s.cap
    · rw [if_pos c, if_pos c]
      rfl
    · rw [if_neg c, if_neg c, List.filter_append, hw, List.append_nil]
      cases e : s.arr with
      | none =>
        have := hp.room
        unfold State.cap at this
        rw [e] at this
        simpa using this
      | some a =>
        simp only [hr]
        simp [elems]
  · obtain ⟨pc, hpc, hn⟩ := step_run hs
    obtain rfl : PC.wGrow p = pc := Option.some.inj (ht.symm.trans hpc)
    simp only [State.next, Option.pure_def, Option.some.injEq, Prod.mk.injEq] at hn
    obtain ⟨rfl, rfl⟩ := hn
    show (s.grow p.length spare).len = _
    unfold State.grow
    split <;> rfl

/-- one goroutine writes 50 bytes, then 20, and resets -/
def growing (reset : Bool) : List Act :=
  [.call 0 (.write (zeros 50))] ++ List.replicate 55 (.run 0 0) ++ [.call 0 (.write (zeros 20))] ++ List.replicate 25 (.run 0 0) ++
    if reset then [.call 0 .reset, .run 0 0, .run 0 0] else []

-- the second array is larger than the page, the bytes of the first Write were moved once, and the reset gives the array away
example : (exactRun id (State.init 1) (growing false)).map (fun r => (r.1.cap, r.1.len, r.2)) = some (128, 70, 50, 70) ∧
    (exactRun id (State.init 1) (growing true)).map (fun r => (r.1.cap, r.1.len, r.2)) = some (0, 0, 50, 70) := by decide +kernel

-- an allocator with multiples of 48 bytes
example : (exactRun (fun n => (n + 47) / 48 * 48) (State.init 1) (growing false)).map (fun r => (r.1.cap, r.1.len, r.2)) =
    some (144, 70, 50, 70) ∧ (∀ a b, a ≤ b → (a + 47) / 48 * 48 ≤ (b + 47) / 48 * 48) ∧ ∀ a, a ≤ (a + 47) / 48 * 48 :=
  ⟨by decide +kernel, by omega, by omega⟩

-- the second Write moves the bytes of the first
example : (exactRun id (State.init 1) ((growing false).take 58)).map (fun r => (r.1.pcs, r.1.len, r.1.cap)) =
    some ([.wGrow (zeros 20)], 50, 64) := by decide +kernel

end SMC.Props
