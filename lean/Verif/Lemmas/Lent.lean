import Verif.Spec.Lent
import Verif.Lemmas.HttpStep
/-!
# Lemmas about the buffer machine with the memory of the callers
-/

namespace SMC.Http

/-! ## Arguments that change -/

/-- The bytes a `Write` is going to add. -/
def PC.pay : PC → Option Bytes
  | .wWait p | .wGrow p | .wCopy p _ _ => some p
  | _ => none

theorem set_self {l : List PC} {t : Nat} {x : PC} (h : l[t]? = some x) : l.set t x = l := by
  apply List.ext_getElem?
  intro i
  rw [set_get h]
  split
  · rename_i e; rw [← e, h]
  · rfl

theorem goto_self {s : State} {t : Nat} {pc : PC} (ht : s.pcs[t]? = some pc) : s.goto t pc = s := by
  simp only [State.goto, set_self ht]

/-! ## Memory of others -/

/-- The array a goroutine is copying to, or has copied to. -/
def PC.dst : PC → Option Nat
  | .cCopy _ _ d _ | .cDone d _ | .out (.copy d _) => some d
  | _ => none

/-- What happens to other arrays does not matter. -/
theorem Inv.heap {s : State} {pts : List Point} (h : Inv s pts) {hp : List Bytes} (hl : s.heap.length ≤ hp.length)
    (ha : ∀ a, s.arr = some a → hp[a]?.getD [] = s.array a)
    (hd : ∀ (t : Nat) pc d, s.pcs[t]? = some pc → pc.dst = some d → hp[d]?.getD [] = s.array d) :
    Inv { s with heap := hp } pts := by
  have hc : ({ s with heap := hp } : State).contents = s.contents := by
    simp only [State.contents]
    cases e : s.arr with
    | none => rfl
    | some a => simp only [State.array]; rw [ha a e]; rfl
  refine ⟨?_, h.legal, h.excl, h.lock, ?_, ?_, ?_, ?_⟩
  · intro t
    rw [h.phases t]
    refine congrArg some (Eq.symm (phase_congr ?_))
    intro d n e
    cases hx : s.pcs[t]? with
    | none => rw [show ({ s with heap := hp } : State).pcs = s.pcs from rfl, hx] at e; cases e
    | some pc =>
      rw [show ({ s with heap := hp } : State).pcs = s.pcs from rfl, hx] at e
      exact hd t pc d hx (by rw [show pc = .out (.copy d n) from e]; rfl)
  · have := h.buf
    simp only [BufOK] at this ⊢
    cases e : s.arr with
    | none => rw [e] at this; exact this
    | some a =>
      rw [e] at this
      simp only [State.array] at this ⊢
      rw [ha a e]
      exact ⟨Nat.lt_of_lt_of_le this.1 hl, this.2⟩
  · intro hq
    rw [hc]
    exact h.quiet hq
  · intro t pc ht hcr
    have k := h.crit t pc ht hcr
    have hd' := hd t pc
    cases pc <;> simp only [CritOK, hc] at k ⊢ <;> try exact k
    · obtain ⟨k1, k2, k3, k4, k5, k6, k7, k8⟩ := k
      have := hd' _ ht rfl
      simp only [State.array] at k7 k8 ⊢
      rw [this]
      exact ⟨k1, k2, k3, k4, Nat.lt_of_lt_of_le k5 hl, k6, k7, k8⟩
    · obtain ⟨k1, k2, k3, k4⟩ := k
      have := hd' _ ht rfl
      simp only [State.array] at k4 ⊢
      rw [this]
      exact ⟨k1, Nat.lt_of_lt_of_le k2 hl, k3, k4⟩
  · intro t d n e
    obtain ⟨f1, f2, f3⟩ := h.frozen t d n e
    exact ⟨Nat.lt_of_lt_of_le f1 hl, f2, f3⟩

/-! ## Who has which memory -/

/-- Callers have no array that the buffer or a call is using; what calls return belongs to one caller; arguments are slices of
callers. -/
structure Lend (l : Lent) : Prop where
  own : ∀ a ∈ l.owned, a < l.s.heap.length ∧ l.s.arr ≠ some a ∧ ∀ (t : Nat) pc, l.s.pcs[t]? = some pc → pc.dst ≠ some a
  uniq : ∀ (t u : Nat) pc pc' d, l.s.pcs[t]? = some pc → l.s.pcs[u]? = some pc' → pc.dst = some d → pc'.dst = some d → t = u
  fresh : ∀ (t : Nat) pc d, l.s.pcs[t]? = some pc → pc.dst = some d → d < l.s.heap.length ∧ l.s.arr ≠ some d
  buf : ∀ a, l.s.arr = some a → a < l.s.heap.length
  args : ∀ (t : Nat) r, l.args[t]? = some (some r) → r.arr ∈ l.owned ∧ r.off + r.len ≤ (l.s.array r.arr).length ∧
    ∀ pc q, l.s.pcs[t]? = some pc → pc.pay = some q → q.length = r.len

/-- What a step does to the arrays, as far as their use is concerned. -/
theorem next_shape {s s' : State} {t spare : Nat} {pc : PC} {es : List Event} (hs : s.next t spare pc = some (s', es)) :
    ∃ q, s'.pcs = s.pcs.set t q ∧ s.heap.length ≤ s'.heap.length ∧ (∀ x, q.pay = some x → pc.pay = some x) ∧
      (((s'.arr = s.arr ∨ s'.arr = none) ∧ (q.dst = none ∨ q.dst = pc.dst)) ∨
        (s'.arr = some s.heap.length ∧ s.heap.length < s'.heap.length ∧ q.dst = none) ∨
        (s'.arr = s.arr ∧ q.dst = some s.heap.length ∧ s.heap.length < s'.heap.length)) := by
  cases pc with
  | idle => cases hs
  | wGrow p =>
    simp only [State.next, Option.pure_def, Option.some.injEq, Prod.mk.injEq] at hs
    obtain ⟨rfl, rfl⟩ := hs
    refine ⟨.wCopy p s.len 0, ?_, ?_, fun x h => h, ?_⟩
    · simp only [State.goto, State.grow]
      split <;> rfl
    · simp only [State.goto, State.grow]
      split <;> simp
    · simp only [State.goto, State.grow]
      split
      · exact .inl ⟨.inl rfl, .inl rfl⟩
      · exact .inr (.inl ⟨rfl, by simp, rfl⟩)
  | wCopy p m i =>
    simp only [State.next] at hs
    split at hs
    · simp only [Option.pure_def, Option.some.injEq, Prod.mk.injEq] at hs
      obtain ⟨rfl, rfl⟩ := hs
      exact ⟨.wDone p, rfl, Nat.le_refl _, by simp [PC.pay], .inl ⟨.inl rfl, .inl rfl⟩⟩
    · simp only [Option.bind_eq_bind, Option.bind_eq_some_iff, Option.pure_def, Option.some.injEq, Prod.mk.injEq] at hs
      obtain ⟨a, h1, s1, h2, rfl, rfl⟩ := hs
      simp only [State.poke] at h2
      split at h2
      · cases h2
        exact ⟨.wCopy p m (i + 1), rfl, by simp [State.goto], fun x h => h, .inl ⟨.inl rfl, .inl rfl⟩⟩
      · cases h2
  | cMake src n =>
    simp only [State.next, Option.pure_def, Option.some.injEq, Prod.mk.injEq] at hs
    obtain ⟨rfl, rfl⟩ := hs
    exact ⟨.cCopy src n s.heap.length 0, rfl, by simp [State.goto], by simp [PC.pay],
      .inr (.inr ⟨rfl, rfl, by simp [State.goto]⟩)⟩
  | cCopy src n d i =>
    simp only [State.next] at hs
    split at hs
    · simp only [Option.bind_eq_bind, Option.bind_eq_some_iff, Option.pure_def, Option.some.injEq, Prod.mk.injEq] at hs
      obtain ⟨a, h1, b, h2, s1, h3, rfl, rfl⟩ := hs
      simp only [State.poke] at h3
      split at h3
      · cases h3
        exact ⟨.cCopy src n d (i + 1), rfl, by simp [State.goto], fun x h => h, .inl ⟨.inl rfl, .inr rfl⟩⟩
      · cases h3
    · simp only [Option.pure_def, Option.some.injEq, Prod.mk.injEq] at hs
      obtain ⟨rfl, rfl⟩ := hs
      exact ⟨.cDone d n, rfl, Nat.le_refl _, by simp [PC.pay], .inl ⟨.inl rfl, .inr rfl⟩⟩
  | rSet =>
    simp only [State.next, Option.pure_def, Option.some.injEq, Prod.mk.injEq] at hs
    obtain ⟨rfl, rfl⟩ := hs
    exact ⟨.rDone, rfl, Nat.le_refl _, by simp [PC.pay], .inl ⟨.inr rfl, .inl rfl⟩⟩
  | cBytes =>
    simp only [State.next, Option.pure_def, Option.some.injEq, Prod.mk.injEq] at hs
    obtain ⟨rfl, rfl⟩ := hs
    exact ⟨.cMake s.arr s.len, rfl, Nat.le_refl _, by simp [PC.pay], .inl ⟨.inl rfl, .inl rfl⟩⟩
  | fGrow p =>
    simp only [State.next, Option.pure_def, Option.some.injEq, Prod.mk.injEq] at hs
    obtain ⟨rfl, rfl⟩ := hs
    exact ⟨.fDone p, rfl, Nat.le_refl _, by simp [PC.pay], .inl ⟨.inl rfl, .inl rfl⟩⟩
  | out r =>
    simp only [State.next, Option.pure_def, Option.some.injEq, Prod.mk.injEq] at hs
    obtain ⟨rfl, rfl⟩ := hs
    exact ⟨.idle, rfl, Nat.le_refl _, by simp [PC.pay], .inl ⟨.inl rfl, .inl rfl⟩⟩
  | wWait p | fWait p | cWait | rWait =>
    simp only [State.next, Option.bind_eq_bind, Option.bind_eq_some_iff, Option.pure_def,
      Option.some.injEq, Prod.mk.injEq] at hs
    obtain ⟨s1, h1, rfl, rfl⟩ := hs
    rw [(lock_some h1).2]
    exact ⟨_, rfl, Nat.le_refl _, by simp [PC.pay], .inl ⟨.inl rfl, .inl rfl⟩⟩
  | cDone d n =>
    simp only [State.next, Option.bind_eq_bind, Option.bind_eq_some_iff, Option.pure_def,
      Option.some.injEq, Prod.mk.injEq] at hs
    obtain ⟨s1, h1, rfl, rfl⟩ := hs
    rw [unlock_some h1]
    exact ⟨_, rfl, Nat.le_refl _, by simp [PC.pay], .inl ⟨.inl rfl, .inr rfl⟩⟩
  | wDone p | fDone p | rDone =>
    simp only [State.next, Option.bind_eq_bind, Option.bind_eq_some_iff, Option.pure_def,
      Option.some.injEq, Prod.mk.injEq] at hs
    obtain ⟨s1, h1, rfl, rfl⟩ := hs
    rw [unlock_some h1]
    exact ⟨_, rfl, Nat.le_refl _, by simp [PC.pay], .inl ⟨.inl rfl, .inl rfl⟩⟩

theorem Lend.frozen {l : Lent} (h : Lend l) {a : Nat} (ha : a ∈ l.owned) : Frozen l.s a := by
  obtain ⟨h1, h2, h3⟩ := h.own a ha
  refine ⟨h1, h2, ?_⟩
  intro u src n i e
  exact h3 u _ e rfl

theorem part_length {s : State} {r : Part} (h : r.off + r.len ≤ (s.array r.arr).length) : (s.part r).length = r.len := by
  simp only [State.part, List.length_take, List.length_drop]
  omega

theorem part_congr {s s' : State} {r : Part} (h : s'.array r.arr = s.array r.arr) : s'.part r = s.part r := by
  simp only [State.part, h]

theorem look_dst (p : Bytes) (pc : PC) : (pc.look p).dst = pc.dst := by cases pc <;> rfl

theorem look_pay {p q : Bytes} {pc : PC} (h : (pc.look p).pay = some q) (hp : ∀ x, pc.pay = some x → x.length = p.length) :
    q.length = p.length := by
  cases pc <;> simp only [PC.look, PC.pay, Option.some.injEq] at h <;> try cases h
  · rfl
  · rfl
  · have := hp _ rfl
    simp only [List.length_append, List.length_take, List.length_drop]
    omega

/-- One goroutine moves, the others and their memory stay. -/
theorem Lend.goto {l : Lent} (h : Lend l) {t : Nat} {pc q : PC} (ht : l.s.pcs[t]? = some pc) {s' : State}
    (e : s'.pcs = l.s.pcs.set t q) (hl : l.s.heap.length ≤ s'.heap.length)
    (hs : ((s'.arr = l.s.arr ∨ s'.arr = none) ∧ (q.dst = none ∨ q.dst = pc.dst)) ∨
        (s'.arr = some l.s.heap.length ∧ l.s.heap.length < s'.heap.length ∧ q.dst = none) ∨
        (s'.arr = l.s.arr ∧ q.dst = some l.s.heap.length ∧ l.s.heap.length < s'.heap.length))
    (ha : ∀ a ∈ l.owned, s'.array a = l.s.array a)
    (hp : ∀ r x, l.args[t]? = some (some r) → q.pay = some x → x.length = r.len) : Lend { l with s := s' } := by
  -- the destinations of the new state are old ones or the new array
  have hd : ∀ (u : Nat) pc' d, s'.pcs[u]? = some pc' → pc'.dst = some d →
      (∃ pc0, l.s.pcs[u]? = some pc0 ∧ pc0.dst = some d) ∨
      (u = t ∧ d = l.s.heap.length ∧ s'.arr = l.s.arr ∧ l.s.heap.length < s'.heap.length) := by
    intro u pc' d h1 h2
    rw [e, set_get ht] at h1
    split at h1
    · rename_i hu
      cases h1
      subst hu
      rcases hs with ⟨_, c | c⟩ | ⟨_, _, c⟩ | ⟨c1, c2, c3⟩
      · rw [c] at h2; cases h2
      · exact .inl ⟨pc, ht, c ▸ h2⟩
      · rw [c] at h2; cases h2
      · rw [c2] at h2
        cases h2
        exact .inr ⟨rfl, rfl, c1, c3⟩
    · exact .inl ⟨pc', h1, h2⟩
  have harr : ∀ a, a < l.s.heap.length → l.s.arr ≠ some a → s'.arr ≠ some a := by
    intro a h1 h2 h3
    rcases hs with ⟨c | c, _⟩ | ⟨c, _⟩ | ⟨c, _⟩
    · exact h2 (c ▸ h3)
    · rw [c] at h3; cases h3
    · rw [c] at h3; cases h3; omega
    · exact h2 (c ▸ h3)
  refine ⟨?_, ?_, ?_, ?_, ?_⟩
  · intro a m
    obtain ⟨h1, h2, h3⟩ := h.own a m
    refine ⟨Nat.lt_of_lt_of_le h1 hl, harr a h1 h2, ?_⟩
    intro u pc' h4 h5
    rcases hd u pc' a h4 h5 with ⟨pc0, h6, h7⟩ | ⟨_, h6, _⟩
    · exact h3 u pc0 h6 h7
    · omega
  · intro u v pc1 pc2 d h1 h2 h3 h4
    rcases hd u pc1 d h1 h3 with ⟨p1, a1, a2⟩ | ⟨a1, a2, _⟩ <;> rcases hd v pc2 d h2 h4 with ⟨p2, b1, b2⟩ | ⟨b1, b2, _⟩
    · exact h.uniq u v p1 p2 d a1 b1 a2 b2
    · have := (h.fresh u p1 d a1 a2).1
      omega
    · have := (h.fresh v p2 d b1 b2).1
      omega
    · omega
  · intro u pc' d h1 h2
    rcases hd u pc' d h1 h2 with ⟨p1, a1, a2⟩ | ⟨a1, a2, a3, a4⟩
    · obtain ⟨b1, b2⟩ := h.fresh u p1 d a1 a2
      exact ⟨Nat.lt_of_lt_of_le b1 hl, harr d b1 b2⟩
    · refine ⟨by dsimp only; omega, ?_⟩
      intro c
      dsimp only at c
      rw [a3] at c
      have := h.buf d c
      omega
  · intro a c
    dsimp only at c ⊢
    rcases hs with ⟨x | x, _⟩ | ⟨x, y, _⟩ | ⟨x, _⟩
    · exact Nat.lt_of_lt_of_le (h.buf a (x ▸ c)) hl
    · rw [x] at c; cases c
    · rw [x] at c; cases c; exact y
    · exact Nat.lt_of_lt_of_le (h.buf a (x ▸ c)) hl
  · intro u r h1
    obtain ⟨a1, a2, a3⟩ := h.args u r h1
    refine ⟨a1, ?_, ?_⟩
    · dsimp only
      rw [ha _ a1]
      exact a2
    · intro pc' x h2 h3
      dsimp only at h2
      rw [e, set_get ht] at h2
      split at h2
      · rename_i hu
        cases h2
        subst hu
        exact hp r x h1 h3
      · exact a3 pc' x h2 h3

theorem Lend.look {l : Lent} (h : Lend l) (t : Nat) : Lend { l with s := l.look t } := by
  unfold Lent.look
  split
  · rename_i pc r ht hr
    obtain ⟨a1, a2, a3⟩ := h.args t r hr
    refine h.goto ht (q := pc.look (l.s.part r)) rfl (Nat.le_refl _) (.inl ⟨.inl rfl, .inr (look_dst ..)⟩) (fun _ _ => rfl) ?_
    intro r' x h1 h2
    rw [hr] at h1
    cases h1
    rw [← part_length a2]
    exact look_pay h2 (fun y hy => by rw [part_length a2]; exact a3 pc y ht hy)
  · exact h

theorem Lend.next {l : Lent} (h : Lend l) {t spare : Nat} {pc : PC} (ht : l.s.pcs[t]? = some pc) {s' : State} {es : List Event}
    (hs : l.s.next t spare pc = some (s', es)) :
    Lend { l with s := s' } ∧ ∀ a ∈ l.owned, s'.array a = l.s.array a := by
  have st : Http.step l.s (.run t spare) = some (s', es) := by
    simp only [Http.step, ht]
    exact hs
  have ha : ∀ a ∈ l.owned, s'.array a = l.s.array a := fun a m => ((h.frozen m).step st).2
  obtain ⟨q, e, hl, hpay, sh⟩ := next_shape hs
  refine ⟨h.goto ht e hl sh ha ?_, ha⟩
  intro r x h1 h2
  exact (h.args t r h1).2.2 pc x ht (hpay x h2)

theorem Lend.call {l : Lent} (h : Lend l) {t : Nat} (op : Op) (ht : l.s.pcs[t]? = some .idle)
    (hp : ∀ p r, op = .write p → l.args[t]? = some (some r) → p.length = r.len) :
    Lend { l with s := l.s.goto t op.entry } := by
  refine h.goto ht (q := op.entry) rfl (Nat.le_refl _) (.inl ⟨.inl rfl, .inl ?_⟩) (fun _ _ => rfl) ?_
  · cases op <;> rfl
  · intro r x h1 h2
    cases op <;> simp only [Op.entry, PC.pay, Option.some.injEq] at h2 <;> try cases h2
    exact hp _ r rfl h1

/-- What a step does when a call returns. -/
theorem look_out {l : Lent} {t : Nat} {r : Res} (ht : l.s.pcs[t]? = some (.out r)) : l.look t = l.s := by
  unfold Lent.look
  split
  · rename_i pc p h1 h2
    rw [ht] at h1
    cases h1
    exact goto_self ht
  · rfl

theorem look_pcs {l : Lent} {t : Nat} {pc : PC} (h : (l.look t).pcs[t]? = some pc) :
    ∃ pc0, l.s.pcs[t]? = some pc0 ∧ ((∃ r, pc0 = .out r) ↔ ∃ r, pc = .out r) := by
  unfold Lent.look at h
  split at h
  · rename_i pc0 r h1 h2
    simp only [State.goto] at h
    rw [set_get h1, if_pos rfl] at h
    cases h
    refine ⟨pc0, h1, ?_⟩
    cases pc0 <;> simp [PC.look]
  · exact ⟨pc, h, .rfl⟩

theorem look_heap (l : Lent) (t : Nat) : (l.look t).heap = l.s.heap := by
  unfold Lent.look
  split <;> rfl

theorem Lend.args_set {l : Lent} (h : Lend l) (t : Nat) : Lend { l with args := l.args.set t none } := by
  refine ⟨h.own, h.uniq, h.fresh, h.buf, ?_⟩
  intro u r h1
  dsimp only at h1
  rw [List.getElem?_set] at h1
  split at h1
  · split at h1 <;> cases h1
  · exact h.args u r h1

theorem Lend.run_step {l l' : Lent} (h : Lend l) {t spare : Nat} {es : List Event}
    (hs : l.step (.run t spare) = some (l', es)) :
    Lend l' ∧ (∀ a ∈ l.owned, a ∈ l'.owned ∧ l'.s.array a = l.s.array a) ∧
      ∃ s', Http.step (l.look t) (.run t spare) = some (s', es) ∧ l' = l.pass t s' := by
  simp only [Lent.step, Option.bind_eq_bind, Option.bind_eq_some_iff, Option.pure_def, Option.some.injEq, Prod.mk.injEq,
    Prod.exists] at hs
  obtain ⟨s', es', h1, rfl, rfl⟩ := hs
  obtain ⟨pc, h2, h3⟩ := step_run h1
  have hk := h.look t
  obtain ⟨hn, ha⟩ := hk.next (l := { l with s := l.look t }) h2 h3
  have ha' : ∀ a ∈ l.owned, s'.array a = l.s.array a := by
    intro a m
    rw [ha a m]
    simp only [State.array, look_heap]
  refine ⟨?_, ?_, s', h1, rfl⟩
  · unfold Lent.pass
    split
    · rename_i d n ht
      rw [look_out ht] at h2 h3
      rw [ht] at h2
      cases h2
      simp only [State.next, Option.pure_def, Option.some.injEq, Prod.mk.injEq] at h3
      obtain ⟨rfl, rfl⟩ := h3
      have hset := hn.args_set t
      obtain ⟨f1, f2⟩ := h.fresh t _ d ht rfl
      refine ⟨?_, hset.uniq, hset.fresh, hset.buf, ?_⟩
      · intro a m
        rcases List.mem_cons.1 m with rfl | m
        · refine ⟨f1, f2, ?_⟩
          intro u pc' h4 h5
          simp only [State.goto] at h4
          rw [set_get ht] at h4
          split at h4
          · cases h4; cases h5
          · rename_i hu
            exact hu (h.uniq t u _ _ a ht h4 rfl h5)
        · exact hset.own a m
      · intro u r h4
        obtain ⟨b1, b2, b3⟩ := hset.args u r h4
        exact ⟨List.mem_cons_of_mem _ b1, b2, b3⟩
    · exact hn.args_set t
    · exact hn
  · intro a m
    unfold Lent.pass
    split
    · exact ⟨List.mem_cons_of_mem _ m, ha' a m⟩
    · exact ⟨m, ha' a m⟩
    · exact ⟨m, ha' a m⟩

theorem Lend.heap {l : Lent} (h : Lend l) {hp : List Bytes} (hl : l.s.heap.length ≤ hp.length)
    (hs : ∀ a ∈ l.owned, (hp[a]?.getD []).length = (l.s.array a).length) :
    Lend { l with s := { l.s with heap := hp } } := by
  refine ⟨?_, h.uniq, ?_, fun a c => Nat.lt_of_lt_of_le (h.buf a c) hl, ?_⟩
  · intro a m
    obtain ⟨h1, h2, h3⟩ := h.own a m
    exact ⟨Nat.lt_of_lt_of_le h1 hl, h2, h3⟩
  · intro t pc d h1 h2
    obtain ⟨b1, b2⟩ := h.fresh t pc d h1 h2
    exact ⟨Nat.lt_of_lt_of_le b1 hl, b2⟩
  · intro t r h1
    obtain ⟨b1, b2, b3⟩ := h.args t r h1
    refine ⟨b1, ?_, b3⟩
    show _ ≤ (hp[r.arr]?.getD []).length
    rw [hs _ b1]
    exact b2

theorem alloc_array {s : State} {bs : Bytes} {a : Nat} (h : a < s.heap.length) :
    (s.heap ++ [bs])[a]?.getD [] = s.array a := array_append _ _ _ h

theorem Lend.alloc {l : Lent} (h : Lend l) (bs : Bytes) :
    Lend { l with s := { l.s with heap := l.s.heap ++ [bs] }, owned := l.s.heap.length :: l.owned } := by
  have k : Lend { l with s := { l.s with heap := l.s.heap ++ [bs] } } :=
    h.heap (by simp) (fun a m => by rw [alloc_array (h.own a m).1])
  refine ⟨?_, k.uniq, k.fresh, k.buf, ?_⟩
  · intro a m
    rcases List.mem_cons.1 m with rfl | m
    · refine ⟨by simp, ?_, ?_⟩
      · intro c
        exact absurd (h.buf _ c) (by omega)
      · intro t pc h1 h2
        exact absurd (h.fresh t pc _ h1 h2).1 (by omega)
    · exact k.own a m
  · intro t r h1
    obtain ⟨b1, b2, b3⟩ := k.args t r h1
    exact ⟨List.mem_cons_of_mem _ b1, b2, b3⟩

theorem Lend.write {l : Lent} (h : Lend l) {t : Nat} (fails : Bool) {r : Part} (hr : r.arr ∈ l.owned)
    (hb : r.off + r.len ≤ (l.s.array r.arr).length) (ht : l.s.pcs[t]? = some .idle) :
    Lend { l with
      s := l.s.goto t (if fails then Op.fail (l.s.part r) else .write (l.s.part r)).entry, args := l.args.set t (some r) } := by
  have k : Lend { l with args := l.args.set t (some r) } := by
    refine ⟨h.own, h.uniq, h.fresh, h.buf, ?_⟩
    intro u r' h1
    dsimp only at h1
    rw [List.getElem?_set] at h1
    split at h1
    · rename_i hu
      split at h1
      · cases h1
        refine ⟨hr, hb, ?_⟩
        intro pc q h2 h3
        subst hu
        dsimp only at h2
        rw [ht] at h2
        cases h2
        cases h3
      · cases h1
    · exact h.args u r' h1
  refine k.call _ ht ?_
  intro p r' h1 h2
  dsimp only at h2
  rw [List.getElem?_set, if_pos rfl] at h2
  split at h2
  · cases h2
    cases fails <;> cases h1
    exact part_length hb
  · cases h2

theorem guard_some {P : Prop} [Decidable P] {u : Unit} (h : (guard P : Option Unit) = some u) : P := by
  unfold guard at h
  split at h
  · assumption
  · cases h

/-- Every step: memory stays with callers, and only their own writes change it. -/
theorem Lend.step {l l' : Lent} (h : Lend l) {a : LentAct} {es : List Event} (hs : l.step a = some (l', es)) :
    Lend l' ∧ ∀ x ∈ l.owned, x ∈ l'.owned ∧ ((∀ i b, a ≠ .poke x i b) → l'.s.array x = l.s.array x) := by
  cases a with
  | alloc bs =>
    simp only [Lent.step, Option.pure_def, Option.some.injEq, Prod.mk.injEq] at hs
    obtain ⟨rfl, rfl⟩ := hs
    exact ⟨h.alloc bs, fun x m => ⟨List.mem_cons_of_mem _ m, fun _ => alloc_array (h.own x m).1⟩⟩
  | poke x i b =>
    simp only [Lent.step, Option.bind_eq_bind, Option.bind_eq_some_iff, Option.pure_def, Option.some.injEq, Prod.mk.injEq,
      State.poke] at hs
    obtain ⟨_, _, s, h2, rfl, rfl⟩ := hs
    split at h2
    · cases h2
      refine ⟨h.heap (by simp) ?_, ?_⟩
      · intro a m
        by_cases e : x = a
        · subst e
          rw [array_modify_eq]
          simp [State.array]
        · rw [array_modify_ne _ _ _ _ e]
          rfl
      · intro a m
        refine ⟨m, fun hn => ?_⟩
        have e : x ≠ a := fun e => hn i b (e ▸ rfl)
        exact array_modify_ne _ _ _ _ e
    · cases h2
  | write t fails r =>
    simp only [Lent.step, Option.bind_eq_bind, Option.bind_eq_some_iff, Option.pure_def, Option.some.injEq, Prod.mk.injEq,
      Prod.exists] at hs
    obtain ⟨_, hg, s, es', h2, rfl, rfl⟩ := hs
    obtain ⟨hr, hb⟩ := guard_some hg
    obtain ⟨ht, rfl, rfl⟩ := step_call h2
    exact ⟨h.write fails hr hb ht, fun x m => ⟨m, fun _ => rfl⟩⟩
  | copy t =>
    simp only [Lent.step, Option.bind_eq_bind, Option.bind_eq_some_iff, Option.pure_def, Option.some.injEq, Prod.mk.injEq,
      Prod.exists] at hs
    obtain ⟨s, es', h2, rfl, rfl⟩ := hs
    obtain ⟨ht, rfl, rfl⟩ := step_call h2
    exact ⟨h.call .copy ht (by simp), fun x m => ⟨m, fun _ => rfl⟩⟩
  | reset t =>
    simp only [Lent.step, Option.bind_eq_bind, Option.bind_eq_some_iff, Option.pure_def, Option.some.injEq, Prod.mk.injEq,
      Prod.exists] at hs
    obtain ⟨s, es', h2, rfl, rfl⟩ := hs
    obtain ⟨ht, rfl, rfl⟩ := step_call h2
    exact ⟨h.call .reset ht (by simp), fun x m => ⟨m, fun _ => rfl⟩⟩
  | run t spare =>
    obtain ⟨h1, h2, _⟩ := h.run_step hs
    exact ⟨h1, fun x m => ⟨(h2 x m).1, fun _ => (h2 x m).2⟩⟩

theorem Lend.init (n : Nat) : Lend (.init n) := by
  have idle : ∀ (t : Nat) pc, (Lent.init n).s.pcs[t]? = some pc → pc = .idle := by
    intro t pc h
    simp only [Lent.init, State.init, List.getElem?_replicate] at h
    split at h
    · exact (Option.some.inj h).symm
    · cases h
  refine ⟨by simp [Lent.init], ?_, ?_, by simp [Lent.init, State.init], ?_⟩
  · intro t u pc pc' d h1 _ h3
    rw [idle t pc h1] at h3
    cases h3
  · intro t pc d h1 h3
    rw [idle t pc h1] at h3
    cases h3
  · intro t r h
    simp only [Lent.init, List.getElem?_replicate] at h
    split at h <;> cases h

theorem Lend.run {l l' : Lent} (h : Lend l) {as : List LentAct} {es : List Event} (hs : l.run as = some (l', es)) : Lend l' := by
  induction as generalizing l es with
  | nil =>
    simp only [Lent.run, Option.some.injEq, Prod.mk.injEq] at hs
    obtain ⟨rfl, rfl⟩ := hs
    exact h
  | cons a as ih =>
    simp only [Lent.run, Option.bind_eq_bind, Option.bind_eq_some_iff, Option.pure_def, Option.some.injEq, Prod.mk.injEq,
      Prod.exists] at hs
    obtain ⟨s1, e1, h1, s2, e2, h2, rfl, rfl⟩ := hs
    exact ih (h.step h1).1 h2

/-! ## Linearizations -/

theorem pass_s (l : Lent) (t : Nat) (s : State) : (l.pass t s).s = s := by
  unfold Lent.pass
  split <;> rfl

/-- Steps that are not steps of a goroutine inside a method. -/
theorem Inv.outer {l l' : Lent} {pts : List Point} (h : Lend l) (i : Inv l.s pts) {a : LentAct} {es : List Event}
    (hs : l.step a = some (l', es)) (ha : ∀ t spare, a ≠ .run t spare) :
    ∃ pts', Inv l'.s pts' ∧ seen pts' = seen pts ++ es := by
  cases a with
  | alloc bs =>
    simp only [Lent.step, Option.pure_def, Option.some.injEq, Prod.mk.injEq] at hs
    obtain ⟨rfl, rfl⟩ := hs
    refine ⟨pts, i.heap (by simp) (fun a c => alloc_array (h.buf a c)) ?_, by simp⟩
    intro t pc d h1 h2
    exact alloc_array (h.fresh t pc d h1 h2).1
  | poke x j b =>
    simp only [Lent.step, Option.bind_eq_bind, Option.bind_eq_some_iff, Option.pure_def, Option.some.injEq, Prod.mk.injEq,
      State.poke] at hs
    obtain ⟨_, hx, s, h2, rfl, rfl⟩ := hs
    obtain ⟨o1, o2, o3⟩ := h.own x (guard_some hx)
    split at h2
    · cases h2
      refine ⟨pts, i.heap (by simp) ?_ ?_, by simp⟩
      · intro a c
        exact array_modify_ne _ _ _ _ (fun e => o2 (e ▸ c))
      · intro t pc d h1 h2
        exact array_modify_ne _ _ _ _ (fun e => o3 t pc h1 (e ▸ h2))
    · cases h2
  | write t fails r =>
    simp only [Lent.step, Option.bind_eq_bind, Option.bind_eq_some_iff, Option.pure_def, Option.some.injEq, Prod.mk.injEq,
      Prod.exists] at hs
    obtain ⟨_, _, s, es', h2, rfl, rfl⟩ := hs
    exact i.step h2
  | copy t =>
    simp only [Lent.step, Option.bind_eq_bind, Option.bind_eq_some_iff, Option.pure_def, Option.some.injEq, Prod.mk.injEq,
      Prod.exists] at hs
    obtain ⟨s, es', h2, rfl, rfl⟩ := hs
    exact i.step h2
  | reset t =>
    simp only [Lent.step, Option.bind_eq_bind, Option.bind_eq_some_iff, Option.pure_def, Option.some.injEq, Prod.mk.injEq,
      Prod.exists] at hs
    obtain ⟨s, es', h2, rfl, rfl⟩ := hs
    exact i.step h2
  | run t spare => exact absurd rfl (ha t spare)

/-- The goroutines in a `Write` have seen their arguments as they are. -/
def Cur (l : Lent) : Prop :=
  ∀ (t : Nat) r pc q, l.args[t]? = some (some r) → l.s.pcs[t]? = some pc → pc.pay = some q → q = l.s.part r

theorem Cur.look {l : Lent} (h : Cur l) (t : Nat) : l.look t = l.s := by
  unfold Lent.look
  split
  · rename_i pc r ht hr
    have := h t r pc
    have e : pc.look (l.s.part r) = pc := by
      cases pc <;> simp only [PC.look]
      · rw [this _ hr ht rfl]
      · rw [this _ hr ht rfl]
      · rw [← this _ hr ht rfl, List.take_append_drop]
    rw [e]
    exact goto_self ht
  · rfl

theorem Cur.of_idle {l l' : Lent} (h : Cur l) {t : Nat} (ha : ∀ u, u ≠ t → l'.args[u]? = l.args[u]?)
    (hp : ∀ u, u ≠ t → l'.s.pcs[u]? = l.s.pcs[u]?) (hr : ∀ (u : Nat) r, l.args[u]? = some (some r) → l'.s.part r = l.s.part r)
    (ht : ∀ r pc q, l'.args[t]? = some (some r) → l'.s.pcs[t]? = some pc → pc.pay = some q → q = l'.s.part r) : Cur l' := by
  intro u r pc q h1 h2 h3
  by_cases hu : u = t
  · subst hu
    exact ht r pc q h1 h2 h3
  · rw [ha u hu] at h1
    rw [hp u hu] at h2
    rw [hr u r h1]
    exact h u r pc q h1 h2 h3

/-- A slice that is written by a `Write` keeps its bytes in steps that are not writes to it. -/
theorem Lend.part {l l' : Lent} (h : Lend l) {u : Nat} {r : Part} (h1 : l.args[u]? = some (some r)) {a : LentAct}
    {es : List Event} (hs : l.step a = some (l', es)) (hc : ∀ i b, a = .poke r.arr i b → i < r.off ∨ r.off + r.len ≤ i) :
    l'.s.part r = l.s.part r := by
  obtain ⟨b1, b2, _⟩ := h.args u r h1
  have k := ((h.step hs).2 _ b1).2
  by_cases hp : ∀ i b, a ≠ .poke r.arr i b
  · exact part_congr (k hp)
  · obtain ⟨i, hp⟩ := Classical.not_forall.1 hp
    obtain ⟨b, hp⟩ := Classical.not_forall.1 hp
    have hp := Classical.not_not.1 hp
    subst hp
    have hout := hc i b rfl
    simp only [Lent.step, Option.bind_eq_bind, Option.bind_eq_some_iff, Option.pure_def, Option.some.injEq, Prod.mk.injEq,
      State.poke] at hs
    obtain ⟨_, _, s, h2, rfl, rfl⟩ := hs
    split at h2
    · cases h2
      simp only [State.part, State.array, array_modify_eq]
      apply List.ext_getElem?
      intro j
      simp only [List.getElem?_take, List.getElem?_drop, List.getElem?_set]
      split
      · rw [if_neg (by omega)]
      · rfl
    · cases h2

/-- What holds for careful callers. -/
theorem Cur.step {l l' : Lent} (h : Lend l) (c : Cur l) {a : LentAct} {es : List Event} (hs : l.step a = some (l', es))
    (hc : ∀ x i b, a = .poke x i b → ∀ r, some r ∈ l.args → r.arr = x → i < r.off ∨ r.off + r.len ≤ i) : Cur l' := by
  -- the bytes of all arguments stay
  have hpart : ∀ (u : Nat) r, l.args[u]? = some (some r) → l'.s.part r = l.s.part r := fun u r h1 =>
    h.part h1 hs fun i b e => hc _ i b e r (List.mem_of_getElem? h1) rfl
  cases a with
  | alloc bs =>
    simp only [Lent.step, Option.pure_def, Option.some.injEq, Prod.mk.injEq] at hs
    obtain ⟨rfl, rfl⟩ := hs
    intro t r pc q h1 h2 h3
    rw [hpart t r h1]
    exact c t r pc q h1 h2 h3
  | poke x i b =>
    simp only [Lent.step, Option.bind_eq_bind, Option.bind_eq_some_iff, Option.pure_def, Option.some.injEq, Prod.mk.injEq,
      State.poke] at hs
    obtain ⟨_, _, s, h2, rfl, rfl⟩ := hs
    split at h2
    · cases h2
      intro t r pc q h1 h2 h3
      rw [hpart t r h1]
      exact c t r pc q h1 h2 h3
    · cases h2
  | write t fails r =>
    simp only [Lent.step, Option.bind_eq_bind, Option.bind_eq_some_iff, Option.pure_def, Option.some.injEq, Prod.mk.injEq,
      Prod.exists] at hs
    obtain ⟨_, hg, s, es', h2, rfl, rfl⟩ := hs
    obtain ⟨ht, rfl, rfl⟩ := step_call h2
    refine c.of_idle (t := t) (fun u hu => ?_) (fun u hu => ?_) hpart ?_
    · exact List.getElem?_set_ne (Ne.symm hu)
    · exact List.getElem?_set_ne (Ne.symm hu)
    · intro r' pc q h1 h2 h3
      dsimp only at h1
      rw [List.getElem?_set, if_pos rfl] at h1
      split at h1
      · cases h1
        simp only [State.goto] at h2
        rw [set_get ht, if_pos rfl] at h2
        cases h2
        cases fails
        · exact (Option.some.inj h3).symm
        · cases h3
      · cases h1
  | copy t =>
    simp only [Lent.step, Option.bind_eq_bind, Option.bind_eq_some_iff, Option.pure_def, Option.some.injEq, Prod.mk.injEq,
      Prod.exists] at hs
    obtain ⟨s, es', h2, rfl, rfl⟩ := hs
    obtain ⟨ht, rfl, rfl⟩ := step_call h2
    refine c.of_idle (t := t) (fun u hu => rfl) (fun u hu => List.getElem?_set_ne (Ne.symm hu)) hpart ?_
    intro r' pc q h1 h2 h3
    simp only [State.goto] at h2
    rw [set_get ht, if_pos rfl] at h2
    cases h2
    cases h3
  | reset t =>
    simp only [Lent.step, Option.bind_eq_bind, Option.bind_eq_some_iff, Option.pure_def, Option.some.injEq, Prod.mk.injEq,
      Prod.exists] at hs
    obtain ⟨s, es', h2, rfl, rfl⟩ := hs
    obtain ⟨ht, rfl, rfl⟩ := step_call h2
    refine c.of_idle (t := t) (fun u hu => rfl) (fun u hu => List.getElem?_set_ne (Ne.symm hu)) hpart ?_
    intro r' pc q h1 h2 h3
    simp only [State.goto] at h2
    rw [set_get ht, if_pos rfl] at h2
    cases h2
    cases h3
  | run t spare =>
    obtain ⟨_, _, s', h1, rfl⟩ := h.run_step hs
    rw [c.look t] at h1
    obtain ⟨pc, ht, h2⟩ := step_run h1
    obtain ⟨q, e, _, hpay, _⟩ := next_shape h2
    have pa : ∀ (u : Nat) r, (l.pass t s').args[u]? = some (some r) → l.args[u]? = some (some r) := by
      intro u r
      unfold Lent.pass
      have k : ∀ u : Nat, (l.args.set t none)[u]? = some (some r) → l.args[u]? = some (some r) := by
        intro u h
        rw [List.getElem?_set] at h
        split at h
        · split at h <;> cases h
        · exact h
      split <;> first | exact k u | exact id
    intro u r pc' x h3 h4 h5
    rw [pass_s] at h4
    have h3 := pa u r h3
    rw [hpart u r h3]
    rw [e, set_get ht] at h4
    split at h4
    · rename_i hu
      cases h4
      subst hu
      exact c t r pc x h3 ht (hpay x h5)
    · exact c u r pc' x h3 h4 h5

theorem Inv.careful {l l' : Lent} {pts : List Point} (h : Lend l) (c : Cur l) (i : Inv l.s pts) {a : LentAct} {es : List Event}
    (hs : l.step a = some (l', es)) : ∃ pts', Inv l'.s pts' ∧ seen pts' = seen pts ++ es := by
  by_cases ha : ∀ t spare, a ≠ .run t spare
  · exact Inv.outer h i hs ha
  · obtain ⟨t, ha⟩ := Classical.not_forall.1 ha
    obtain ⟨spare, ha⟩ := Classical.not_forall.1 ha
    have ha := Classical.not_not.1 ha
    subst ha
    obtain ⟨_, _, s', h1, rfl⟩ := h.run_step hs
    rw [pass_s]
    rw [c.look t] at h1
    exact i.step h1

theorem Inv.careful_run {l l' : Lent} {pts : List Point} (h : Lend l) (c : Cur l) (i : Inv l.s pts) {as : List LentAct}
    (hc : Careful l as) {es : List Event} (hs : l.run as = some (l', es)) :
    ∃ pts', Inv l'.s pts' ∧ seen pts' = seen pts ++ es := by
  induction as generalizing l pts es with
  | nil =>
    simp only [Lent.run, Option.some.injEq, Prod.mk.injEq] at hs
    obtain ⟨rfl, rfl⟩ := hs
    exact ⟨pts, i, by rw [List.append_nil]⟩
  | cons a as ih =>
    simp only [Lent.run, Option.bind_eq_bind, Option.bind_eq_some_iff, Option.pure_def, Option.some.injEq, Prod.mk.injEq,
      Prod.exists] at hs
    obtain ⟨s1, e1, h1, s2, e2, h2, rfl, rfl⟩ := hs
    obtain ⟨hc1, hc2⟩ := hc
    obtain ⟨p1, i1, d1⟩ := Inv.careful h c i h1
    obtain ⟨p2, i2, d2⟩ := ih (h.step h1).1 (Cur.step h c h1 hc1) i1 (hc2 _ _ h1) h2
    exact ⟨p2, i2, by rw [d2, d1, List.append_assoc]⟩

theorem Cur.init (n : Nat) : Cur (.init n) := by
  intro t r pc q h
  simp only [Lent.init, List.getElem?_replicate] at h
  split at h <;> cases h

end SMC.Http
