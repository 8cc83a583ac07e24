import Verif.Lemmas.Http
/-!
# The buffer machine keeps its invariant
-/

namespace SMC.Http

theorem BufOK.congr {s s' : State} (ha : s'.arr = s.arr) (hl : s'.len = s.len)
    (hh : s'.heap = s.heap) : BufOK s' ↔ BufOK s := by
  simp only [BufOK, State.array, ha, hl, hh]

theorem Inv.keep {s s' : State} {t : Nat} {p q : PC} (ht : s.pcs[t]? = some p)
    (e : s'.pcs = s.pcs.set t q) (ha : s'.arr = s.arr) (hh : s'.heap = s.heap)
    (hq : ∀ src n d i, q ≠ .cCopy src n d i) (d : Nat) (f : Frozen s d) :
    Frozen s' d ∧ s'.array d = s.array d := by
  refine ⟨f.move ht e (by rw [hh]; exact Nat.le_refl _) (by rw [ha]; exact f.2.1) ?_, ?_⟩
  · intro src n d' i h
    exact absurd h (hq src n d' i)
  · simp only [State.array, hh]

/-- A goroutine enters the critical section. -/
theorem Inv.acquire {s : State} {pts : List Point} (h : Inv s pts) {t : Nat} {p q : PC}
    (ht : s.pcs[t]? = some p) (hp : p.crit = false) (hq : q.crit) (hl : s.locked = false)
    (hph : s.phase p = s.phase q)
    (hc : s.contents = since (done pts) → CritOK s (since (done pts)) q)
    (hn : ∀ src n d i, q ≠ .cCopy src n d i) (hn' : ∀ r, q ≠ .out r) :
    Inv ({ s with locked := true }.goto t q) pts := by
  refine h.move ht rfl (fun u _ => rfl) ?_ h.legal ?_ (fun _ _ => ⟨hl, rfl⟩) ?_ ?_ ?_ ?_ ?_ ?_ ?_
  · rw [h.phases t, ht]
    refine congrArg some (hph.trans ?_)
    exact (phase_congr (fun d n e => absurd e (hn' _))).symm
  · intro e; rw [hp, hq] at e; cases e
  · intro e; rw [hp] at e; cases e
  · exact (BufOK.congr rfl rfl rfl).2 h.buf
  · intro e; cases e
  · intro _
    exact (critOK_congr (s := s) _ q rfl rfl rfl).2 (hc (h.quiet hl))
  · intro _ e; rw [hq] at e; cases e
  · exact Inv.keep ht rfl rfl rfl hn
  · intro d n e; exact absurd e (hn' _)

/-- A goroutine leaves the critical section: its operation takes effect. -/
theorem Inv.release {s : State} {pts : List Point} (h : Inv s pts) {t : Nat} {p : PC} {r : Res}
    {op : Op} (ht : s.pcs[t]? = some p) (hp : p.crit)
    (hph : s.phase p = .called op)
    (hv : s.value r = answer (done pts) op)
    (hc : s.contents = since (done pts ++ [op]))
    (hf : ∀ d n, r = .copy d n → Frozen s d) :
    Inv ({ s with locked := false }.goto t (.out r)) (pts ++ [.effect t op (s.value r)]) := by
  refine h.move ht rfl ?_ ?_ ?_ ?_ ?_ ?_ ?_ ?_ ?_ ?_ ?_ ?_
  · intro u hu
    rw [phase_snoc]
    cases phase u pts with
    | none => rfl
    | some ph => simp [Phase.next, Ne.symm hu]
  · rw [phase_snoc, h.phases t, ht]
    have : s.phase ((some p).getD .idle) = .called op := hph
    rw [this]
    simp only [Option.bind_some, Phase.next, if_true, State.phase]
    refine congrArg some (congrArg Phase.answered ?_)
    cases r <;> rfl
  · rw [hv]; exact legal_effect pts t op h.legal
  · intro e; rw [hp] at e; cases e
  · intro e; rw [hp] at e; cases e
  · intro _ _; rfl
  · exact (BufOK.congr rfl rfl rfl).2 h.buf
  · intro _; rw [done_snoc_effect]; exact hc
  · intro e; cases e
  · intro e; rw [hp] at e; cases e
  · exact Inv.keep (q := .out r) ht rfl rfl rfl (fun _ _ _ _ e => by cases e)
  · intro d n e
    cases e
    exact (Inv.keep (s' := { s with locked := false }.goto t (.out (.copy d n)))
      (q := .out (.copy d n)) ht rfl rfl rfl (fun _ _ _ _ e => by cases e) d
      (hf d n rfl)).1

/-- A step inside the critical section. -/
theorem Inv.inner {s s' : State} {pts : List Point} (h : Inv s pts) {t : Nat} {p q : PC}
    (ht : s.pcs[t]? = some p) (hp : p.crit) (hq : q.crit) (e : s'.pcs = s.pcs.set t q)
    (hl : s'.locked = s.locked) (hph : s.phase p = s'.phase q) (hb : BufOK s')
    (hc : CritOK s (since (done pts)) p → CritOK s' (since (done pts)) q)
    (hk : ∀ d, Frozen s d → Frozen s' d ∧ s'.array d = s.array d) : Inv s' pts := by
  have lk : s.locked = true := h.lock.2 ⟨t, p, ht, hp⟩
  refine h.move ht e (fun u _ => rfl) ?_ h.legal (fun _ => hl) ?_ ?_ hb ?_ ?_ ?_ hk ?_
  · rw [h.phases t, ht]; exact congrArg some hph
  · intro x; rw [hp] at x; cases x
  · intro _ x; rw [hq] at x; cases x
  · intro x; rw [hl, lk] at x; cases x
  · intro _; exact hc (h.crit t p ht hp)
  · intro x; rw [hp] at x; cases x
  · intro d n x; subst x; cases hq

/-! ## The steps inside the critical section -/

theorem contents_length {s : State} (h : BufOK s) : s.contents.length = s.len := by
  unfold BufOK at h
  unfold State.contents
  split at h <;> rename_i e
  · simp [e, h]
  · simp only [e]
    rw [List.length_take]
    omega

theorem grow_ok {s : State} (n spare : Nat) (h : BufOK s) :
    BufOK (s.grow n spare) ∧ (s.grow n spare).len = s.len + n ∧
    (s.grow n spare).contents.take s.len = s.contents := by
  have hl := contents_length h
  unfold State.grow
  split
  · rename_i c
    unfold State.cap at c
    unfold BufOK at h
    unfold State.contents at hl
    cases e : s.arr with
    | none =>
      simp only [e] at c h
      refine ⟨?_, rfl, ?_⟩
      · simp only [BufOK]; omega
      · simp [State.contents, e]
    | some a =>
      simp only [e] at c h
      refine ⟨?_, rfl, ?_⟩
      · simp only [BufOK, State.array] at h c ⊢; exact ⟨h.1, c⟩
      · simp only [State.contents, e, List.take_take]
        rw [Nat.min_eq_left (by omega)]
        rfl
  · refine ⟨?_, rfl, ?_⟩
    · simp only [BufOK, State.array]
      refine ⟨by simp, ?_⟩
      simp [hl, zeros]
    · show (((s.heap ++ [s.contents ++ zeros (n + spare)])[s.heap.length]?.getD []).take
        (s.len + n)).take s.len = s.contents
      rw [List.take_take, Nat.min_eq_left (by omega), ← hl]
      simp

theorem grow_keep {s : State} {t : Nat} {p q : PC} (n spare : Nat) (ht : s.pcs[t]? = some p)
    (hq : ∀ src n d i, q ≠ .cCopy src n d i) (d : Nat) (f : Frozen s d) :
    Frozen ((s.grow n spare).goto t q) d ∧ ((s.grow n spare).goto t q).array d = s.array d := by
  unfold State.grow
  split
  · exact Inv.keep (s := s) (s' := { s with len := s.len + n }.goto t q) ht rfl rfl rfl hq d f
  · refine ⟨f.move ht rfl ?_ ?_ ?_, ?_⟩
    · simp [State.goto]
    · intro e
      have := f.1
      simp only [State.goto, Option.some.injEq] at e
      omega
    · intro src n d' i h
      exact absurd h (hq src n d' i)
    · exact array_append _ _ _ f.1

theorem poke_some {s s' : State} {a i : Nat} {b : UInt8} (h : s.poke a i b = some s') :
    i < (s.array a).length ∧ s' = { s with heap := s.heap.modify a (·.set i b) } := by
  unfold State.poke at h
  split at h
  · exact ⟨by assumption, (Option.some.inj h).symm⟩
  · cases h

theorem lt_of_array {s : State} {a i : Nat} (h : i < (s.array a).length) : a < s.heap.length := by
  rcases Nat.lt_or_ge a s.heap.length with c | c
  · exact c
  · rw [State.array, List.getElem?_eq_none c] at h
    simp at h

theorem lock_some {s s' : State} (h : s.lock = some s') :
    s.locked = false ∧ s' = { s with locked := true } := by
  unfold State.lock at h
  split at h
  · cases h
  · exact ⟨by simp_all, (Option.some.inj h).symm⟩

theorem unlock_some {s s' : State} (h : s.unlock = some s') : s' = { s with locked := false } := by
  unfold State.unlock at h
  split at h
  · exact (Option.some.inj h).symm
  · cases h

/-- The points a step of goroutine `t` at `pc` adds to the history. -/
def State.points (s : State) (t : Nat) : PC → List Point
  | .wDone p => [.effect t (.write p) (.wrote p.length)]
  | .fDone p => [.effect t (.fail p) .failed]
  | .cDone d n => [.effect t .copy (s.value (.copy d n))]
  | .rDone => [.effect t .reset .wasReset]
  | .out r => [.seen (.ret t (s.value r))]
  | _ => []

/-- Every step keeps the invariant. -/
theorem Inv.next {s s' : State} {pts : List Point} (h : Inv s pts) {t spare : Nat} {p : PC}
    (ht : s.pcs[t]? = some p) {es : List Event} (hs : s.next t spare p = some (s', es)) :
    Inv s' (pts ++ s.points t p) ∧ es = seen (s.points t p) := by
  have nil : pts ++ [] = pts := List.append_nil _
  cases p with
  | idle => cases hs
  | wWait p =>
    simp only [State.next, Option.bind_eq_bind, Option.bind_eq_some_iff, Option.pure_def,
      Option.some.injEq, Prod.mk.injEq] at hs
    obtain ⟨s1, h1, rfl, rfl⟩ := hs
    obtain ⟨hl, rfl⟩ := lock_some h1
    exact ⟨nil.symm ▸ h.acquire ht rfl rfl hl rfl (fun c => c) (by simp) (by simp), rfl⟩
  | wGrow p =>
    simp only [State.next, Option.pure_def, Option.some.injEq, Prod.mk.injEq] at hs
    obtain ⟨rfl, rfl⟩ := hs
    obtain ⟨g1, g2, g3⟩ := grow_ok p.length spare h.buf
    have hp : (s.grow p.length spare).pcs = s.pcs ∧ (s.grow p.length spare).locked = s.locked := by
      unfold State.grow; split <;> exact ⟨rfl, rfl⟩
    refine ⟨nil.symm ▸ h.inner (q := .wCopy p s.len 0) ht rfl rfl ?_ ?_ rfl g1 ?_ ?_, rfl⟩
    · rw [State.goto, hp.1]
    · exact hp.2
    · intro c
      have hl := contents_length h.buf
      have c : s.contents = since (done pts) := c
      refine ⟨Nat.zero_le _, ?_, g2, ?_⟩
      · rw [← c, hl]
      · rw [← c]
        simp only [Nat.add_zero, List.take_zero, List.append_nil]
        exact g3
    · exact grow_keep _ _ ht (by simp)
  | wCopy p m i =>
    simp only [State.next] at hs
    split at hs
    · rename_i hi
      simp only [Option.pure_def, Option.some.injEq, Prod.mk.injEq] at hs
      obtain ⟨rfl, rfl⟩ := hs
      refine ⟨nil.symm ▸ h.inner (q := .wDone p) ht rfl rfl rfl rfl rfl h.buf ?_ ?_, rfl⟩
      · rintro ⟨c1, c2, c3, c4⟩
        have : p.length ≤ i := by simpa using hi
        have e : i = p.length := by omega
        have hl := contents_length h.buf
        subst e
        rw [List.take_of_length_le (by omega), List.take_of_length_le (Nat.le_refl _)] at c4
        exact c4
      · exact Inv.keep ht rfl rfl rfl (by simp)
    · rename_i b hi
      simp only [Option.bind_eq_bind, Option.bind_eq_some_iff, Option.pure_def,
        Option.some.injEq, Prod.mk.injEq] at hs
      obtain ⟨a, ha, s1, h1, rfl, rfl⟩ := hs
      obtain ⟨hlt, rfl⟩ := poke_some h1
      have hip : i < p.length := by
        rcases Nat.lt_or_ge i p.length with c | c
        · exact c
        · rw [List.getElem?_eq_none c] at hi; cases hi
      have hbuf := h.buf
      unfold BufOK at hbuf
      rw [ha] at hbuf
      refine ⟨nil.symm ▸ h.inner (q := .wCopy p m (i + 1)) ht rfl rfl rfl rfl rfl ?_ ?_ ?_, rfl⟩
      · simp only [BufOK, State.goto, ha, State.array, array_modify_eq]
        simpa [State.array] using hbuf
      · rintro ⟨c1, c2, c3, c4⟩
        refine ⟨by omega, c2, c3, ?_⟩
        simp only [State.contents, State.goto, ha, State.array, array_modify_eq]
        simp only [State.contents, ha] at c4
        rw [List.take_take, Nat.min_eq_left (by omega)] at c4
        rw [List.take_take, Nat.min_eq_left (by omega), ← Nat.add_assoc]
        refine (take_set_succ (s.array a) (m + i) b hlt).trans ?_
        rw [c4, List.append_assoc]
        congr 1
        rw [List.take_add_one, hi]
        rfl
      · intro d f
        have hd : a ≠ d := by
          intro e; subst e; exact f.2.1 ha
        refine ⟨f.move ht rfl (by simp [State.goto]) f.2.1 (by simp), ?_⟩
        exact array_modify_ne _ _ _ _ hd
  | wDone p =>
    simp only [State.next, Option.bind_eq_bind, Option.bind_eq_some_iff, Option.pure_def,
      Option.some.injEq, Prod.mk.injEq] at hs
    obtain ⟨s1, h1, rfl, rfl⟩ := hs
    rw [unlock_some h1]
    refine ⟨h.release (op := .write p) (r := .wrote p.length) ht rfl rfl rfl ?_ (by simp), rfl⟩
    rw [since_write]
    exact h.crit t _ ht rfl
  | fWait p =>
    simp only [State.next, Option.bind_eq_bind, Option.bind_eq_some_iff, Option.pure_def,
      Option.some.injEq, Prod.mk.injEq] at hs
    obtain ⟨s1, h1, rfl, rfl⟩ := hs
    obtain ⟨hl, rfl⟩ := lock_some h1
    exact ⟨nil.symm ▸ h.acquire ht rfl rfl hl rfl (fun c => c) (by simp) (by simp), rfl⟩
  | fGrow p =>
    simp only [State.next, Option.pure_def, Option.some.injEq, Prod.mk.injEq] at hs
    obtain ⟨rfl, rfl⟩ := hs
    exact ⟨nil.symm ▸ h.inner (q := .fDone p) ht rfl rfl rfl rfl rfl h.buf (fun c => c) (Inv.keep ht rfl rfl rfl (by simp)), rfl⟩
  | fDone p =>
    simp only [State.next, Option.bind_eq_bind, Option.bind_eq_some_iff, Option.pure_def,
      Option.some.injEq, Prod.mk.injEq] at hs
    obtain ⟨s1, h1, rfl, rfl⟩ := hs
    rw [unlock_some h1]
    refine ⟨h.release (op := .fail p) (r := .failed) ht rfl rfl rfl ?_ (by simp), rfl⟩
    rw [since_fail]
    exact h.crit t _ ht rfl
  | cWait =>
    simp only [State.next, Option.bind_eq_bind, Option.bind_eq_some_iff, Option.pure_def,
      Option.some.injEq, Prod.mk.injEq] at hs
    obtain ⟨s1, h1, rfl, rfl⟩ := hs
    obtain ⟨hl, rfl⟩ := lock_some h1
    exact ⟨nil.symm ▸ h.acquire ht rfl rfl hl rfl (fun c => c) (by simp) (by simp), rfl⟩
  | cBytes =>
    simp only [State.next, Option.pure_def, Option.some.injEq, Prod.mk.injEq] at hs
    obtain ⟨rfl, rfl⟩ := hs
    refine ⟨nil.symm ▸ h.inner (q := .cMake s.arr s.len) ht rfl rfl rfl rfl rfl h.buf ?_ ?_, rfl⟩
    · intro c
      exact ⟨c, rfl, rfl⟩
    · exact Inv.keep ht rfl rfl rfl (by simp)
  | cMake src n =>
    simp only [State.next, Option.pure_def, Option.some.injEq, Prod.mk.injEq] at hs
    obtain ⟨rfl, rfl⟩ := hs
    have hbuf := h.buf
    unfold BufOK at hbuf
    have arr_ne : s.arr ≠ some s.heap.length := by
      intro e
      rw [e] at hbuf
      exact absurd hbuf.1 (Nat.lt_irrefl _)
    refine ⟨nil.symm ▸ h.inner (q := .cCopy src n s.heap.length 0) ht rfl rfl rfl rfl rfl ?_ ?_ ?_, rfl⟩
    · unfold BufOK
      cases e : s.arr with
      | none => rw [e] at hbuf; simpa [State.goto, e] using hbuf
      | some a =>
        rw [e] at hbuf
        simp only [State.goto, State.array, array_append _ _ _ hbuf.1]
        exact ⟨by simp; omega, hbuf.2⟩
    · rintro ⟨c1, c2, c3⟩
      refine ⟨?_, c2, c3, Nat.zero_le _, by simp [State.goto], arr_ne, ?_, rfl⟩
      · refine Eq.trans ?_ c1
        simp only [State.contents, State.goto]
        cases e : s.arr with
        | none => rfl
        | some a =>
          rw [e] at hbuf
          simp only [State.array, array_append _ _ _ hbuf.1]
      · simp [State.goto, State.array, zeros]
    · intro d f
      refine ⟨f.move ht rfl (by simp [State.goto]) f.2.1 ?_, array_append _ _ _ f.1⟩
      intro src' n' d' i e e'
      cases e
      subst e'
      exact Nat.lt_irrefl _ f.1
  | cCopy src n dst i =>
    simp only [State.next] at hs
    have ok := h.crit t _ ht rfl
    obtain ⟨c1, c2, c3, c4, c5, c6, c7, c8⟩ := ok
    split at hs
    · rename_i hi
      simp only [Option.bind_eq_bind, Option.bind_eq_some_iff, Option.pure_def,
        Option.some.injEq, Prod.mk.injEq] at hs
      obtain ⟨a, ha, b, hb, s1, h1, rfl, rfl⟩ := hs
      obtain ⟨hlt, rfl⟩ := poke_some h1
      have hne : dst ≠ a := by
        intro e; subst e; exact c6 (c2 ▸ ha)
      have harr : s.arr = some a := c2 ▸ ha
      have hcont : ({ s with heap := s.heap.modify dst (·.set i b) }.goto t
          (.cCopy src n dst (i + 1))).contents = s.contents := by
        simp only [State.contents, State.goto, harr, State.array, array_modify_ne _ _ _ _ hne]
      refine ⟨nil.symm ▸ h.inner (q := .cCopy src n dst (i + 1)) ht rfl rfl rfl rfl rfl ?_ ?_ ?_, rfl⟩
      · have hbuf := h.buf
        unfold BufOK at hbuf ⊢
        rw [harr] at hbuf
        simp only [State.goto, harr, State.array, array_modify_ne _ _ _ _ hne]
        simpa [State.array] using hbuf
      · intro _
        refine ⟨hcont.trans c1, c2, c3, by omega, by simpa [State.goto] using c5, c6, ?_, ?_⟩
        · simp only [State.goto, State.array, array_modify_eq]
          simpa [State.array] using c7
        · simp only [State.goto, State.array, array_modify_eq]
          refine (take_set_succ (s.array dst) i b hlt).trans ?_
          rw [c8, List.take_add_one]
          congr 1
          rw [← c1]
          simp only [State.contents, harr]
          rw [List.getElem?_take_of_lt (by omega), hb]
          rfl
      · intro d f
        have hd : dst ≠ d := by
          intro e; subst e; exact f.2.2 t _ _ _ ht
        refine ⟨f.move ht rfl (by simp [State.goto]) f.2.1 ?_, array_modify_ne _ _ _ _ hd⟩
        intro src' n' d' i' e
        cases e
        exact hd
    · simp only [Option.pure_def, Option.some.injEq, Prod.mk.injEq] at hs
      obtain ⟨rfl, rfl⟩ := hs
      refine ⟨nil.symm ▸ h.inner (q := .cDone dst n) ht rfl rfl rfl rfl rfl h.buf ?_ ?_, rfl⟩
      · intro _
        refine ⟨c1, c5, c6, ?_⟩
        have e : i = n := by omega
        subst e
        have hl := contents_length h.buf
        rw [c1] at hl
        rw [List.take_of_length_le (l := since (done pts)) (by omega)] at c8
        exact c8
      · exact Inv.keep ht rfl rfl rfl (by simp)
  | cDone dst n =>
    simp only [State.next, Option.bind_eq_bind, Option.bind_eq_some_iff, Option.pure_def,
      Option.some.injEq, Prod.mk.injEq] at hs
    obtain ⟨s1, h1, rfl, rfl⟩ := hs
    rw [unlock_some h1]
    obtain ⟨c1, c2, c3, c4⟩ := h.crit t _ ht rfl
    refine ⟨h.release (op := .copy) (r := .copy dst n) ht rfl rfl ?_ ?_ ?_, rfl⟩
    · exact congrArg Val.copied c4
    · rw [since_copy]; exact c1
    · intro d n' e
      cases e
      refine ⟨c2, c3, ?_⟩
      intro u src m i hu
      have := h.excl t u _ _ ht hu rfl rfl
      subst this
      rw [ht] at hu
      cases hu
  | rWait =>
    simp only [State.next, Option.bind_eq_bind, Option.bind_eq_some_iff, Option.pure_def,
      Option.some.injEq, Prod.mk.injEq] at hs
    obtain ⟨s1, h1, rfl, rfl⟩ := hs
    obtain ⟨hl, rfl⟩ := lock_some h1
    exact ⟨nil.symm ▸ h.acquire ht rfl rfl hl rfl (fun _ => trivial) (by simp) (by simp), rfl⟩
  | rSet =>
    simp only [State.next, Option.pure_def, Option.some.injEq, Prod.mk.injEq] at hs
    obtain ⟨rfl, rfl⟩ := hs
    refine ⟨nil.symm ▸ h.inner (q := .rDone) ht rfl rfl rfl rfl rfl rfl (fun _ => rfl) ?_, rfl⟩
    intro d f
    exact ⟨f.move ht rfl (Nat.le_refl _) (by simp [State.goto]) (by simp), rfl⟩
  | rDone =>
    simp only [State.next, Option.bind_eq_bind, Option.bind_eq_some_iff, Option.pure_def,
      Option.some.injEq, Prod.mk.injEq] at hs
    obtain ⟨s1, h1, rfl, rfl⟩ := hs
    rw [unlock_some h1]
    refine ⟨h.release (op := .reset) (r := .wasReset) ht rfl rfl rfl ?_ (by simp), rfl⟩
    rw [since_reset]
    exact h.crit t _ ht rfl
  | out r =>
    simp only [State.next, Option.pure_def, Option.some.injEq, Prod.mk.injEq] at hs
    obtain ⟨rfl, rfl⟩ := hs
    refine ⟨?_, rfl⟩
    show Inv _ (pts ++ [.seen (.ret t (s.value r))])
    refine h.move (q := .idle) ht rfl ?_ ?_ (legal_seen _ _ h.legal) (fun _ => rfl) ?_ ?_ ?_ ?_ ?_ ?_ ?_ ?_
    · intro u hu
      rw [phase_snoc]
      cases phase u pts with
      | none => rfl
      | some ph => simp [Phase.next, Ne.symm hu]
    · rw [phase_snoc, h.phases t, ht]
      simp [Phase.next, State.phase]
    · intro _ e; cases e
    · intro e; cases e
    · exact h.buf
    · rw [done_snoc_seen]; exact h.quiet
    · intro e; cases e
    · intro _ _; exact ⟨rfl, rfl, rfl, done_snoc_seen _ _⟩
    · exact Inv.keep ht rfl rfl rfl (by simp)
    · intro d n e; cases e

/-- Outside of the critical section nothing shared is changed. -/
theorem outside_same {s s' : State} {t spare : Nat} {p : PC} (hp : p.crit = false)
    {es : List Event} (hs : s.next t spare p = some (s', es)) :
    s'.arr = s.arr ∧ s'.len = s.len ∧ s'.heap = s.heap := by
  cases p <;> first | cases hp; done | skip
  · cases hs
  · simp only [State.next, Option.bind_eq_bind, Option.bind_eq_some_iff, Option.pure_def,
      Option.some.injEq, Prod.mk.injEq] at hs
    obtain ⟨s1, h1, rfl, rfl⟩ := hs
    rw [(lock_some h1).2]
    exact ⟨rfl, rfl, rfl⟩
  · simp only [State.next, Option.bind_eq_bind, Option.bind_eq_some_iff, Option.pure_def,
      Option.some.injEq, Prod.mk.injEq] at hs
    obtain ⟨s1, h1, rfl, rfl⟩ := hs
    rw [(lock_some h1).2]
    exact ⟨rfl, rfl, rfl⟩
  · simp only [State.next, Option.bind_eq_bind, Option.bind_eq_some_iff, Option.pure_def,
      Option.some.injEq, Prod.mk.injEq] at hs
    obtain ⟨s1, h1, rfl, rfl⟩ := hs
    rw [(lock_some h1).2]
    exact ⟨rfl, rfl, rfl⟩
  · simp only [State.next, Option.bind_eq_bind, Option.bind_eq_some_iff, Option.pure_def,
      Option.some.injEq, Prod.mk.injEq] at hs
    obtain ⟨s1, h1, rfl, rfl⟩ := hs
    rw [(lock_some h1).2]
    exact ⟨rfl, rfl, rfl⟩
  · simp only [State.next, Option.pure_def, Option.some.injEq, Prod.mk.injEq] at hs
    obtain ⟨rfl, rfl⟩ := hs
    exact ⟨rfl, rfl, rfl⟩

theorem run_append {s : State} {as bs : List Act} :
    run s (as ++ bs) = (run s as).bind fun r => (run r.1 bs).map fun q => (q.1, r.2 ++ q.2) := by
  induction as generalizing s with
  | nil => cases h : run s bs <;> simp [run, h]
  | cons a as ih =>
    simp only [List.cons_append, run]
    cases h : step s a with
    | none => simp
    | some r =>
      simp only [ih, Option.bind_eq_bind, Option.bind_some]
      cases h2 : run r.1 as with
      | none => simp
      | some r2 =>
        simp only [Option.bind_some]
        cases h3 : run r2.1 bs <;> simp [h3]

theorem Reachable.step {n : Nat} {s s' : State} (h : Reachable n s) {a : Act} {es : List Event}
    (hs : Http.step s a = some (s', es)) : Reachable n s' := by
  obtain ⟨as, e1, h1⟩ := h
  refine ⟨as ++ [a], e1 ++ (es ++ []), ?_⟩
  rw [run_append, h1]
  simp [run, hs]

theorem Inv.init (n : Nat) : Inv (State.init n) [] := by
  have none : ∀ (t : Nat) (p : PC), (State.init n).pcs[t]? = some p → p = .idle := by
    intro t p h
    simp only [State.init, List.getElem?_replicate] at h
    split at h
    · exact (Option.some.inj h).symm
    · cases h
  refine ⟨?_, ?_, ?_, ?_, rfl, fun _ => rfl, ?_, ?_⟩
  · intro t
    cases e : (State.init n).pcs[t]? with
    | none => rfl
    | some p => rw [none t p e]; rfl
  · intro i op v h
    simp [effects] at h
  · intro t u p q hp _ cp _
    rw [none t p hp] at cp
    cases cp
  · constructor
    · intro h; cases h
    · rintro ⟨t, p, hp, cp⟩
      rw [none t p hp] at cp
      cases cp
  · intro t p hp cp
    rw [none t p hp] at cp
    cases cp
  · intro t d m h
    cases none t _ h

theorem Inv.call {s : State} {pts : List Point} (h : Inv s pts) {t : Nat} (op : Op)
    (ht : s.pcs[t]? = some .idle) : Inv (s.goto t op.entry) (pts ++ [.seen (.call t op)]) := by
  have nc : op.entry.crit = false := by cases op <;> rfl
  have no : ∀ src n d i, op.entry ≠ .cCopy src n d i := by
    intro src n d i e; cases op <;> cases e
  refine h.move (q := op.entry) ht rfl ?_ ?_ (legal_seen _ _ h.legal) (fun _ => rfl) ?_ ?_ ?_ ?_ ?_ ?_ ?_ ?_
  · intro u hu
    rw [phase_snoc]
    cases phase u pts with
    | none => rfl
    | some ph => simp [Phase.next, Ne.symm hu]
  · rw [phase_snoc, h.phases t, ht]
    cases op <;> simp [Phase.next, State.phase, Op.entry]
  · intro _ e; rw [nc] at e; cases e
  · intro e; cases e
  · exact h.buf
  · rw [done_snoc_seen]; exact h.quiet
  · intro e; rw [nc] at e; cases e
  · intro _ _; exact ⟨rfl, rfl, rfl, done_snoc_seen _ _⟩
  · exact Inv.keep ht rfl rfl rfl no
  · intro d n e; cases op <;> cases e

theorem step_call {s s' : State} {t : Nat} {op : Op} {es : List Event}
    (hs : Http.step s (.call t op) = some (s', es)) :
    s.pcs[t]? = some .idle ∧ s' = s.goto t op.entry ∧ es = [.call t op] := by
  simp only [Http.step] at hs
  split at hs
  · rename_i ht
    simp only [Option.some.injEq, Prod.mk.injEq] at hs
    exact ⟨ht, hs.1.symm, hs.2.symm⟩
  · cases hs

theorem step_run {s s' : State} {t spare : Nat} {es : List Event}
    (hs : Http.step s (.run t spare) = some (s', es)) :
    ∃ p, s.pcs[t]? = some p ∧ s.next t spare p = some (s', es) := by
  simp only [Http.step] at hs
  split at hs
  · cases hs
  · rename_i p ht
    exact ⟨p, ht, hs⟩

theorem Inv.step {s s' : State} {pts : List Point} (h : Inv s pts) {a : Act} {es : List Event}
    (hs : step s a = some (s', es)) : ∃ pts', Inv s' pts' ∧ seen pts' = seen pts ++ es := by
  cases a with
  | run t spare =>
    obtain ⟨p, ht, hs⟩ := step_run hs
    obtain ⟨i, e⟩ := h.next ht hs
    exact ⟨_, i, by rw [seen_append, e]⟩
  | call t op =>
    obtain ⟨ht, rfl, rfl⟩ := step_call hs
    exact ⟨_, h.call op ht, by simp [seen]⟩

theorem Inv.run {s s' : State} {pts : List Point} (h : Inv s pts) {as : List Act} {es : List Event}
    (hs : run s as = some (s', es)) : ∃ pts', Inv s' pts' ∧ seen pts' = seen pts ++ es := by
  induction as generalizing s pts es with
  | nil =>
    simp only [Http.run, Option.some.injEq, Prod.mk.injEq] at hs
    obtain ⟨rfl, rfl⟩ := hs
    exact ⟨pts, h, by simp⟩
  | cons a as ih =>
    simp only [Http.run, Option.bind_eq_bind, Option.bind_eq_some_iff, Option.pure_def,
      Option.some.injEq, Prod.mk.injEq, Prod.exists] at hs
    obtain ⟨s1, e1, h1, s2, e2, h2, rfl, rfl⟩ := hs
    obtain ⟨p1, i1, q1⟩ := h.step h1
    obtain ⟨p2, i2, q2⟩ := ih i1 h2
    exact ⟨p2, i2, by rw [q2, q1, List.append_assoc]⟩

/-- Frozen arrays stay as they are. -/
theorem Frozen.step {s s' : State} {a : Act} {es : List Event}
    (hs : Http.step s a = some (s', es)) {d : Nat} (f : Frozen s d) :
    Frozen s' d ∧ s'.array d = s.array d := by
  cases a with
  | call t op =>
    simp only [Http.step] at hs
    split at hs
    · rename_i ht
      simp only [Option.some.injEq, Prod.mk.injEq] at hs
      obtain ⟨rfl, rfl⟩ := hs
      refine Inv.keep (q := op.entry) ht (by rfl) (by rfl) (by rfl) ?_ d f
      intro src n d i e; cases op <;> cases e
    · cases hs
  | run t spare =>
    simp only [Http.step] at hs
    split at hs
    · cases hs
    · rename_i p ht
      cases p with
      | idle => cases hs
      | wGrow p =>
        simp only [State.next, Option.pure_def, Option.some.injEq, Prod.mk.injEq] at hs
        obtain ⟨rfl, rfl⟩ := hs
        exact grow_keep _ _ ht (by simp) d f
      | wCopy p m i =>
        simp only [State.next] at hs
        split at hs
        · simp only [Option.pure_def, Option.some.injEq, Prod.mk.injEq] at hs
          obtain ⟨rfl, rfl⟩ := hs
          exact Inv.keep (q := .wDone p) ht (by rfl) (by rfl) (by rfl) (by simp) d f
        · simp only [Option.bind_eq_bind, Option.bind_eq_some_iff, Option.pure_def,
            Option.some.injEq, Prod.mk.injEq] at hs
          obtain ⟨a, ha, s1, h1, rfl, rfl⟩ := hs
          obtain ⟨hlt, rfl⟩ := poke_some h1
          have hd : a ≠ d := by
            intro e; subst e; exact f.2.1 ha
          refine ⟨f.move (q := .wCopy p m (i + 1)) ht rfl (by simp [State.goto]) f.2.1 (by simp), ?_⟩
          exact array_modify_ne _ _ _ _ hd
      | cBytes =>
        simp only [State.next, Option.pure_def, Option.some.injEq, Prod.mk.injEq] at hs
        obtain ⟨rfl, rfl⟩ := hs
        exact Inv.keep (q := .cMake s.arr s.len) ht (by rfl) (by rfl) (by rfl) (by simp) d f
      | cMake src n =>
        simp only [State.next, Option.pure_def, Option.some.injEq, Prod.mk.injEq] at hs
        obtain ⟨rfl, rfl⟩ := hs
        refine ⟨f.move (q := .cCopy src n s.heap.length 0) ht rfl (by simp [State.goto]) f.2.1 ?_,
          array_append _ _ _ f.1⟩
        intro src' n' d' i e e'
        cases e
        subst e'
        exact Nat.lt_irrefl _ f.1
      | cCopy src n dst i =>
        simp only [State.next] at hs
        split at hs
        · simp only [Option.bind_eq_bind, Option.bind_eq_some_iff, Option.pure_def,
            Option.some.injEq, Prod.mk.injEq] at hs
          obtain ⟨a, ha, b, hb, s1, h1, rfl, rfl⟩ := hs
          obtain ⟨hlt, rfl⟩ := poke_some h1
          have hd : dst ≠ d := by
            intro e; subst e; exact f.2.2 t _ _ _ ht
          refine ⟨f.move (q := .cCopy src n dst (i + 1)) ht rfl (by simp [State.goto]) f.2.1 ?_,
            array_modify_ne _ _ _ _ hd⟩
          intro src' n' d' i' e
          cases e
          exact hd
        · simp only [Option.pure_def, Option.some.injEq, Prod.mk.injEq] at hs
          obtain ⟨rfl, rfl⟩ := hs
          exact Inv.keep (q := .cDone dst n) ht (by rfl) (by rfl) (by rfl) (by simp) d f
      | rSet =>
        simp only [State.next, Option.pure_def, Option.some.injEq, Prod.mk.injEq] at hs
        obtain ⟨rfl, rfl⟩ := hs
        exact ⟨f.move (q := .rDone) ht rfl (Nat.le_refl _) (by simp [State.goto]) (by simp), rfl⟩
      | out r =>
        simp only [State.next, Option.pure_def, Option.some.injEq, Prod.mk.injEq] at hs
        obtain ⟨rfl, rfl⟩ := hs
        exact Inv.keep (q := .idle) ht (by rfl) (by rfl) (by rfl) (by simp) d f
      | wDone p =>
        simp only [State.next, Option.bind_eq_bind, Option.bind_eq_some_iff, Option.pure_def,
          Option.some.injEq, Prod.mk.injEq] at hs
        obtain ⟨s1, h1, rfl, rfl⟩ := hs
        rw [unlock_some h1]
        exact Inv.keep (q := .out (.wrote p.length)) ht (by rfl) (by rfl) (by rfl) (by simp) d f
      | cDone dst n =>
        simp only [State.next, Option.bind_eq_bind, Option.bind_eq_some_iff, Option.pure_def,
          Option.some.injEq, Prod.mk.injEq] at hs
        obtain ⟨s1, h1, rfl, rfl⟩ := hs
        rw [unlock_some h1]
        exact Inv.keep (q := .out (.copy dst n)) ht (by rfl) (by rfl) (by rfl) (by simp) d f
      | rDone =>
        simp only [State.next, Option.bind_eq_bind, Option.bind_eq_some_iff, Option.pure_def,
          Option.some.injEq, Prod.mk.injEq] at hs
        obtain ⟨s1, h1, rfl, rfl⟩ := hs
        rw [unlock_some h1]
        exact Inv.keep (q := .out .wasReset) ht (by rfl) (by rfl) (by rfl) (by simp) d f
      | fGrow p =>
        simp only [State.next, Option.pure_def, Option.some.injEq, Prod.mk.injEq] at hs
        obtain ⟨rfl, rfl⟩ := hs
        exact Inv.keep (q := .fDone p) ht (by rfl) (by rfl) (by rfl) (by simp) d f
      | fDone p =>
        simp only [State.next, Option.bind_eq_bind, Option.bind_eq_some_iff, Option.pure_def,
          Option.some.injEq, Prod.mk.injEq] at hs
        obtain ⟨s1, h1, rfl, rfl⟩ := hs
        rw [unlock_some h1]
        exact Inv.keep (q := .out .failed) ht (by rfl) (by rfl) (by rfl) (by simp) d f
      | fWait p =>
        simp only [State.next, Option.bind_eq_bind, Option.bind_eq_some_iff, Option.pure_def,
          Option.some.injEq, Prod.mk.injEq] at hs
        obtain ⟨s1, h1, rfl, rfl⟩ := hs
        rw [(lock_some h1).2]
        exact Inv.keep (q := .fGrow p) ht (by rfl) (by rfl) (by rfl) (by simp) d f
      | wWait p =>
        simp only [State.next, Option.bind_eq_bind, Option.bind_eq_some_iff, Option.pure_def,
          Option.some.injEq, Prod.mk.injEq] at hs
        obtain ⟨s1, h1, rfl, rfl⟩ := hs
        rw [(lock_some h1).2]
        exact Inv.keep (q := .wGrow p) ht (by rfl) (by rfl) (by rfl) (by simp) d f
      | cWait =>
        simp only [State.next, Option.bind_eq_bind, Option.bind_eq_some_iff, Option.pure_def,
          Option.some.injEq, Prod.mk.injEq] at hs
        obtain ⟨s1, h1, rfl, rfl⟩ := hs
        rw [(lock_some h1).2]
        exact Inv.keep (q := .cBytes) ht (by rfl) (by rfl) (by rfl) (by simp) d f
      | rWait =>
        simp only [State.next, Option.bind_eq_bind, Option.bind_eq_some_iff, Option.pure_def,
          Option.some.injEq, Prod.mk.injEq] at hs
        obtain ⟨s1, h1, rfl, rfl⟩ := hs
        rw [(lock_some h1).2]
        exact Inv.keep (q := .rSet) ht (by rfl) (by rfl) (by rfl) (by simp) d f

theorem Frozen.run {s s' : State} {as : List Act} {es : List Event}
    (hs : Http.run s as = some (s', es)) {d : Nat} (f : Frozen s d) :
    Frozen s' d ∧ s'.array d = s.array d := by
  induction as generalizing s es with
  | nil =>
    simp only [Http.run, Option.some.injEq, Prod.mk.injEq] at hs
    obtain ⟨rfl, rfl⟩ := hs
    exact ⟨f, rfl⟩
  | cons a as ih =>
    simp only [Http.run, Option.bind_eq_bind, Option.bind_eq_some_iff, Option.pure_def,
      Option.some.injEq, Prod.mk.injEq, Prod.exists] at hs
    obtain ⟨s1, e1, h1, s2, e2, h2, rfl, rfl⟩ := hs
    have f1 := f.step h1
    have f2 := ih h2 f1.1
    exact ⟨f2.1, f2.2.trans f1.2⟩

end SMC.Http
