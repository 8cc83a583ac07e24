import Verif.Lemmas.HttpStep
/-!
# Progress of the buffer machine
-/

namespace SMC.Http

theorem Inv.reachable {n : Nat} {s : State} (h : Reachable n s) : ∃ pts, Inv s pts := by
  obtain ⟨as, es, h⟩ := h
  obtain ⟨pts, i, _⟩ := (Inv.init n).run h
  exact ⟨pts, i⟩

/-- A goroutine in the critical section can go on. -/
theorem Inv.crit_step {s : State} {pts : List Point} (h : Inv s pts) {t : Nat} {p : PC}
    (ht : s.pcs[t]? = some p) (hp : p.crit) : (Http.step s (.run t 0)).isSome := by
  have lk : s.locked = true := h.lock.2 ⟨t, p, ht, hp⟩
  have ok := h.crit t p ht hp
  have hb := h.buf
  simp only [Http.step, ht]
  cases p with
  | idle => cases hp
  | wWait p => cases hp
  | fWait p => cases hp
  | cWait => cases hp
  | rWait => cases hp
  | out r => cases hp
  | wGrow p => rfl
  | fGrow p => rfl
  | fDone p => simp [State.next, State.unlock, lk]
  | wDone p => simp [State.next, State.unlock, lk]
  | cDone d n => simp [State.next, State.unlock, lk]
  | rDone => simp [State.next, State.unlock, lk]
  | cBytes => rfl
  | cMake src n => rfl
  | rSet => rfl
  | wCopy p m i =>
    simp only [State.next]
    split
    · rfl
    · rename_i b hi
      obtain ⟨c1, c2, c3, c4⟩ := ok
      have hip : i < p.length := by
        rcases Nat.lt_or_ge i p.length with c | c
        · exact c
        · rw [List.getElem?_eq_none c] at hi; cases hi
      unfold BufOK at hb
      cases e : s.arr with
      | none => simp only [e] at hb; omega
      | some a =>
        simp only [e] at hb
        have : m + i < (s.array a).length := by omega
        simp [State.poke, this]
  | cCopy src n d i =>
    obtain ⟨c1, c2, c3, c4, c5, c6, c7, c8⟩ := ok
    simp only [State.next]
    split
    · rename_i hi
      unfold BufOK at hb
      cases e : s.arr with
      | none => simp only [e] at hb; omega
      | some a =>
        simp only [e] at hb
        have : i < (s.array a).length := by omega
        have g : (s.array a)[i]? = some (s.array a)[i] := List.getElem?_eq_getElem this
        have : i < (s.array d).length := by omega
        simp [c2, e, g, State.poke, this]
    · rfl

/-- Unfinished operations can go on. -/
theorem Inv.progress {s : State} {pts : List Point} (h : Inv s pts) {t : Nat} {p : PC}
    (ht : s.pcs[t]? = some p) (hp : p ≠ .idle) : ∃ u, (Http.step s (.run u 0)).isSome := by
  cases lk : s.locked with
  | true =>
    obtain ⟨u, q, hu, hq⟩ := h.lock.1 lk
    exact ⟨u, h.crit_step hu hq⟩
  | false =>
    refine ⟨t, ?_⟩
    cases c : p.crit with
    | true => exact h.crit_step ht c
    | false =>
      simp only [Http.step, ht]
      cases p <;> first | cases c; done | exact absurd rfl hp | rfl | simp [State.next, State.lock, lk]

/-! ## A bound on the number of steps -/

theorem sum_set (f : PC → Nat) {l : List PC} {t : Nat} {p : PC} (h : l[t]? = some p) (q : PC) :
    ((l.set t q).map f).sum + f p = (l.map f).sum + f q := by
  induction l generalizing t with
  | nil => simp at h
  | cons x l ih =>
    cases t with
    | zero =>
      simp only [List.getElem?_cons_zero, Option.some.injEq] at h
      subst h
      simp only [List.set_cons_zero, List.map_cons, List.sum_cons]
      omega
    | succ t =>
      simp only [List.getElem?_cons_succ] at h
      simp only [List.set_cons_succ, List.map_cons, List.sum_cons]
      have := ih h
      omega

theorem todo_mono {b c : Nat} (h : b ≤ c) (p : PC) : p.todo b ≤ p.todo c := by
  cases p <;> simp only [PC.todo] <;> omega

theorem sum_mono {b c : Nat} (h : b ≤ c) (l : List PC) :
    (l.map (PC.todo b)).sum ≤ (l.map (PC.todo c)).sum := by
  induction l with
  | nil => simp
  | cons x l ih =>
    have := todo_mono h x
    simp only [List.map_cons, List.sum_cons]
    omega

theorem work_move {s s' : State} {t : Nat} {p q : PC} (ht : s.pcs[t]? = some p)
    (e : s'.pcs = s.pcs.set t q) (hb : s'.len + q.pending ≤ s.len + p.pending)
    (hd : s'.bound ≤ s.bound → q.todo s.bound < p.todo s.bound) : s'.work < s.work := by
  have h1 := sum_set PC.pending ht q
  have hle : s'.bound ≤ s.bound := by
    simp only [State.bound, e]
    omega
  have h2 := sum_set (PC.todo s.bound) ht q
  have h3 := sum_mono hle s'.pcs
  have h4 := hd hle
  have : (s'.pcs.map (PC.todo s.bound)).sum = ((s.pcs.set t q).map (PC.todo s.bound)).sum := by rw [e]
  unfold State.work
  omega

theorem len_le_bound (s : State) : s.len ≤ s.bound := by
  unfold State.bound; omega

/-- Every step that is not a call leaves less to do. -/
theorem work_step {s s' : State} {t spare : Nat} {es : List Event}
    (hs : step s (.run t spare) = some (s', es)) : s'.work < s.work := by
  simp only [step] at hs
  split at hs
  · cases hs
  rename_i p ht
  have hlen := len_le_bound s
  cases p with
  | idle => cases hs
  | wWait p =>
    simp only [State.next, Option.bind_eq_bind, Option.bind_eq_some_iff, Option.pure_def,
      Option.some.injEq, Prod.mk.injEq] at hs
    obtain ⟨s1, h1, rfl, rfl⟩ := hs
    rw [(lock_some h1).2]
    exact work_move (q := .wGrow p) ht (by rfl) (Nat.le_refl _) (fun _ => Nat.lt_succ_self _)
  | fWait p =>
    simp only [State.next, Option.bind_eq_bind, Option.bind_eq_some_iff, Option.pure_def,
      Option.some.injEq, Prod.mk.injEq] at hs
    obtain ⟨s1, h1, rfl, rfl⟩ := hs
    rw [(lock_some h1).2]
    exact work_move (q := .fGrow p) ht (by rfl) (Nat.le_refl _) (fun _ => Nat.lt_succ_self _)
  | fGrow p =>
    simp only [State.next, Option.pure_def, Option.some.injEq, Prod.mk.injEq] at hs
    obtain ⟨rfl, rfl⟩ := hs
    exact work_move (q := .fDone p) ht (by rfl) (Nat.le_refl _) (fun _ => Nat.lt_succ_self _)
  | fDone p =>
    simp only [State.next, Option.bind_eq_bind, Option.bind_eq_some_iff, Option.pure_def,
      Option.some.injEq, Prod.mk.injEq] at hs
    obtain ⟨s1, h1, rfl, rfl⟩ := hs
    rw [unlock_some h1]
    exact work_move (q := .out .failed) ht (by rfl) (Nat.le_refl _) (fun _ => Nat.lt_succ_self _)
  | cWait =>
    simp only [State.next, Option.bind_eq_bind, Option.bind_eq_some_iff, Option.pure_def,
      Option.some.injEq, Prod.mk.injEq] at hs
    obtain ⟨s1, h1, rfl, rfl⟩ := hs
    rw [(lock_some h1).2]
    exact work_move (q := .cBytes) ht (by rfl) (Nat.le_refl _) (fun _ => Nat.lt_succ_self _)
  | rWait =>
    simp only [State.next, Option.bind_eq_bind, Option.bind_eq_some_iff, Option.pure_def,
      Option.some.injEq, Prod.mk.injEq] at hs
    obtain ⟨s1, h1, rfl, rfl⟩ := hs
    rw [(lock_some h1).2]
    exact work_move (q := .rSet) ht (by rfl) (Nat.le_refl _) (fun _ => Nat.lt_succ_self _)
  | wDone p =>
    simp only [State.next, Option.bind_eq_bind, Option.bind_eq_some_iff, Option.pure_def,
      Option.some.injEq, Prod.mk.injEq] at hs
    obtain ⟨s1, h1, rfl, rfl⟩ := hs
    rw [unlock_some h1]
    exact work_move (q := .out (.wrote p.length)) ht (by rfl) (Nat.le_refl _) (fun _ => Nat.lt_succ_self _)
  | cDone d n =>
    simp only [State.next, Option.bind_eq_bind, Option.bind_eq_some_iff, Option.pure_def,
      Option.some.injEq, Prod.mk.injEq] at hs
    obtain ⟨s1, h1, rfl, rfl⟩ := hs
    rw [unlock_some h1]
    exact work_move (q := .out (.copy d n)) ht (by rfl) (Nat.le_refl _) (fun _ => Nat.lt_succ_self _)
  | rDone =>
    simp only [State.next, Option.bind_eq_bind, Option.bind_eq_some_iff, Option.pure_def,
      Option.some.injEq, Prod.mk.injEq] at hs
    obtain ⟨s1, h1, rfl, rfl⟩ := hs
    rw [unlock_some h1]
    exact work_move (q := .out .wasReset) ht (by rfl) (Nat.le_refl _) (fun _ => Nat.lt_succ_self _)
  | out r =>
    simp only [State.next, Option.pure_def, Option.some.injEq, Prod.mk.injEq] at hs
    obtain ⟨rfl, rfl⟩ := hs
    exact work_move (q := .idle) ht (by rfl) (Nat.le_refl _) (fun _ => Nat.lt_succ_self _)
  | rSet =>
    simp only [State.next, Option.pure_def, Option.some.injEq, Prod.mk.injEq] at hs
    obtain ⟨rfl, rfl⟩ := hs
    exact work_move (q := .rDone) ht (by rfl) (by simp [State.goto, PC.pending]) (fun _ => Nat.lt_succ_self _)
  | cBytes =>
    simp only [State.next, Option.pure_def, Option.some.injEq, Prod.mk.injEq] at hs
    obtain ⟨rfl, rfl⟩ := hs
    refine work_move (q := .cMake s.arr s.len) ht (by rfl) (Nat.le_refl _) (fun _ => ?_)
    simp only [PC.todo]
    omega
  | cMake src n =>
    simp only [State.next, Option.pure_def, Option.some.injEq, Prod.mk.injEq] at hs
    obtain ⟨rfl, rfl⟩ := hs
    refine work_move (q := .cCopy src n s.heap.length 0) ht (by rfl) (Nat.le_refl _) (fun _ => ?_)
    simp only [PC.todo]
    omega
  | wGrow p =>
    simp only [State.next, Option.pure_def, Option.some.injEq, Prod.mk.injEq] at hs
    obtain ⟨rfl, rfl⟩ := hs
    have hg : (s.grow p.length spare).len = s.len + p.length ∧ (s.grow p.length spare).pcs = s.pcs := by
      unfold State.grow; split <;> exact ⟨rfl, rfl⟩
    refine work_move (q := .wCopy p s.len 0) ht ?_ ?_ (fun _ => ?_)
    · rw [State.goto, hg.2]
    · simp only [State.goto, hg.1, PC.pending]; omega
    · simp only [PC.todo]; omega
  | wCopy p m i =>
    simp only [State.next] at hs
    split at hs
    · simp only [Option.pure_def, Option.some.injEq, Prod.mk.injEq] at hs
      obtain ⟨rfl, rfl⟩ := hs
      refine work_move (q := .wDone p) ht (by rfl) (Nat.le_refl _) (fun _ => ?_)
      simp only [PC.todo]; omega
    · rename_i b hi
      simp only [Option.bind_eq_bind, Option.bind_eq_some_iff, Option.pure_def,
        Option.some.injEq, Prod.mk.injEq] at hs
      obtain ⟨a, ha, s1, h1, rfl, rfl⟩ := hs
      obtain ⟨hlt, rfl⟩ := poke_some h1
      refine work_move (q := .wCopy p m (i + 1)) ht (by rfl) (Nat.le_refl _) (fun _ => ?_)
      have hip : i < p.length := by
        rcases Nat.lt_or_ge i p.length with c | c
        · exact c
        · rw [List.getElem?_eq_none c] at hi; cases hi
      simp only [PC.todo]; omega
  | cCopy src n d i =>
    simp only [State.next] at hs
    split at hs
    · simp only [Option.bind_eq_bind, Option.bind_eq_some_iff, Option.pure_def,
        Option.some.injEq, Prod.mk.injEq] at hs
      obtain ⟨a, ha, b, hb, s1, h1, rfl, rfl⟩ := hs
      obtain ⟨hlt, rfl⟩ := poke_some h1
      refine work_move (q := .cCopy src n d (i + 1)) ht (by rfl) (Nat.le_refl _) (fun _ => ?_)
      simp only [PC.todo]; omega
    · simp only [Option.pure_def, Option.some.injEq, Prod.mk.injEq] at hs
      obtain ⟨rfl, rfl⟩ := hs
      refine work_move (q := .cDone d n) ht (by rfl) (Nat.le_refl _) (fun _ => ?_)
      simp only [PC.todo]; omega

end SMC.Http
