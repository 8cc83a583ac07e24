import Verif.Lemmas.HttpAlone
/-!
# What a flush discards
-/

namespace SMC.Http

theorem mem_points {p : Point} {h : List SysPoint} : p ∈ points h ↔ .pt p ∈ h := by
  simp only [points, List.mem_filterMap]
  constructor
  · rintro ⟨q, hm, hq⟩
    split at hq
    · cases hq; exact hm
    · cases hq
  · exact fun m => ⟨_, m, rfl⟩

theorem mem_observed_buf {e : Event} {h : List SysPoint} :
    .buf e ∈ observed h ↔ .pt (.seen e) ∈ h := by
  simp only [observed, List.mem_filterMap]
  constructor
  · rintro ⟨q, hm, hq⟩
    split at hq <;> cases hq
    exact hm
  · exact fun m => ⟨_, m, rfl⟩

theorem mem_observed_response {t : Nat} {b : Bytes} {h : List SysPoint} :
    .response t b ∈ observed h ↔ .response t b ∈ h := by
  simp only [observed, List.mem_filterMap]
  constructor
  · rintro ⟨q, hm, hq⟩
    split at hq <;> cases hq
    exact hm
  · exact fun m => ⟨_, m, rfl⟩

/-- A goroutine that is in a method stays there or the method takes effect. -/
theorem called_fold {t : Nat} {op : Op} {k : List Point} {ph : Phase}
    (h : k.foldlM (Phase.next t) (.called op) = some ph) :
    ph = .called op ∨ ∃ v, .effect t op v ∈ k := by
  induction k with
  | nil => left; cases h; rfl
  | cons p k ih =>
    obtain ⟨rh, h1, h2⟩ := next_fold h
    have : rh = .called op ∨ ∃ v, p = .effect t op v := by
      cases p with
      | seen e =>
        cases e with
        | call u o =>
          simp only [Phase.next] at h1
          split at h1
          · simp at h1
          · left; cases h1; rfl
        | ret u o =>
          simp only [Phase.next] at h1
          split at h1
          · simp at h1
          · left; cases h1; rfl
      | effect u o v =>
        simp only [Phase.next] at h1
        split at h1
        · rename_i e
          subst e
          split at h1
          · rename_i e
            cases e
            exact Or.inr ⟨v, rfl⟩
          · cases h1
        · left; cases h1; rfl
    rcases this with rfl | ⟨v, rfl⟩
    · rcases ih h2 with e | ⟨v, m⟩
      · exact Or.inl e
      · exact Or.inr ⟨v, List.mem_cons_of_mem _ m⟩
    · exact Or.inr ⟨v, by simp⟩

/-- A method that returned took effect. -/
theorem call_effect {t : Nat} {op : Op} {h : List Point} (hp : phase t h = some .idle)
    (m : .seen (.call t op) ∈ h) : ∃ v, .effect t op v ∈ h := by
  obtain ⟨a, b, rfl⟩ := List.append_of_mem m
  rw [phase_append] at hp
  obtain ⟨ph, h1, h2⟩ := Option.bind_eq_some_iff.1 hp
  obtain ⟨rh, h3, h4⟩ := next_fold h2
  simp only [Phase.next, if_true] at h3
  split at h3
  · cases h3
    rcases called_fold h4 with e | ⟨v, m⟩
    · cases e
    · exact ⟨v, by simp [m]⟩
  · cases h3

theorem first_reset {b : List SysPoint} (h : Op.reset ∈ opsIn b) :
    ∃ b1 u v b2, b = b1 ++ .pt (.effect u .reset v) :: b2 ∧ Op.reset ∉ opsIn b1 := by
  induction b with
  | nil => cases h
  | cons p b ih =>
    by_cases e : ∃ u v, p = .pt (.effect u .reset v)
    · obtain ⟨u, v, rfl⟩ := e
      exact ⟨[], u, v, b, rfl, by simp [opsIn, points, effects]⟩
    · have hp : Op.reset ∉ opsIn [p] := by
        intro m
        rcases p with (_ | ⟨u, op, v⟩) | _
        · simp [opsIn, points, effects] at m
        · have m : Op.reset ∈ [op] := m
          rw [List.mem_singleton] at m
          subst m
          exact e ⟨u, v, rfl⟩
        · simp [opsIn, points, effects] at m
      have eq : opsIn (p :: b) = opsIn [p] ++ opsIn b := opsIn_append [p] b
      rw [eq] at h
      obtain ⟨b1, u, v, b2, rfl, hn⟩ := ih ((List.mem_append.1 h).resolve_left hp)
      refine ⟨p :: b1, u, v, b2, rfl, ?_⟩
      rw [show opsIn (p :: b1) = opsIn [p] ++ opsIn b1 from opsIn_append [p] b1]
      simp [hp, hn]

theorem copied_contents {c k : List SysPoint} {t : Nat} {x : Bytes}
    {j : List SysPoint}
    (l : Legal (effects (points ((c ++ .pt (.effect t .copy (.copied x)) :: k) ++ j)))) :
    x = contentsAfter c := by
  rw [List.append_assoc, points_append] at l
  have := Legal.value (k := points (k ++ j)) (h := points c) (t := t) (op := .copy)
    (v := .copied x) l
  simp only [answer, Val.copied.injEq] at this
  exact this

theorem opsIn_effect (t : Nat) (op : Op) (v : Val) (k : List SysPoint) :
    opsIn (.pt (.effect t op v) :: k) = op :: opsIn k := rfl

theorem opsIn_response (t : Nat) (w : Bytes) (k : List SysPoint) :
    opsIn (.response t w :: k) = opsIn k := rfl

theorem contents_window (c d e : List SysPoint) (t : Nat) (v : Val) (w : Bytes) :
    contentsAfter (c ++ .pt (.effect t .copy v) :: (d ++ .response t w :: e)) =
      if .reset ∈ opsIn (d ++ e) then contentsAfter (d ++ e)
      else contentsAfter c ++ (opsIn (d ++ e)).flatMap Op.payload := by
  have e1 : opsIn (c ++ .pt (.effect t .copy v) :: (d ++ .response t w :: e)) =
      (opsIn c ++ [.copy]) ++ opsIn (d ++ e) := by
    rw [opsIn_append, opsIn_effect, opsIn_append, opsIn_response, opsIn_append]
    simp
  simp only [contentsAfter]
  rw [e1, since_append]
  congr 2
  rw [since_append]
  simp [Op.payload]

theorem written_contents {a b : List SysPoint} {t : Nat} {p : Bytes} {v : Val}
    (h : Op.reset ∉ opsIn b) : p <:+: contentsAfter (a ++ .pt (.effect t (.write p) v) :: b) := by
  have e1 : opsIn (a ++ .pt (.effect t (.write p) v) :: b) =
      opsIn a ++ (.write p :: opsIn b) := by
    rw [opsIn_append, opsIn_effect]
  simp only [contentsAfter]
  rw [e1, since_append, if_neg (by simp [h])]
  exact ⟨since (opsIn a), (opsIn b).flatMap Op.payload, by simp [Op.payload]⟩

theorem no_writes_payload {ops : List Op} (h : ∀ p, .write p ∈ ops → p = []) :
    ops.flatMap Op.payload = [] := by
  rw [List.flatMap_eq_nil_iff]
  intro o m
  cases o with
  | write p => exact h p m
  | _ => rfl

theorem no_writes_since {ops : List Op} (h : ∀ p, .write p ∈ ops → p = []) :
    since ops = [] := by
  obtain ⟨ps, e, hp⟩ := since_payloads ops
  rw [e, List.flatten_eq_nil_iff]
  exact fun p m => h p (hp p m)

theorem Inv.allIdle {pts : List Point} {s : State} (i : Inv s pts)
    (hi : ∀ p ∈ s.pcs, p = .idle) (t : Nat) : phase t pts = some .idle := by
  rw [i.phases t]
  cases e : s.pcs[t]? with
  | none => rfl
  | some p =>
    rw [hi p (List.mem_of_getElem? e)]
    rfl

theorem SysInv.contents {y : Sys} {h : List SysPoint} (i : SysInv y h)
    (hi : ∀ p ∈ y.buf.pcs, p = .idle) : y.buf.contents = contentsAfter h := by
  have lk : y.buf.locked = false := by
    cases e : y.buf.locked with
    | false => rfl
    | true =>
      obtain ⟨u, p, hu, hp⟩ := i.inv.lock.1 e
      rw [hi p (List.mem_of_getElem? hu)] at hp
      cases hp
  exact i.inv.quiet lk

/-- A step inside a method is not a call. -/
theorem next_no_call {s s' : State} {t spare : Nat} {p : PC} {es : List Event}
    (hs : s.next t spare p = some (s', es)) (u : Nat) (op : Op) : .call u op ∉ es := by
  cases p with
  | idle => cases hs
  | wCopy p m i =>
    simp only [State.next] at hs
    split at hs
    · simp only [Option.pure_def, Option.some.injEq, Prod.mk.injEq] at hs
      obtain ⟨rfl, rfl⟩ := hs
      simp
    · simp only [Option.bind_eq_bind, Option.bind_eq_some_iff, Option.pure_def,
        Option.some.injEq, Prod.mk.injEq] at hs
      obtain ⟨a, ha, s1, h1, rfl, rfl⟩ := hs
      simp
  | cCopy src n d i =>
    simp only [State.next] at hs
    split at hs
    · simp only [Option.bind_eq_bind, Option.bind_eq_some_iff, Option.pure_def,
        Option.some.injEq, Prod.mk.injEq] at hs
      obtain ⟨a, ha, b, hb, s1, h1, rfl, rfl⟩ := hs
      simp
    · simp only [Option.pure_def, Option.some.injEq, Prod.mk.injEq] at hs
      obtain ⟨rfl, rfl⟩ := hs
      simp
  | wGrow | fGrow | cBytes | cMake | rSet | out =>
    simp only [State.next, Option.pure_def, Option.some.injEq, Prod.mk.injEq] at hs
    obtain ⟨rfl, rfl⟩ := hs
    simp
  | wWait | fWait | cWait | rWait | wDone | fDone | cDone | rDone =>
    simp only [State.next, Option.bind_eq_bind, Option.bind_eq_some_iff, Option.pure_def,
      Option.some.injEq, Prod.mk.injEq] at hs
    obtain ⟨s1, h1, rfl, rfl⟩ := hs
    simp

/-- The handler is not of a request that flushes. -/
def Handler.quiet : Handler → Prop
  | .free => True
  | .copying q => flushes q = false
  | .serving q _ _ => flushes q = false
  | .checking q => flushes q = false
  | .resetting => False

theorem quiet_after {hd : Handler} (h : hd.quiet) (p : PC) : (hd.after p).quiet := by
  cases p with
  | out r =>
    cases hd <;> cases r <;> first | exact h | trivial
  | _ => exact h

theorem quiet_set {hs : List Handler} {t : Nat} {q : Handler} (h : ∀ x ∈ hs, x.quiet)
    (hq : q.quiet) : ∀ x ∈ hs.set t q, x.quiet := by
  intro x m
  rcases List.mem_or_eq_of_mem_set m with m | rfl
  · exact h x m
  · exact hq

theorem quiet_step {y y' : Sys} {a : SysAct} {es : List SysEvent}
    (h : ∀ x ∈ y.hs, x.quiet) (ha : ∀ t, a ≠ .call t .reset)
    (hq : ∀ t q, a = .request t q → flushes q = false) (hs : y.step a = some (y', es)) :
    (∀ x ∈ y'.hs, x.quiet) ∧ ∀ t, .buf (.call t .reset) ∉ es := by
  cases a with
  | call t op =>
    simp only [Sys.step] at hs
    split at hs
    · simp only [Option.bind_eq_bind, Option.bind_eq_some_iff, Option.pure_def,
        Option.some.injEq, Prod.mk.injEq, Prod.exists] at hs
      obtain ⟨s, e, h1, rfl, rfl⟩ := hs
      obtain ⟨_, _, rfl⟩ := step_call h1
      refine ⟨h, ?_⟩
      intro u m
      simp only [List.map_cons, List.map_nil, List.mem_singleton, SysEvent.buf.injEq,
        Event.call.injEq] at m
      exact ha t (by rw [m.2])
    · cases hs
  | run t spare =>
    simp only [Sys.step, Option.bind_eq_bind, Option.bind_eq_some_iff, Option.pure_def,
      Option.some.injEq, Prod.mk.injEq, Prod.exists] at hs
    obtain ⟨hd, h0, p, hp, s, e, h1, rfl, rfl⟩ := hs
    refine ⟨quiet_set h (quiet_after (h hd (List.mem_of_getElem? h0)) p), ?_⟩
    intro u m
    obtain ⟨p', _, h2⟩ := step_run h1
    simp only [List.mem_map, SysEvent.buf.injEq, exists_eq_right] at m
    exact next_no_call h2 _ _ m
  | request t q =>
    simp only [Sys.step] at hs
    split at hs
    · simp only [Option.bind_eq_bind, Option.bind_eq_some_iff, Option.pure_def,
        Option.some.injEq, Prod.mk.injEq, Prod.exists] at hs
      obtain ⟨s, e, h1, rfl, rfl⟩ := hs
      obtain ⟨_, _, rfl⟩ := step_call h1
      exact ⟨quiet_set h (hq t q rfl), by simp⟩
    · cases hs
  | serve t k =>
    simp only [Sys.step] at hs
    split at hs
    · rename_i q d n hh
      split at hs
      · simp only [Option.some.injEq, Prod.mk.injEq] at hs
        obtain ⟨rfl, rfl⟩ := hs
        exact ⟨quiet_set h (h (.serving q d n) (List.mem_of_getElem? hh)), by simp⟩
      · cases hs
    · cases hs
  | check t =>
    simp only [Sys.step] at hs
    split at hs
    · rename_i q hh
      have := h (.checking q) (List.mem_of_getElem? hh)
      simp only [Handler.quiet] at this
      simp only [this, Bool.false_eq_true, if_false, Option.some.injEq, Prod.mk.injEq] at hs
      obtain ⟨rfl, rfl⟩ := hs
      exact ⟨quiet_set h trivial, by simp⟩
    · cases hs

theorem quiet_run {y y' : Sys} {as : List SysAct} {es : List SysEvent}
    (h : ∀ x ∈ y.hs, x.quiet) (ha : ∀ a ∈ as, ∀ t, a ≠ .call t .reset)
    (hq : ∀ a ∈ as, ∀ t q, a = .request t q → flushes q = false)
    (hs : y.run as = some (y', es)) : ∀ t, .buf (.call t .reset) ∉ es := by
  induction as generalizing y es with
  | nil =>
    simp only [Sys.run, Option.some.injEq, Prod.mk.injEq] at hs
    obtain ⟨rfl, rfl⟩ := hs
    simp
  | cons x as ih =>
    simp only [Sys.run, Option.bind_eq_bind, Option.bind_eq_some_iff, Option.pure_def,
      Option.some.injEq, Prod.mk.injEq, Prod.exists] at hs
    obtain ⟨y1, e1, h1, y2, e2, h2, rfl, rfl⟩ := hs
    obtain ⟨i1, n1⟩ := quiet_step h (ha x (by simp)) (hq x (by simp)) h1
    have n2 := ih i1 (fun z m => ha z (by simp [m])) (fun z m => hq z (by simp [m])) h2
    intro t m
    exact (List.mem_append.1 m).elim (n1 t) (n2 t)

end SMC.Http
