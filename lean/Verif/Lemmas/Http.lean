import Verif.Spec.Http
/-!
# Lemmas about the buffer machine
-/

namespace SMC.Http

/-! ## Histories -/

theorem phase_snoc (t : Nat) (h : List Point) (p : Point) :
    phase t (h ++ [p]) = (phase t h).bind fun ph => ph.next t p := by
  simp only [phase, List.foldlM_append, List.foldlM_cons, List.foldlM_nil]
  cases (List.foldlM (Phase.next t) Phase.idle h) <;> simp

theorem effects_append (h k : List Point) : effects (h ++ k) = effects h ++ effects k :=
  List.filterMap_append ..

theorem seen_append (h k : List Point) : seen (h ++ k) = seen h ++ seen k :=
  List.filterMap_append ..

/-- The operations that took effect. -/
def done (h : List Point) : List Op := (effects h).map (·.1)

theorem done_snoc_seen (h : List Point) (e : Event) : done (h ++ [.seen e]) = done h := by
  simp [done, effects]

theorem done_snoc_effect (h : List Point) (t : Nat) (op : Op) (v : Val) :
    done (h ++ [.effect t op v]) = done h ++ [op] := by
  simp [done, effects]

theorem since_write (ops : List Op) (p : Bytes) : since (ops ++ [.write p]) = since ops ++ p := by
  simp [since, Op.payload]

theorem since_fail (ops : List Op) (p : Bytes) : since (ops ++ [.fail p]) = since ops := by
  simp [since, Op.payload]

theorem since_copy (ops : List Op) : since (ops ++ [.copy]) = since ops := by
  simp [since, Op.payload]

theorem since_reset (ops : List Op) : since (ops ++ [.reset]) = [] := by
  simp [since]

theorem legal_seen (h : List Point) (e : Event) (l : Legal (effects h)) :
    Legal (effects (h ++ [.seen e])) := by
  simpa [effects] using l

theorem legal_effect (h : List Point) (t : Nat) (op : Op) (l : Legal (effects h)) :
    Legal (effects (h ++ [.effect t op (answer (done h) op)])) := by
  have e : effects (h ++ [.effect t op (answer (done h) op)])
      = effects h ++ [(op, answer (done h) op)] := by simp [effects]
  rw [e]
  intro i o v hi
  rcases Nat.lt_trichotomy i (effects h).length with c | c | c
  · rw [List.getElem?_append_left c] at hi
    rw [List.take_append_of_le_length (Nat.le_of_lt c)]
    exact l i o v hi
  · subst c
    simp at hi
    obtain ⟨rfl, rfl⟩ := hi
    simp [done]
  · rw [List.getElem?_eq_none (by simp; omega)] at hi
    cases hi

/-! ## Phases and critical sections -/

/-- The phase of a goroutine. -/
def State.phase (s : State) : PC → Phase
  | .idle => .idle
  | .wWait p | .wGrow p | .wCopy p .. | .wDone p => .called (.write p)
  | .fWait p | .fGrow p | .fDone p => .called (.fail p)
  | .cWait | .cBytes | .cMake .. | .cCopy .. | .cDone .. => .called .copy
  | .rWait | .rSet | .rDone => .called .reset
  | .out r => .answered (s.value r)

/-- Array `d` is no longer written: it is neither the buffer nor a copy in the making. -/
def Frozen (s : State) (d : Nat) : Prop :=
  d < s.heap.length ∧ s.arr ≠ some d ∧ ∀ (u : Nat) src n i, s.pcs[u]? ≠ some (PC.cCopy src n d i)

/-- The slice of the buffer is inside its array. -/
def BufOK (s : State) : Prop :=
  match s.arr with
  | none => s.len = 0
  | some a => a < s.heap.length ∧ s.len ≤ (s.array a).length

/-- What holds at the points of the critical section if `c` are the contents before. -/
def CritOK (s : State) (c : Bytes) : PC → Prop
  | .wGrow _ => s.contents = c
  | .wCopy p m i => i ≤ p.length ∧ m = c.length ∧ s.len = m + p.length ∧
      s.contents.take (m + i) = c ++ p.take i
  | .wDone p => s.contents = c ++ p
  | .fGrow _ | .fDone _ => s.contents = c
  | .cBytes => s.contents = c
  | .cMake src n => s.contents = c ∧ src = s.arr ∧ n = s.len
  | .cCopy src n d i => s.contents = c ∧ src = s.arr ∧ n = s.len ∧ i ≤ n ∧
      d < s.heap.length ∧ s.arr ≠ some d ∧ (s.array d).length = n ∧ (s.array d).take i = c.take i
  | .cDone d n => s.contents = c ∧ d < s.heap.length ∧ s.arr ≠ some d ∧ (s.array d).take n = c
  | .rSet => True
  | .rDone => s.contents = []
  | _ => True

/-- The invariant: `pts` is a linearization of what happened so far. -/
structure Inv (s : State) (pts : List Point) : Prop where
  phases : ∀ t, phase t pts = some (s.phase (s.pcs[t]?.getD .idle))
  legal : Legal (effects pts)
  excl : ∀ (t u : Nat) (p q : PC), s.pcs[t]? = some p → s.pcs[u]? = some q → p.crit → q.crit → t = u
  lock : s.locked = true ↔ ∃ t : Nat, ∃ p : PC, s.pcs[t]? = some p ∧ p.crit
  buf : BufOK s
  quiet : s.locked = false → s.contents = since (done pts)
  crit : ∀ (t : Nat) (p : PC), s.pcs[t]? = some p → p.crit → CritOK s (since (done pts)) p
  frozen : ∀ (t : Nat) d n, s.pcs[t]? = some (PC.out (.copy d n)) → Frozen s d

/-! ## Memory -/

theorem array_append (h : List Bytes) (x : Bytes) (d : Nat) (hd : d < h.length) :
    (h ++ [x])[d]?.getD [] = h[d]?.getD [] := by
  rw [List.getElem?_append_left hd]

theorem array_modify_ne (h : List Bytes) (f : Bytes → Bytes) (a d : Nat) (hd : a ≠ d) :
    (h.modify a f)[d]?.getD [] = h[d]?.getD [] := by
  rw [List.getElem?_modify]
  simp [hd]

theorem array_modify_eq (h : List Bytes) (a i : Nat) (b : UInt8) :
    (h.modify a (·.set i b))[a]?.getD [] = (h[a]?.getD []).set i b := by
  rw [List.getElem?_modify]
  cases h[a]? <;> simp

theorem take_set_succ (l : Bytes) (i : Nat) (b : UInt8) (h : i < l.length) :
    (l.set i b).take (i + 1) = l.take i ++ [b] := by
  rw [List.take_succ_eq_append_getElem (by simpa using h)]
  rw [List.take_set_of_le (Nat.le_refl i)]
  simp

theorem set_get {pcs : List PC} {t : Nat} {p : PC} (h : pcs[t]? = some p) (q : PC) (u : Nat) :
    (pcs.set t q)[u]? = if t = u then some q else pcs[u]? := by
  have : t < pcs.length := by
    rcases Nat.lt_or_ge t pcs.length with c | c
    · exact c
    · rw [List.getElem?_eq_none c] at h
      cases h
  rw [List.getElem?_set, if_pos this]

theorem Frozen.move {s s' : State} {t : Nat} {p q : PC} (ht : s.pcs[t]? = some p)
    (e : s'.pcs = s.pcs.set t q) {d : Nat} (f : Frozen s d)
    (hl : s.heap.length ≤ s'.heap.length) (ha : s'.arr ≠ some d)
    (hq : ∀ src n d' i, q = .cCopy src n d' i → d' ≠ d) : Frozen s' d := by
  refine ⟨Nat.lt_of_lt_of_le f.1 hl, ha, ?_⟩
  intro u src n i h
  rw [e, set_get ht] at h
  split at h
  · exact hq _ _ _ _ (Option.some.inj h) rfl
  · exact f.2.2 u src n i h

theorem phase_congr {s s' : State} {q : PC}
    (h : ∀ d n, q = .out (.copy d n) → s'.array d = s.array d) : s'.phase q = s.phase q := by
  cases q with
  | out r =>
    cases r with
    | copy d n => simp only [State.phase, State.value, h d n rfl]
    | _ => rfl
  | _ => rfl

theorem critOK_congr {s s' : State} (c : Bytes) (q : PC) (ha : s'.arr = s.arr) (hl : s'.len = s.len)
    (hh : s'.heap = s.heap) : CritOK s' c q ↔ CritOK s c q := by
  have a : s'.array = s.array := by funext d; simp [State.array, hh]
  have b : s'.contents = s.contents := by simp [State.contents, ha, hl, a]
  cases q <;> simp only [CritOK, ha, hl, hh, a, b]

/-- One goroutine moves from `p` to `q`. -/
theorem Inv.move {s s' : State} {pts pts' : List Point} (h : Inv s pts) {t : Nat} {p q : PC}
    (ht : s.pcs[t]? = some p) (e : s'.pcs = s.pcs.set t q)
    (hu : ∀ u, u ≠ t → phase u pts' = phase u pts)
    (hph : phase t pts' = some (s'.phase q))
    (hlegal : Legal (effects pts'))
    (hkept : p.crit = q.crit → s'.locked = s.locked)
    (hacq : p.crit = false → q.crit → s.locked = false ∧ s'.locked = true)
    (hrel : p.crit → q.crit = false → s'.locked = false)
    (hbuf : BufOK s')
    (hquiet : s'.locked = false → s'.contents = since (done pts'))
    (hcrit : q.crit → CritOK s' (since (done pts')) q)
    (hsame : p.crit = false → q.crit = false →
      s'.arr = s.arr ∧ s'.len = s.len ∧ s'.heap = s.heap ∧ done pts' = done pts)
    (hkeep : ∀ d, Frozen s d → Frozen s' d ∧ s'.array d = s.array d)
    (hnew : ∀ d n, q = .out (.copy d n) → Frozen s' d) : Inv s' pts' := by
  have others : ∀ (u : Nat) (r : PC), u ≠ t → (s'.pcs[u]? = some r ↔ s.pcs[u]? = some r) := by
    intro u r hn
    rw [e, set_get ht, if_neg (Ne.symm hn)]
  have self : s'.pcs[t]? = some q := by rw [e, set_get ht, if_pos rfl]
  have lockedOf : ∀ (u : Nat) (r : PC), s.pcs[u]? = some r → r.crit → s.locked = true :=
    fun u r a b => h.lock.2 ⟨u, r, a, b⟩
  have unique : ∀ (u : Nat) (r : PC), u ≠ t → s.pcs[u]? = some r → r.crit → p.crit = false ∧ q.crit = false := by
    intro u r hn a b
    have c : p.crit = false := by
      cases hp : p.crit
      · rfl
      · exact absurd (h.excl u t r p a ht b hp) hn
    refine ⟨c, ?_⟩
    cases hq : q.crit
    · rfl
    · have := (hacq c hq).1
      rw [lockedOf u r a b] at this
      cases this
  refine ⟨?_, hlegal, ?_, ?_, hbuf, hquiet, ?_, ?_⟩
  · intro u
    by_cases hn : u = t
    · subst hn
      rw [self]
      exact hph
    · rw [hu u hn, h.phases u, e, set_get ht, if_neg (Ne.symm hn)]
      refine congrArg some (Eq.symm (phase_congr ?_))
      intro d n hd
      refine (hkeep d ?_).2
      refine h.frozen u d n ?_
      cases hx : s.pcs[u]? with
      | none => rw [hx] at hd; cases hd
      | some y => rw [hx] at hd; exact congrArg some hd
  · intro u v a b ha hb ca cb
    by_cases hn : u = t
    · by_cases hm : v = t
      · rw [hn, hm]
      · have := unique v b hm ((others v b hm).1 hb) cb
        subst hn
        rw [self] at ha
        cases ha
        rw [this.2] at ca
        cases ca
    · by_cases hm : v = t
      · have := unique u a hn ((others u a hn).1 ha) ca
        subst hm
        rw [self] at hb
        cases hb
        rw [this.2] at cb
        cases cb
      · exact h.excl u v a b ((others u a hn).1 ha) ((others v b hm).1 hb) ca cb
  · constructor
    · intro hl
      cases hq : q.crit
      · cases hp : p.crit
        · rw [hkept (hp.trans hq.symm), h.lock] at hl
          obtain ⟨u, r, a, b⟩ := hl
          have hn : u ≠ t := by
            intro c
            subst c
            rw [ht] at a
            cases a
            rw [hp] at b
            cases b
          exact ⟨u, r, (others u r hn).2 a, b⟩
        · rw [hrel hp hq] at hl
          cases hl
      · exact ⟨t, q, self, hq⟩
    · rintro ⟨u, r, a, b⟩
      by_cases hn : u = t
      · subst hn
        rw [self] at a
        cases a
        cases hp : p.crit
        · exact (hacq hp b).2
        · rw [hkept (hp.trans b.symm)]
          exact lockedOf u p ht hp
      · have a' := (others u r hn).1 a
        have c := unique u r hn a' b
        rw [hkept (c.1.trans c.2.symm)]
        exact lockedOf u r a' b
  · intro u r a b
    by_cases hn : u = t
    · subst hn
      rw [self] at a
      cases a
      exact hcrit b
    · have a' := (others u r hn).1 a
      have c := unique u r hn a' b
      obtain ⟨x, y, z, w⟩ := hsame c.1 c.2
      rw [w, critOK_congr _ _ x y z]
      exact h.crit u r a' b
  · intro u d n a
    by_cases hn : u = t
    · subst hn
      rw [self] at a
      exact hnew d n (Option.some.inj a)
    · exact (hkeep d (h.frozen u d n ((others u _ hn).1 a))).1

end SMC.Http
