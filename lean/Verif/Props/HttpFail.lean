import Verif.Props.Http
/-!
# Writes that panic: C103
-/

namespace SMC.Http

/-- Of a `Write` that panics. -/
def Point.failing : Point → Bool
  | .seen e => e.failing
  | .effect _ (.fail _) _ => true
  | _ => false

/-- The history without the `Write`s that panic. -/
def rest (h : List Point) : List Point := h.filter fun x => !x.failing

theorem rest_append (h k : List Point) : rest (h ++ k) = rest h ++ rest k := by
  simp [rest]

theorem seen_rest (h : List Point) : seen (rest h) = others (seen h) := by
  induction h with
  | nil => rfl
  | cons x h ih =>
    cases x with
    | seen e =>
      cases c : e.failing <;>
        simpa [rest, others, seen, Point.failing, c] using ih
    | effect t op v =>
      cases op <;> simpa [rest, others, seen, Point.failing] using ih

/-- What is left of the phase of a goroutine without `Write`s that panic. -/
def Phase.strip : Phase → Phase
  | .called (.fail _) => .idle
  | .answered .failed => .idle
  | ph => ph

/-- Panics come from `Write`s that panic and from nothing else. -/
def Matching : Point → Prop
  | .effect _ op v => (∃ p, op = .fail p) ↔ v = .failed
  | .seen _ => True

theorem strip_next {t : Nat} {ph qh : Phase} {x : Point} (m : Matching x)
    (h : ph.next t x = some qh) :
    if x.failing then qh.strip = ph.strip else ph.strip.next t x = some qh.strip := by
  cases x with
  | seen e =>
    cases e with
    | call u op =>
      simp only [Phase.next] at h ⊢
      split at h
      · rename_i e
        split at h
        · rename_i e2
          cases h
          subst e2
          cases op <;> simp [Point.failing, Event.failing, Phase.strip, e]
        · cases h
      · rename_i e
        cases h
        simp [e]
    | ret u v =>
      simp only [Phase.next] at h ⊢
      split at h
      · rename_i e
        split at h
        · rename_i e2
          cases h
          subst e2
          cases v <;> simp [Point.failing, Event.failing, Phase.strip, e]
        · cases h
      · rename_i e
        cases h
        simp [e]
  | effect u op v =>
    simp only [Matching] at m
    simp only [Phase.next] at h ⊢
    split at h
    · rename_i e
      split at h
      · rename_i e2
        cases h
        subst e2
        cases op with
        | fail p =>
          have : v = .failed := m.1 ⟨p, rfl⟩
          subst this
          simp [Point.failing, Phase.strip]
        | _ =>
          cases v with
          | failed => obtain ⟨p, hp⟩ := m.2 rfl; cases hp
          | _ => simp [Point.failing, Phase.strip, e]
      · cases h
    · rename_i e
      cases h
      simp [e]

theorem strip_fold {t : Nat} {k : List Point} {ph qh : Phase} (m : ∀ x ∈ k, Matching x)
    (h : k.foldlM (Phase.next t) ph = some qh) :
    (rest k).foldlM (Phase.next t) ph.strip = some qh.strip := by
  induction k generalizing ph with
  | nil =>
    simp only [List.foldlM_nil, Option.pure_def, Option.some.injEq] at h
    rw [h]
    rfl
  | cons x k ih =>
    obtain ⟨rh, h1, h2⟩ := next_fold h
    have := strip_next (m x (by simp)) h1
    have e := ih (fun y hy => m y (by simp [hy])) h2
    cases c : x.failing with
    | true =>
      rw [c, if_pos rfl] at this
      simp only [rest, List.filter_cons, c, Bool.not_true, Bool.false_eq_true, if_false]
      rw [← this]
      exact e
    | false =>
      rw [c] at this
      simp only [Bool.false_eq_true, if_false] at this
      simp only [rest, List.filter_cons, c, Bool.not_false, if_true, List.foldlM_cons, this]
      exact e

theorem since_rest (h : List Point) : since (done (rest h)) = since (done h) := by
  have : done (rest h) = (done h).filter fun o => match o with | .fail _ => false | _ => true := by
    induction h with
    | nil => rfl
    | cons x h ih =>
      cases x with
      | seen e =>
        cases c : e.failing <;> simpa [done, rest, effects, Point.failing, c] using ih
      | effect t op v =>
        cases op <;> simpa [done, rest, effects, Point.failing] using ih
  rw [this]
  unfold since
  rw [← List.filter_reverse]
  generalize (done h).reverse = l
  induction l with
  | nil => rfl
  | cons o l ih =>
    cases o with
    | fail p => simpa [Op.payload] using ih
    | reset => simp
    | write p => simpa using ih
    | copy => simpa using ih

theorem Legal.left {h k : List Point} (l : Legal (effects (h ++ k))) : Legal (effects h) := by
  intro i op v hi
  have lt : i < (effects h).length := by
    rcases Nat.lt_or_ge i (effects h).length with c | c
    · exact c
    · rw [List.getElem?_eq_none c] at hi; cases hi
  have := l i op v (by rw [effects_append, List.getElem?_append_left lt]; exact hi)
  rw [effects_append, List.take_append_of_le_length (Nat.le_of_lt lt)] at this
  exact this

theorem legal_rest {h : List Point} (l : Legal (effects h)) : Legal (effects (rest h)) := by
  generalize hn : h.length = n
  induction n generalizing h with
  | zero =>
    rw [List.eq_nil_of_length_eq_zero hn]
    intro i op v hi
    simp [rest, effects] at hi
  | succ n ih =>
    obtain ⟨k, x, rfl⟩ : ∃ k x, h = k ++ [x] := by
      have ne : h ≠ [] := by intro e; rw [e] at hn; cases hn
      exact ⟨h.dropLast, h.getLast ne, (List.dropLast_concat_getLast ne).symm⟩
    have i1 := ih l.left (by simpa using hn)
    rw [rest_append]
    cases x with
    | seen e =>
      cases c : e.failing
      · simpa [rest, Point.failing, c] using legal_seen (rest k) e i1
      · simpa [rest, Point.failing, c] using i1
    | effect t op v =>
      have hv := l.value
      cases op with
      | fail p => simpa [rest, Point.failing] using i1
      | write p =>
        have := legal_effect (rest k) t (.write p) i1
        simp only [answer] at this hv
        rw [hv]
        simpa [rest, Point.failing] using this
      | copy =>
        have := legal_effect (rest k) t .copy i1
        simp only [answer, since_rest] at this hv
        rw [hv]
        simpa [rest, Point.failing] using this
      | reset =>
        have := legal_effect (rest k) t .reset i1
        simp only [answer] at this hv
        rw [hv]
        simpa [rest, Point.failing] using this

theorem legal_matching {h : List Point} (l : Legal (effects h)) : ∀ x ∈ h, Matching x := by
  intro x m
  cases x with
  | seen e => trivial
  | effect t op v =>
    obtain ⟨a, b, rfl⟩ := List.append_of_mem m
    have hv := l.value
    cases op <;> simp [Matching, hv, answer]

end SMC.Http

namespace SMC.Props
open SMC.Http

/-- Goroutine 0 writes, goroutine 1 copies the buffer around a `Write` of goroutine 2 that
panics while the others wait for the lock. -/
def panicky : List Act :=
  [.call 0 (.write [0x61]), .call 2 (.fail [0x62, 0x63]), .run 2 0, .call 1 .copy] ++
  List.replicate 3 (.run 2 0) ++ List.replicate 6 (.run 0 0) ++ [.call 2 (.fail [0x64])] ++
  List.replicate 7 (.run 1 0) ++ List.replicate 4 (.run 2 0) ++ [.call 2 .copy]

example : (run (.init 3) panicky).map (·.2) = some [.call 0 (.write [0x61]),
    .call 2 (.fail [0x62, 0x63]), .call 1 .copy, .ret 2 .failed, .ret 0 (.wrote 1),
    .call 2 (.fail [0x64]), .ret 1 (.copied [0x61]), .ret 2 .failed, .call 2 .copy] := by
  decide +kernel

/-- **C103** Leaving out the `Write`s that panic, the history of calls and returns is
linearizable: nobody can tell that they happened. -/
theorem C103_unnoticed (n : Nat) (as : List Act) (s : State) (es : List Event)
    (h : run (.init n) as = some (s, es)) : Linearizable (others es) := by
  obtain ⟨pts, rfl, hp, hl⟩ := C60_linearizable n as s es h
  refine ⟨rest pts, seen_rest pts, fun t => ?_, legal_rest hl⟩
  obtain ⟨qh, hq⟩ := Option.isSome_iff_exists.1 (hp t)
  have := strip_fold (legal_matching hl) hq
  rw [show Phase.strip .idle = .idle from rfl] at this
  simp only [phase, this]
  rfl

example : ∃ as s es, run (.init 3) as = some (s, es) ∧ others es = [.call 0 (.write [0x61]),
    .call 1 .copy, .ret 0 (.wrote 1), .ret 1 (.copied [0x61]), .call 2 .copy] :=
  ⟨panicky, _, _, Option.eq_some_of_isSome (by decide +kernel), by decide +kernel⟩

/-- **C103** A call comes back as a panic if and only if it is a `Write` in which the buffer could
not grow. -/
theorem C103_panics (n : Nat) (as : List Act) (s : State) (e1 e2 e3 : List Event) (t : Nat)
    (op : Op) (v : Val)
    (h : run (.init n) as = some (s, e1 ++ .call t op :: (e2 ++ .ret t v :: e3)))
    (ht : ∀ o, .call t o ∉ e2) : v = .failed ↔ ∃ p, op = .fail p := by
  obtain ⟨pts, hs, hp, hl⟩ := C60_linearizable _ _ _ _ h
  obtain ⟨p1, q1, rfl, -, s1⟩ := seen_split hs
  obtain ⟨p2, q2, rfl, s2', s2⟩ := seen_split s1
  have m : .effect t op v ∈ p2 := by
    refine effect_between (hp t) (fun o m => ht o ?_)
    rw [← s2']
    exact mem_seen.2 m
  exact (legal_matching hl (.effect t op v) (by simp [m])).symm

example : (run (.init 3) panicky).map (·.2) = some ([.call 0 (.write [0x61])] ++
    .call 2 (.fail [0x62, 0x63]) :: ([.call 1 .copy] ++ .ret 2 .failed :: [.ret 0 (.wrote 1),
    .call 2 (.fail [0x64]), .ret 1 (.copied [0x61]), .ret 2 .failed, .call 2 .copy])) := by
  decide +kernel

/-- **C103** A `Write` that panics leaves everything as it was: the lock, the buffer and all
arrays. -/
theorem C103_unchanged (s : State) (t : Nat) (p : Bytes) (a b c d : Nat) (hl : s.locked = false)
    (ht : s.pcs[t]? = some .idle) :
    run s [.call t (.fail p), .run t a, .run t b, .run t c, .run t d] =
      some (s, [.call t (.fail p), .ret t .failed]) := by
  have lt : t < s.pcs.length := (List.getElem?_eq_some_iff.1 ht).1
  have e : s.pcs[t] = .idle := (List.getElem?_eq_some_iff.1 ht).2
  obtain ⟨l, ar, n, hp, pcs⟩ := s
  simp only at hl ht lt e
  subst hl
  simp [Http.run, step, State.next, State.lock, State.unlock, State.goto, Op.entry, State.value, lt,
    e]
  rw [← e]
  exact List.set_getElem_self lt

/-- A buffer with something in it. -/
example : ∃ s : State, Reachable 2 s ∧ s.locked = false ∧ s.pcs[1]? = some .idle ∧
    s.contents = [0x61] :=
  ⟨((run (.init 2) ([.call 0 (.write [0x61])] ++ List.replicate 6 (.run 0 0))).map (·.1)).getD (.init 2),
    ⟨[.call 0 (.write [0x61])] ++ List.replicate 6 (.run 0 0), _,
      Option.eq_some_of_isSome (by decide)⟩, by decide, by decide, by decide⟩

/-- **C103** The lock is held only while some goroutine is inside the critical section; nobody who
left a method, by returning or by panicking, still holds it. -/
theorem C103_lock (n : Nat) (s : State) (h : Reachable n s) :
    s.locked = true ↔ ∃ (t : Nat) (p : PC), s.pcs[t]? = some p ∧ p.crit = true := by
  obtain ⟨pts, i⟩ := Inv.reachable h
  exact i.lock

/-- A reachable state in which a `Write` is about to panic with the lock held. -/
example : ∃ s : State, Reachable 3 s ∧ s.locked ∧ s.pcs[2]? = some (.fGrow [0x62, 0x63]) :=
  ⟨((run (.init 3) (panicky.take 3)).map (·.1)).getD (.init 3),
    ⟨panicky.take 3, _, Option.eq_some_of_isSome (by decide)⟩, by decide, by decide⟩

end SMC.Props
