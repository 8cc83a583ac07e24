import Verif.Lemmas.Lent
/-!
# Lemmas about the bytes of `Write`s whose slices change
-/

namespace SMC.Http

/-- Whoever is in a `Write` that is not done copying has an argument. -/
structure Busy (l : Lent) : Prop where
  size : l.args.length = l.s.pcs.length
  pay : ∀ (t : Nat) pc, l.s.pcs[t]? = some pc → pc.pay ≠ none → ∃ r, l.args[t]? = some (some r)

theorem Busy.init (n : Nat) : Busy (.init n) := by
  refine ⟨by simp [Lent.init, State.init], ?_⟩
  intro t pc h
  simp only [Lent.init, State.init, List.getElem?_replicate] at h
  split at h
  · cases h
    intro c
    exact absurd rfl c
  · cases h

/-- The machine as if every goroutine that is in a `Write` had been called with the bytes `g`, as far as it has not copied them
yet. -/
def Lent.patch (l : Lent) (g : Nat → Bytes) : State :=
  { l.s with pcs := l.s.pcs.mapIdx fun t pc => pc.look (g t) }

theorem patch_get (l : Lent) (g : Nat → Bytes) (t : Nat) : (l.patch g).pcs[t]? = (l.s.pcs[t]?).map (·.look (g t)) := by
  simp [Lent.patch, List.getElem?_mapIdx]

theorem look_self {pc : PC} (h : pc.pay = none) (p : Bytes) : pc.look p = pc := by
  cases pc <;> simp [PC.pay, PC.look] at h ⊢

/-- A goroutine that is about to return. -/
def PC.left : PC → Bool
  | .out _ => true
  | _ => false

/-- A step with the bytes that are in the slice now is a step with bytes that are right now or later. -/
theorem look_next {s s' : State} {t spare : Nat} {pc : PC} {es : List Event} {p g' : Bytes}
    (hs : s.next t spare (pc.look p) = some (s', es)) (hp : ∀ x, pc.pay = some x → x.length = p.length)
    (hg : g'.length = p.length) :
    ∃ q g, s'.pcs = s.pcs.set t q ∧ g.length = p.length ∧
      (∀ (i : Nat) b, g[i]? = some b → g'[i]? = some b ∨ p[i]? = some b) ∧
      (q.pay ≠ none → pc.pay ≠ none) ∧ (pc.left = true → q = .idle) ∧
      ∀ P, ({ s with pcs := P } : State).next t spare (pc.look g) = some ({ s' with pcs := P.set t (q.look g') }, es) := by
  cases pc with
  | idle => cases hs
  | wWait x =>
    simp only [PC.look, State.next, Option.bind_eq_bind, Option.bind_eq_some_iff, Option.pure_def,
      Option.some.injEq, Prod.mk.injEq] at hs
    obtain ⟨s1, h1, rfl, rfl⟩ := hs
    obtain ⟨h2, rfl⟩ := lock_some h1
    refine ⟨.wGrow p, g', rfl, hg, fun i b h => .inl h, by simp [PC.pay], by simp [PC.left], ?_⟩
    intro P
    simp [PC.look, State.next, State.lock, State.goto, h2]
  | wGrow x =>
    simp only [PC.look, State.next, Option.pure_def, Option.some.injEq, Prod.mk.injEq] at hs
    obtain ⟨rfl, rfl⟩ := hs
    refine ⟨.wCopy p s.len 0, g', ?_, hg, fun i b h => .inl h, by simp [PC.pay], by simp [PC.left], ?_⟩
    · simp only [State.goto, State.grow]
      split <;> rfl
    · intro P
      have hc : ({ s with pcs := P } : State).cap = s.cap := rfl
      simp only [PC.look, State.next, State.goto, State.grow, hg, hc, Option.pure_def, List.take_zero, List.drop_zero,
        List.nil_append, Option.some.injEq, Prod.mk.injEq, and_true]
      split <;> rfl
  | wCopy x m i =>
    have hx := hp x rfl
    simp only [PC.look, State.next] at hs
    by_cases hi : i < p.length
    · have e : (x.take i ++ p.drop i)[i]? = some p[i] := by
        rw [List.getElem?_append_right (by simp; omega)]
        simp [Nat.min_eq_left (show i ≤ x.length by omega), hi]
      rw [e] at hs
      simp only [Option.bind_eq_bind, Option.bind_eq_some_iff, Option.pure_def, Option.some.injEq, Prod.mk.injEq] at hs
      obtain ⟨a, h1, s1, h2, rfl, rfl⟩ := hs
      simp only [State.poke] at h2
      split at h2
      · rename_i h3
        cases h2
        refine ⟨.wCopy (x.take i ++ p.drop i) m (i + 1), g'.set i p[i], rfl, by simp [hg], ?_, by simp [PC.pay],
          by simp [PC.left], ?_⟩
        · intro j b h
          rw [List.getElem?_set] at h
          split at h
          · rename_i hj
            subst hj
            split at h
            · exact .inr (by rw [← h, List.getElem?_eq_getElem hi])
            · cases h
          · exact .inl h
        · intro P
          have e' : (x.take i ++ (g'.set i p[i]).drop i)[i]? = some p[i] := by
            rw [List.getElem?_append_right (by simp; omega)]
            simp [Nat.min_eq_left (show i ≤ x.length by omega), hg, hi]
          have e2 : x.take i ++ (g'.set i p[i]).drop i = (x.take i ++ p.drop i).take (i + 1) ++ g'.drop (i + 1) := by
            apply List.ext_getElem?
            intro j
            simp only [List.getElem?_append, List.getElem?_take, List.getElem?_drop, List.length_take, List.length_append,
              List.length_drop, List.getElem?_set]
            rcases Nat.lt_trichotomy j i with c | c | c
            · rw [if_pos (by omega), if_pos (by omega), if_pos (by omega), if_pos (by omega), if_pos (by omega)]
            · subst c
              rw [if_neg (by omega), if_pos (by omega), if_pos (by omega), if_pos (by omega), if_pos (by omega),
                if_neg (by omega), ← List.getElem?_eq_getElem hi]
              exact congrArg (p[·]?) (by omega)
            · rw [if_neg (by omega), if_neg (by omega), if_neg (by omega)]
              exact congrArg (g'[·]?) (by omega)
          simp only [PC.look, State.next]
          rw [e']
          simp only [h1, Option.bind_eq_bind, Option.bind_some, State.poke, State.goto, Option.pure_def, ← e2]
          rw [if_pos (by exact h3)]
          rfl
      · cases h2
    · have e : (x.take i ++ p.drop i)[i]? = none := by
        rw [List.getElem?_eq_none_iff]
        simp
        omega
      rw [e] at hs
      simp only [Option.pure_def, Option.some.injEq, Prod.mk.injEq] at hs
      obtain ⟨rfl, rfl⟩ := hs
      have hd : ∀ y : Bytes, y.length = p.length → y.drop i = [] := fun y hy => List.drop_eq_nil_of_le (by omega)
      refine ⟨_, g', rfl, hg, fun i b h => .inl h, by simp [PC.pay], by simp [PC.left], ?_⟩
      intro P
      rw [hd p rfl] at e ⊢
      simp only [PC.look, State.next, hd g' hg]
      rw [e]
      rfl
  | cMake src n | cBytes | rSet | fGrow x | out r =>
    simp only [PC.look, State.next, Option.pure_def, Option.some.injEq, Prod.mk.injEq] at hs
    obtain ⟨rfl, rfl⟩ := hs
    refine ⟨_, p, rfl, rfl, fun i b h => .inr h, by simp [PC.pay], ?_, ?_⟩
    · first | (intro h; cases h; done) | (intros; rfl)
    · intro P
      simp only [PC.look, State.next, State.goto, Option.pure_def]
      try rfl
  | cCopy src n d i =>
    simp only [PC.look, State.next] at hs
    split at hs
    · rename_i hi
      simp only [Option.bind_eq_bind, Option.bind_eq_some_iff, Option.pure_def, Option.some.injEq, Prod.mk.injEq] at hs
      obtain ⟨a, h1, b, h2, s1, h3, rfl, rfl⟩ := hs
      simp only [State.poke] at h3
      split at h3
      · rename_i h4
        cases h3
        refine ⟨_, p, rfl, rfl, fun i b h => .inr h, by simp [PC.pay], by simp [PC.left], ?_⟩
        intro P
        have ha : ∀ a, ({ s with pcs := P } : State).array a = s.array a := fun _ => rfl
        simp only [PC.look, State.next, if_pos hi, h1, Option.bind_eq_bind, Option.bind_some, ha, h2, State.poke, if_pos h4,
          State.goto, Option.pure_def]
      · cases h3
    · rename_i hi
      simp only [Option.pure_def, Option.some.injEq, Prod.mk.injEq] at hs
      obtain ⟨rfl, rfl⟩ := hs
      refine ⟨_, p, rfl, rfl, fun i b h => .inr h, by simp [PC.pay], by simp [PC.left], ?_⟩
      intro P
      simp only [PC.look, State.next, if_neg hi, State.goto, Option.pure_def]
  | fWait x | cWait | rWait =>
    simp only [PC.look, State.next, Option.bind_eq_bind, Option.bind_eq_some_iff, Option.pure_def,
      Option.some.injEq, Prod.mk.injEq] at hs
    obtain ⟨s1, h1, rfl, rfl⟩ := hs
    obtain ⟨h2, rfl⟩ := lock_some h1
    refine ⟨_, p, rfl, rfl, fun i b h => .inr h, by simp [PC.pay], by simp [PC.left], ?_⟩
    intro P
    simp [PC.look, State.next, State.lock, State.goto, h2]
  | cDone d n | wDone x | fDone x | rDone =>
    simp only [PC.look, State.next, Option.bind_eq_bind, Option.bind_eq_some_iff, Option.pure_def,
      Option.some.injEq, Prod.mk.injEq] at hs
    obtain ⟨s1, h1, rfl, rfl⟩ := hs
    have h2 : s.locked = true := by
      simp only [State.unlock] at h1
      split at h1
      · assumption
      · cases h1
    rw [unlock_some h1]
    refine ⟨_, p, rfl, rfl, fun i b h => .inr h, by simp [PC.pay], by simp [PC.left], ?_⟩
    intro P
    simp [PC.look, State.next, State.unlock, State.goto, h2]

/-- Steps of others: the bytes stay. -/
theorem patch_heap {l : Lent} {pts : List Point} (h : Lend l) {g : Nat → Bytes} (i : Inv (l.patch g) pts) {hp : List Bytes}
    (hl : l.s.heap.length ≤ hp.length) (ha : ∀ a, a ∉ l.owned → a < l.s.heap.length → hp[a]?.getD [] = l.s.array a) :
    Inv { l.patch g with heap := hp } pts := by
  refine i.heap hl ?_ ?_
  · intro a e
    exact ha a (fun m => (h.own a m).2.1 e) (h.buf a e)
  · intro t pc d h1 h2
    rw [patch_get, Option.map_eq_some_iff] at h1
    obtain ⟨pc0, h3, rfl⟩ := h1
    rw [look_dst] at h2
    exact ha d (fun m => (h.own d m).2.2 t pc0 h3 h2) (h.fresh t pc0 d h3 h2).1

/-- The bytes of a goroutine's slice now, or `g` if it has none. -/
def Lent.now (l : Lent) (t : Nat) (g : Bytes) : Bytes :=
  match l.args[t]? with
  | some (some r) => l.s.part r
  | _ => g

theorem now_some {l : Lent} {t : Nat} {r : Part} (h : l.args[t]? = some (some r)) (g : Bytes) : l.now t g = l.s.part r := by
  simp only [Lent.now, h]

theorem Busy.look {l : Lent} (k : Busy l) {t : Nat} {pc : PC} (ht : l.s.pcs[t]? = some pc) (g : Bytes) :
    l.look t = l.s.goto t (pc.look (l.now t g)) := by
  unfold Lent.look Lent.now
  rw [ht]
  cases ha : l.args[t]? with
  | none =>
    rw [look_self (Classical.byContradiction fun c => by obtain ⟨r, hr⟩ := k.pay t pc ht c; rw [ha] at hr; cases hr)]
    exact (goto_self ht).symm
  | some x =>
    cases x with
    | none =>
      rw [look_self (Classical.byContradiction fun c => by obtain ⟨r, hr⟩ := k.pay t pc ht c; rw [ha] at hr; cases hr)]
      exact (goto_self ht).symm
    | some r => rfl

theorem pass_args {l : Lent} {t : Nat} {s : State} {pc : PC} (ht : l.s.pcs[t]? = some pc) :
    (l.pass t s).args = if pc.left then l.args.set t none else l.args := by
  unfold Lent.pass
  rw [ht]
  cases pc with
  | out r => cases r <;> rfl
  | _ => rfl

/-- A step of a goroutine, and the bytes it is going to have read. -/
theorem Busy.run_step {l l' : Lent} (h : Lend l) (k : Busy l) {t spare : Nat} {es : List Event}
    (hs : l.step (.run t spare) = some (l', es)) (g' : Nat → Bytes)
    (hg : ∀ (u : Nat) r, l'.args[u]? = some (some r) → (g' u).length = r.len) :
    Busy l' ∧ ∃ g, Http.step (l.patch g) (.run t spare) = some (l'.patch g', es) ∧
      ∀ (u : Nat) r, l.args[u]? = some (some r) → (g u).length = r.len ∧ ∀ (i : Nat) b, (g u)[i]? = some b →
        (l'.args[u]? = some (some r) ∧ (g' u)[i]? = some b) ∨ (l.s.part r)[i]? = some b := by
  obtain ⟨_, _, s', h1, rfl⟩ := h.run_step hs
  obtain ⟨pc1, h2, h3⟩ := step_run h1
  have hpc : ∃ pc, l.s.pcs[t]? = some pc := by
    cases hx : l.s.pcs[t]? with
    | some pc => exact ⟨pc, rfl⟩
    | none =>
      unfold Lent.look at h2
      rw [hx] at h2
      rw [hx] at h2
      cases h2
  obtain ⟨pc, ht⟩ := hpc
  have ha := pass_args (s := s') ht
  -- the bytes after the step
  let gt : Bytes := if pc.left then l.now t (g' t) else g' t
  have hgt : gt.length = (l.now t (g' t)).length := by
    show (if _ then _ else _ : Bytes).length = _
    split
    · rfl
    · rename_i c
      rw [if_neg c] at ha
      cases hr : l.args[t]? with
      | none => simp only [Lent.now, hr]
      | some x =>
        cases x with
        | none => simp only [Lent.now, hr]
        | some r =>
          rw [now_some hr, part_length (h.args t r hr).2.1]
          exact hg t r (ha ▸ hr)
  rw [k.look ht (g' t)] at h2 h3
  simp only [State.goto, set_get ht, if_true, Option.some.injEq] at h2
  subst h2
  have hpay : ∀ x, pc.pay = some x → x.length = (l.now t (g' t)).length := by
    intro x hx
    obtain ⟨r, hr⟩ := k.pay t pc ht (by rw [hx]; simp)
    rw [now_some hr, part_length (h.args t r hr).2.1]
    exact (h.args t r hr).2.2 pc x ht hx
  obtain ⟨q, g, e1, e2, e3, e4, e5, e6⟩ := look_next h3 hpay hgt
  have e1' : s'.pcs = l.s.pcs.set t q := by
    rw [e1]
    simp only [State.goto, List.set_set]
  refine ⟨⟨?_, ?_⟩, fun u => if u = t then g else g' u, ?_, ?_⟩
  · rw [ha, pass_s, e1']
    split <;> simp [k.size]
  · intro u pc' h5 h6
    rw [pass_s, e1', set_get ht] at h5
    rw [ha]
    split at h5
    · rename_i hu
      subst hu
      cases h5
      have h7 := e4 h6
      rw [if_neg]
      · exact k.pay _ pc ht h7
      · intro c
        cases pc <;> first | cases c; done | exact h7 rfl
    · rename_i hu
      obtain ⟨r, hr⟩ := k.pay u pc' h5 h6
      refine ⟨r, ?_⟩
      split
      · rw [List.getElem?_set_ne (by omega)]
        exact hr
      · exact hr
  · have hP := e6 (l.patch fun u => if u = t then g else g' u).pcs
    simp only [Http.step]
    rw [patch_get, ht]
    simp only [Option.map_some, if_true]
    refine Eq.trans hP ?_
    simp only [Option.some.injEq, Prod.mk.injEq, and_true]
    simp only [Lent.patch, pass_s, State.mk.injEq, true_and]
    apply List.ext_getElem?
    intro u
    rw [e1']
    simp only [List.getElem?_mapIdx]
    have hP' : (l.s.pcs.mapIdx fun u pc => pc.look (if u = t then g else g' u))[t]? = some (pc.look g) := by
      simp [List.getElem?_mapIdx, ht]
    rw [set_get hP', set_get ht]
    by_cases hu : t = u
    · subst hu
      simp only [if_true, Option.map_some, Option.some.injEq]
      show q.look (if _ then _ else _) = _
      split
      · rename_i c
        rw [e5 c]
        rfl
      · rfl
    · simp [hu, List.getElem?_mapIdx, Ne.symm hu]
  · intro u r hr
    by_cases hu : u = t
    · subst hu
      simp only [if_true]
      rw [now_some hr] at e2 e3
      refine ⟨e2.trans (part_length (h.args u r hr).2.1), ?_⟩
      intro i b hb
      rcases e3 i b hb with c | c
      · change (if _ then _ else _ : Bytes)[i]? = some b at c
        split at c
        · rw [now_some hr] at c
          exact .inr c
        · rename_i hn
          exact .inl ⟨by rw [ha, if_neg hn]; exact hr, c⟩
      · exact .inr c
    · simp only [if_neg hu]
      have hr' : (l.pass t s').args[u]? = some (some r) := by
        rw [ha]
        split
        · rw [List.getElem?_set_ne (by omega)]
          exact hr
        · exact hr
      exact ⟨hg u r hr', fun i b hb => .inl ⟨hr', hb⟩⟩

/-- A call: goroutine `t` was idle. -/
theorem patch_call {l : Lent} {t : Nat} (ht : l.s.pcs[t]? = some .idle) {op : Op} {q : PC} (g : Nat → Bytes)
    (hq : q.look (g t) = op.entry) (as : List (Option Part)) :
    Http.step (l.patch g) (.call t op) = some (({ l with s := l.s.goto t q, args := as } : Lent).patch g, [.call t op]) := by
  have hp : (l.patch g).pcs[t]? = some .idle := by
    rw [patch_get, ht]
    rfl
  simp only [Http.step, hp, if_true, Option.some.injEq, Prod.mk.injEq, and_true]
  simp only [State.goto, Lent.patch, State.mk.injEq, true_and]
  apply List.ext_getElem?
  intro u
  simp only [List.getElem?_mapIdx]
  have hp' : (l.s.pcs.mapIdx fun u pc => pc.look (g u))[t]? = some .idle := hp
  rw [set_get hp', set_get ht]
  split
  · rename_i e
    subst e
    simp [hq]
  · simp [List.getElem?_mapIdx]

/-- The bytes that the `Write`s are going to have read. -/
theorem Busy.run {l l' : Lent} (h : Lend l) (k : Busy l) {as : List LentAct} {es : List Event} (hs : l.run as = some (l', es)) :
    ∃ g es', Mixed l as es es' ∧
      (∀ (u : Nat) r, l.args[u]? = some (some r) → (g u).length = r.len ∧
        ∀ (i : Nat) b, (g u)[i]? = some b → Held u r i b l as) ∧
      ∀ pts, Inv (l.patch g) pts → ∃ s pts', Inv s pts' ∧ seen pts' = seen pts ++ es' := by
  induction as generalizing l es with
  | nil =>
    simp only [Lent.run, Option.some.injEq, Prod.mk.injEq] at hs
    obtain ⟨rfl, rfl⟩ := hs
    refine ⟨fun u => l.now u [], [], ⟨rfl, rfl⟩, ?_, fun pts i => ⟨_, pts, i, by simp⟩⟩
    intro u r hr
    simp only [now_some hr]
    exact ⟨part_length (h.args u r hr).2.1, fun i b hb => ⟨hr, hb⟩⟩
  | cons a as ih =>
    simp only [Lent.run, Option.bind_eq_bind, Option.bind_eq_some_iff, Option.pure_def, Option.some.injEq, Prod.mk.injEq,
      Prod.exists] at hs
    obtain ⟨l1, e1, h1, l2, e2, h2, rfl, rfl⟩ := hs
    have hl1 := (h.step h1).1
    -- steps that leave arguments alone
    have same : ∀ e', Busy l1 → l1.args = l.args →
        (match a with
          | .write t false r => ∃ p, e' = [.call t (.write p)] ∧ p.length = r.len ∧
            ∀ (i : Nat) b, p[i]? = some b → Held t r i b l1 as
          | _ => e' = e1) →
        (∀ g pts, Inv (l.patch g) pts → ∃ pts', Inv (l1.patch g) pts' ∧ seen pts' = seen pts ++ e') →
        ∃ g es', Mixed l (a :: as) (e1 ++ e2) es' ∧
          (∀ (u : Nat) r, l.args[u]? = some (some r) → (g u).length = r.len ∧
            ∀ (i : Nat) b, (g u)[i]? = some b → Held u r i b l (a :: as)) ∧
          ∀ pts, Inv (l.patch g) pts → ∃ s pts', Inv s pts' ∧ seen pts' = seen pts ++ es' := by
      intro e' kb ka km ki
      obtain ⟨g, rest', m, m2, m3⟩ := ih hl1 kb h2
      refine ⟨g, e' ++ rest', ⟨l1, e1, e', e2, rest', h1, rfl, rfl, m, km⟩, ?_, ?_⟩
      · intro u r hr
        obtain ⟨n1, n2⟩ := m2 u r (ka ▸ hr)
        exact ⟨n1, fun i b hb => ⟨hr, .inr ⟨l1, e1, h1, n2 i b hb⟩⟩⟩
      · intro pts i
        obtain ⟨p1, i1, s1⟩ := ki g pts i
        obtain ⟨s, p2, i2, s2⟩ := m3 p1 i1
        exact ⟨s, p2, i2, by rw [s2, s1, List.append_assoc]⟩
    cases a with
    | alloc bs =>
      simp only [Lent.step, Option.pure_def, Option.some.injEq, Prod.mk.injEq] at h1
      obtain ⟨rfl, rfl⟩ := h1
      refine same [] ⟨k.size, k.pay⟩ rfl rfl ?_
      intro g pts i
      exact ⟨pts, patch_heap h i (by simp) fun a _ c => alloc_array c, by simp⟩
    | poke x j b =>
      have h1' := h1
      simp only [Lent.step, Option.bind_eq_bind, Option.bind_eq_some_iff, Option.pure_def, Option.some.injEq, Prod.mk.injEq,
        State.poke] at h1'
      obtain ⟨_, hx, s, h3, rfl, rfl⟩ := h1'
      split at h3
      · cases h3
        refine same [] ⟨k.size, k.pay⟩ rfl rfl ?_
        intro g pts i
        refine ⟨pts, patch_heap h i (by simp) fun a m _ => ?_, by simp⟩
        exact array_modify_ne _ _ _ _ (fun e => m (e ▸ guard_some hx))
      · cases h3
    | copy t =>
      have h1' := h1
      simp only [Lent.step, Option.bind_eq_bind, Option.bind_eq_some_iff, Option.pure_def, Option.some.injEq, Prod.mk.injEq,
        Prod.exists] at h1'
      obtain ⟨s, es', h3, rfl, rfl⟩ := h1'
      obtain ⟨ht, rfl, rfl⟩ := step_call h3
      refine same _ ⟨by simp [State.goto, k.size], ?_⟩ rfl rfl fun g pts i => i.step (patch_call ht g rfl _)
      intro u pc h4 h5
      simp only [State.goto, set_get ht] at h4
      split at h4
      · cases h4
        exact absurd rfl h5
      · exact k.pay u pc h4 h5
    | reset t =>
      have h1' := h1
      simp only [Lent.step, Option.bind_eq_bind, Option.bind_eq_some_iff, Option.pure_def, Option.some.injEq, Prod.mk.injEq,
        Prod.exists] at h1'
      obtain ⟨s, es', h3, rfl, rfl⟩ := h1'
      obtain ⟨ht, rfl, rfl⟩ := step_call h3
      refine same _ ⟨by simp [State.goto, k.size], ?_⟩ rfl rfl fun g pts i => i.step (patch_call ht g rfl _)
      intro u pc h4 h5
      simp only [State.goto, set_get ht] at h4
      split at h4
      · cases h4
        exact absurd rfl h5
      · exact k.pay u pc h4 h5
    | run t spare =>
      have kb : Busy l1 := (k.run_step h h1 (fun u => l1.now u []) fun u r hr => by
        rw [now_some hr]
        exact part_length (hl1.args u r hr).2.1).1
      obtain ⟨g', rest', m, m2, m3⟩ := ih hl1 kb h2
      obtain ⟨_, g, n1, n2⟩ := k.run_step h h1 g' fun u r hr => (m2 u r hr).1
      refine ⟨g, e1 ++ rest', ⟨l1, e1, e1, e2, rest', h1, rfl, rfl, m, rfl⟩, ?_, ?_⟩
      · intro u r hr
        refine ⟨(n2 u r hr).1, fun i b hb => ⟨hr, ?_⟩⟩
        rcases (n2 u r hr).2 i b hb with ⟨c1, c2⟩ | c
        · exact .inr ⟨l1, e1, h1, (m2 u r c1).2 i b c2⟩
        · exact .inl c
      · intro pts i
        obtain ⟨p1, i1, s1⟩ := i.step n1
        obtain ⟨s, p2, i2, s2⟩ := m3 p1 i1
        exact ⟨s, p2, i2, by rw [s2, s1, List.append_assoc]⟩
    | write t fails r =>
      have h1' := h1
      simp only [Lent.step, Option.bind_eq_bind, Option.bind_eq_some_iff, Option.pure_def, Option.some.injEq, Prod.mk.injEq,
        Prod.exists] at h1'
      obtain ⟨_, hg, s, es', h3, rfl, rfl⟩ := h1'
      obtain ⟨ht, rfl, rfl⟩ := step_call h3
      have hlt : t < l.args.length := by
        rw [k.size]
        exact (List.getElem?_eq_some_iff.1 ht).1
      have kb : Busy { l with
          s := l.s.goto t (if fails = true then Op.fail (l.s.part r) else .write (l.s.part r)).entry,
          args := l.args.set t (some r) } := by
        refine ⟨by simp [State.goto, k.size], ?_⟩
        intro u pc h4 h5
        simp only [State.goto, set_get ht] at h4
        split at h4
        · rename_i e
          subst e
          exact ⟨r, by simp [hlt]⟩
        · rename_i e
          obtain ⟨r', h6⟩ := k.pay u pc h4 h5
          exact ⟨r', by rw [List.getElem?_set_ne e]; exact h6⟩
      obtain ⟨g', rest', m, m2, m3⟩ := ih hl1 kb h2
      -- the bytes of the new call do not matter before it
      let g : Nat → Bytes := fun u => if u = t then l.now t [] else g' u
      have hgg : l.patch g = l.patch g' := by
        simp only [Lent.patch, State.mk.injEq, true_and]
        apply List.ext_getElem?
        intro u
        simp only [List.getElem?_mapIdx]
        by_cases hu : u = t
        · subst hu
          rw [ht]
          rfl
        · simp only [g, if_neg hu]
      have hgs : ∀ (u : Nat) r', l.args[u]? = some (some r') → (g u).length = r'.len ∧
          ∀ (i : Nat) b, (g u)[i]? = some b → Held u r' i b l (.write t fails r :: as) := by
        intro u r' hr
        by_cases hu : u = t
        · subst hu
          simp only [g, if_true, now_some hr]
          exact ⟨part_length (h.args u r' hr).2.1, fun i b hb => ⟨hr, .inl hb⟩⟩
        · simp only [g, if_neg hu]
          obtain ⟨n1, n2⟩ := m2 u r' (by simp only [List.getElem?_set_ne (Ne.symm hu)]; exact hr)
          exact ⟨n1, fun i b hb => ⟨hr, .inr ⟨_, _, h1, n2 i b hb⟩⟩⟩
      obtain ⟨n1, n2⟩ := m2 t r (by simp [hlt])
      cases fails with
      | true =>
        refine ⟨g, _, ⟨_, _, _, e2, rest', h1, rfl, rfl, m, rfl⟩, hgs, ?_⟩
        intro pts i
        rw [hgg] at i
        obtain ⟨p1, i1, s1⟩ := i.step (patch_call ht g' (op := .fail (l.s.part r)) (q := .fWait (l.s.part r)) rfl
          (l.args.set t (some r)))
        obtain ⟨s, p2, i2, s2⟩ := m3 p1 i1
        exact ⟨s, p2, i2, by rw [s2, s1, List.append_assoc]; rfl⟩
      | false =>
        refine ⟨g, _, ⟨_, _, [.call t (.write (g' t))], e2, rest', h1, rfl, rfl, m, g' t, rfl, n1, n2⟩, hgs, ?_⟩
        intro pts i
        rw [hgg] at i
        obtain ⟨p1, i1, s1⟩ := i.step (patch_call ht g' (op := .write (g' t)) (q := .wWait (l.s.part r)) rfl
          (l.args.set t (some r)))
        obtain ⟨s, p2, i2, s2⟩ := m3 p1 i1
        exact ⟨s, p2, i2, by rw [s2, s1, List.append_assoc]⟩

/-- The bytes of slices that nobody writes to are those they had before. -/
theorem Untouched.held {l : Lent} (h : Lend l) {t : Nat} {r : Part} {i : Nat} {b : UInt8} {as : List LentAct}
    (k : Untouched t r l as) (hh : Held t r i b l as) : (l.s.part r)[i]? = some b := by
  induction as generalizing l with
  | nil => exact hh.2
  | cons a as ih =>
    obtain ⟨h1, h2 | ⟨l', e, h2, h3⟩⟩ := hh
    · exact h2
    · obtain ⟨k1, k2⟩ := k h1
      rw [← h.part h1 h2 k1]
      exact ih (h.step h2).1 (k2 _ _ h2) h3

end SMC.Http
