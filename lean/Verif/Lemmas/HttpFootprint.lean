import Verif.Spec.Race
import Verif.Lemmas.Http
/-!
# Footprints of the steps of the buffer machine
-/

namespace SMC.Http

theorem elem_mem {a j n : Nat} (h : j < n) : Loc.elem a j ∈ elems a n :=
  List.mem_map.2 ⟨j, List.mem_range.2 h, rfl⟩

theorem goto_cell (s : State) (t : Nat) (q : PC) (l : Loc) : (s.goto t q).cell l = s.cell l := by
  cases l <;> rfl

theorem array_new (h : List Bytes) (x : Bytes) : (h ++ [x])[h.length]?.getD [] = x := by simp

theorem array_beyond {h : List Bytes} {d : Nat} (hd : h.length ≤ d) : h[d]?.getD [] = [] := by
  rw [List.getElem?_eq_none hd]; rfl

/-- An allocation changes only the new array. -/
theorem cell_append (h : List Bytes) (x : Bytes) (a j : Nat)
    (hne : ((h ++ [x])[a]?.getD [])[j]? ≠ (h[a]?.getD [])[j]?) : a = h.length ∧ j < x.length := by
  by_cases ha : a < h.length
  · rw [List.getElem?_append_left ha] at hne; exact absurd rfl hne
  · by_cases e : a = h.length
    · subst e
      refine ⟨rfl, ?_⟩
      rw [array_new, array_beyond (Nat.le_refl _)] at hne
      by_cases hj : j < x.length
      · exact hj
      · rw [List.getElem?_eq_none (by omega)] at hne; simp at hne
    · rw [array_beyond (by simp; omega), array_beyond (by omega)] at hne
      exact absurd rfl hne

/-- An assignment changes only its byte. -/
theorem cell_modify (h : List Bytes) (d i : Nat) (b : UInt8) (a j : Nat)
    (hne : ((h.modify d (·.set i b))[a]?.getD [])[j]? ≠ (h[a]?.getD [])[j]?) : a = d ∧ j = i := by
  by_cases e : d = a
  · subst e
    refine ⟨rfl, ?_⟩
    rw [array_modify_eq] at hne
    by_cases ej : j = i
    · exact ej
    · rw [List.getElem?_set_ne (Ne.symm ej)] at hne; exact absurd rfl hne
  · rw [array_modify_ne _ _ _ _ e] at hne; exact absurd rfl hne

theorem poke_eq {s s' : State} {a i : Nat} {b : UInt8} (h : s.poke a i b = some s') :
    s' = { s with heap := s.heap.modify a (·.set i b) } := by
  unfold State.poke at h
  split at h
  · cases h; rfl
  · cases h

theorem writes_footprint {s s' : State} {t spare : Nat} {pc : PC} {es : List Event}
    (hs : s.next t spare pc = some (s', es)) (l : Loc) (hne : s'.cell l ≠ s.cell l) :
    .write l ∈ pc.actions s spare := by
  cases pc with
  | idle => cases hs
  | wWait p | fWait p | cWait | rWait =>
    simp only [State.next, State.lock, Option.bind_eq_bind, Option.bind_eq_some_iff, Option.pure_def,
      Option.some.injEq, Prod.mk.injEq] at hs
    obtain ⟨s1, h1, rfl, rfl⟩ := hs
    split at h1
    · cases h1
    · cases h1
      rw [goto_cell] at hne
      exact absurd (by cases l <;> rfl) hne
  | wDone p | fDone p | rDone | cDone =>
    simp only [State.next, State.unlock, Option.bind_eq_bind, Option.bind_eq_some_iff, Option.pure_def,
      Option.some.injEq, Prod.mk.injEq] at hs
    obtain ⟨s1, h1, rfl, rfl⟩ := hs
    split at h1
    · cases h1
      rw [goto_cell] at hne
      exact absurd (by cases l <;> rfl) hne
    · cases h1
  | wGrow p =>
    simp only [State.next, Option.pure_def, Option.some.injEq, Prod.mk.injEq] at hs
    obtain ⟨rfl, rfl⟩ := hs
    rw [goto_cell] at hne
    cases l with
    | header => simp [PC.actions]
    | elem a j =>
      simp only [State.grow] at hne
      split at hne
      · exact absurd rfl hne
      · rename_i hc
        have hne' : ((s.heap ++ [s.contents ++ zeros (p.length + spare)])[a]?.getD [])[j]? ≠ (s.heap[a]?.getD [])[j]? :=
          fun e => hne (congrArg Cell.byte e)
        obtain ⟨rfl, hj⟩ := cell_append _ _ _ _ hne'
        have hcl : s.contents.length ≤ s.len := by
          unfold State.contents
          split
          · simp
          · rw [List.length_take]; omega
        simp only [List.length_append, zeros, List.length_replicate] at hj
        simp only [PC.actions, if_neg hc, List.mem_append]
        exact .inr (.inr (List.mem_map.2 ⟨_, elem_mem (by omega), rfl⟩))
  | wCopy p m i =>
    cases hi : p[i]? with
    | none =>
      simp only [State.next, hi, Option.pure_def, Option.some.injEq, Prod.mk.injEq] at hs
      obtain ⟨rfl, rfl⟩ := hs
      rw [goto_cell] at hne
      exact absurd rfl hne
    | some b =>
      simp only [State.next, hi, Option.bind_eq_bind, Option.bind_eq_some_iff, Option.pure_def,
        Option.some.injEq, Prod.mk.injEq] at hs
      obtain ⟨a, ha, s1, h1, rfl, rfl⟩ := hs
      obtain rfl := poke_eq h1
      rw [goto_cell] at hne
      cases l with
      | header => exact absurd rfl hne
      | elem a' j =>
        have hne' : ((s.heap.modify a (·.set (m + i) b))[a']?.getD [])[j]? ≠ (s.heap[a']?.getD [])[j]? :=
          fun e => hne (congrArg Cell.byte e)
        obtain ⟨rfl, rfl⟩ := cell_modify _ _ _ _ _ _ hne'
        have hi' : i < p.length := (List.getElem?_eq_some_iff.1 hi).1
        simp [PC.actions, hi', ha]
  | fGrow p =>
    simp only [State.next, Option.pure_def, Option.some.injEq, Prod.mk.injEq] at hs
    obtain ⟨rfl, rfl⟩ := hs
    rw [goto_cell] at hne
    exact absurd rfl hne
  | cBytes =>
    simp only [State.next, Option.pure_def, Option.some.injEq, Prod.mk.injEq] at hs
    obtain ⟨rfl, rfl⟩ := hs
    rw [goto_cell] at hne
    exact absurd rfl hne
  | cMake src n =>
    simp only [State.next, Option.pure_def, Option.some.injEq, Prod.mk.injEq] at hs
    obtain ⟨rfl, rfl⟩ := hs
    rw [goto_cell] at hne
    cases l with
    | header => exact absurd rfl hne
    | elem a j =>
      have hne' : ((s.heap ++ [zeros n])[a]?.getD [])[j]? ≠ (s.heap[a]?.getD [])[j]? :=
        fun e => hne (congrArg Cell.byte e)
      obtain ⟨rfl, hj⟩ := cell_append _ _ _ _ hne'
      simp only [zeros, List.length_replicate] at hj
      exact List.mem_map.2 ⟨_, elem_mem hj, rfl⟩
  | cCopy src n dst i =>
    by_cases hi : i < n
    · simp only [State.next, hi, if_true, Option.bind_eq_bind, Option.bind_eq_some_iff, Option.pure_def,
        Option.some.injEq, Prod.mk.injEq] at hs
      obtain ⟨a, rfl, b, hb, s1, h1, rfl, rfl⟩ := hs
      obtain rfl := poke_eq h1
      rw [goto_cell] at hne
      cases l with
      | header => exact absurd rfl hne
      | elem a' j =>
        have hne' : ((s.heap.modify dst (·.set i b))[a']?.getD [])[j]? ≠ (s.heap[a']?.getD [])[j]? :=
          fun e => hne (congrArg Cell.byte e)
        obtain ⟨rfl, rfl⟩ := cell_modify _ _ _ _ _ _ hne'
        simp [PC.actions, hi]
    · simp only [State.next, hi, if_false, Option.pure_def, Option.some.injEq, Prod.mk.injEq] at hs
      obtain ⟨rfl, rfl⟩ := hs
      rw [goto_cell] at hne
      exact absurd rfl hne
  | rSet =>
    simp only [State.next, Option.pure_def, Option.some.injEq, Prod.mk.injEq] at hs
    obtain ⟨rfl, rfl⟩ := hs
    rw [goto_cell] at hne
    cases l with
    | header => simp [PC.actions]
    | elem a j => exact absurd rfl hne
  | out r =>
    simp only [State.next, Option.pure_def, Option.some.injEq, Prod.mk.injEq] at hs
    obtain ⟨rfl, rfl⟩ := hs
    rw [goto_cell] at hne
    exact absurd rfl hne

theorem lock_footprint {s s' : State} {t spare : Nat} {pc : PC} {es : List Event}
    (hs : s.next t spare pc = some (s', es)) :
    (s.locked = false ∧ s'.locked = true ↔ pc.actions s spare = [.acquire]) ∧
    (s.locked = true ∧ s'.locked = false ↔ pc.actions s spare = [.release]) := by
  have same : s'.locked = s.locked → .acquire ∉ pc.actions s spare → .release ∉ pc.actions s spare →
      (s.locked = false ∧ s'.locked = true ↔ pc.actions s spare = [.acquire]) ∧
      (s.locked = true ∧ s'.locked = false ↔ pc.actions s spare = [.release]) := by
    intro e h1 h2
    rw [e]
    refine ⟨⟨fun h => ?_, fun h => ?_⟩, ⟨fun h => ?_, fun h => ?_⟩⟩
    · rw [h.1] at h; cases h.2
    · rw [h] at h1; simp at h1
    · rw [h.1] at h; cases h.2
    · rw [h] at h2; simp at h2
  have noacq : ∀ (f : Loc → Action) (ls : List Loc) (x : Action), (∀ l, f l ≠ x) → x ∉ ls.map f := by
    intro f ls x hx m
    obtain ⟨l, _, e⟩ := List.mem_map.1 m
    exact hx l e
  cases pc with
  | idle => cases hs
  | wWait p | fWait p | cWait | rWait =>
    simp only [State.next, State.lock, Option.bind_eq_bind, Option.bind_eq_some_iff, Option.pure_def,
      Option.some.injEq, Prod.mk.injEq] at hs
    obtain ⟨s1, h1, rfl, rfl⟩ := hs
    split at h1
    · cases h1
    · rename_i hl
      cases h1
      simp [PC.actions, State.goto, hl]
  | wDone p | fDone p | rDone | cDone =>
    simp only [State.next, State.unlock, Option.bind_eq_bind, Option.bind_eq_some_iff, Option.pure_def,
      Option.some.injEq, Prod.mk.injEq] at hs
    obtain ⟨s1, h1, rfl, rfl⟩ := hs
    split at h1
    · rename_i hl
      cases h1
      simp [PC.actions, State.goto, hl]
    · cases h1
  | wGrow p =>
    simp only [State.next, Option.pure_def, Option.some.injEq, Prod.mk.injEq] at hs
    obtain ⟨rfl, rfl⟩ := hs
    refine same ?_ ?_ ?_
    · simp only [State.goto, State.grow]; split <;> rfl
    all_goals
      simp only [PC.actions]
      split
      · simp
      · simp only [List.mem_append, List.mem_cons, List.not_mem_nil, or_false, reduceCtorEq, false_or, not_or]
        refine ⟨?_, noacq _ _ _ (by simp)⟩
        split
        · simp
        · exact noacq _ _ _ (by simp)
  | wCopy p m i =>
    cases hi : p[i]? with
    | none =>
      simp only [State.next, hi, Option.pure_def, Option.some.injEq, Prod.mk.injEq] at hs
      obtain ⟨rfl, rfl⟩ := hs
      have : ¬ i < p.length := by rw [List.getElem?_eq_none_iff] at hi; omega
      exact same rfl (by simp [PC.actions, this]) (by simp [PC.actions, this])
    | some b =>
      simp only [State.next, hi, Option.bind_eq_bind, Option.bind_eq_some_iff, Option.pure_def,
        Option.some.injEq, Prod.mk.injEq] at hs
      obtain ⟨a, ha, s1, h1, rfl, rfl⟩ := hs
      obtain rfl := poke_eq h1
      have hi' : i < p.length := (List.getElem?_eq_some_iff.1 hi).1
      exact same rfl (by simp [PC.actions, hi', ha]) (by simp [PC.actions, hi', ha])
  | fGrow p =>
    simp only [State.next, Option.pure_def, Option.some.injEq, Prod.mk.injEq] at hs
    obtain ⟨rfl, rfl⟩ := hs
    exact same rfl (by simp [PC.actions]) (by simp [PC.actions])
  | cBytes =>
    simp only [State.next, Option.pure_def, Option.some.injEq, Prod.mk.injEq] at hs
    obtain ⟨rfl, rfl⟩ := hs
    exact same rfl (by simp [PC.actions]) (by simp [PC.actions])
  | cMake src n =>
    simp only [State.next, Option.pure_def, Option.some.injEq, Prod.mk.injEq] at hs
    obtain ⟨rfl, rfl⟩ := hs
    exact same rfl (noacq _ _ _ (by simp)) (noacq _ _ _ (by simp))
  | cCopy src n dst i =>
    by_cases hi : i < n
    · simp only [State.next, hi, if_true, Option.bind_eq_bind, Option.bind_eq_some_iff, Option.pure_def,
        Option.some.injEq, Prod.mk.injEq] at hs
      obtain ⟨a, rfl, b, hb, s1, h1, rfl, rfl⟩ := hs
      obtain rfl := poke_eq h1
      exact same rfl (by simp [PC.actions, hi]) (by simp [PC.actions, hi])
    · simp only [State.next, hi, if_false, Option.pure_def, Option.some.injEq, Prod.mk.injEq] at hs
      obtain ⟨rfl, rfl⟩ := hs
      exact same rfl (by simp [PC.actions, hi]) (by simp [PC.actions, hi])
  | rSet =>
    simp only [State.next, Option.pure_def, Option.some.injEq, Prod.mk.injEq] at hs
    obtain ⟨rfl, rfl⟩ := hs
    exact same rfl (by simp [PC.actions]) (by simp [PC.actions])
  | out r =>
    simp only [State.next, Option.pure_def, Option.some.injEq, Prod.mk.injEq] at hs
    obtain ⟨rfl, rfl⟩ := hs
    cases r with
    | copy => exact same rfl (noacq _ _ _ (by simp)) (noacq _ _ _ (by simp))
    | _ => exact same rfl (by simp [PC.actions]) (by simp [PC.actions])

/-! ## Reads -/

theorem SameShape.size {s r : State} (h : SameShape s r) (a : Nat) : (s.array a).length = (r.array a).length := by
  have e : (s.heap.map List.length)[a]? = (r.heap.map List.length)[a]? := by rw [h.2.2]
  simp only [List.getElem?_map] at e
  simp only [State.array]
  cases h1 : s.heap[a]? <;> cases h2 : r.heap[a]? <;> simp_all

theorem SameShape.count {s r : State} (h : SameShape s r) : s.heap.length = r.heap.length := by
  have := congrArg List.length h.2.2
  simpa using this

theorem take_agree {l k : Bytes} {n : Nat} (h : ∀ j, j < n → l[j]? = k[j]?) : l.take n = k.take n := by
  apply List.ext_getElem?
  intro j
  rw [List.getElem?_take, List.getElem?_take]
  split
  · rename_i hj; exact h j hj
  · rfl

/-- The same step in two states. -/
def SameStep (s r : State) (t spare : Nat) (pc : PC) : Prop :=
  ∀ s' es, s.next t spare pc = some (s', es) → ∃ r', r.next t spare pc = some (r', es) ∧ SameShape s' r' ∧
    ∀ l, .write l ∈ pc.actions s spare → s'.cell l = r'.cell l

theorem header_agree {s r : State} (h : s.cell .header = r.cell .header) : s.arr = r.arr ∧ s.len = r.len := by
  simpa [State.cell] using h

theorem shape_modify {s r : State} (hs : SameShape s r) (a i : Nat) (b : UInt8) :
    (s.heap.modify a (·.set i b)).map List.length = (r.heap.modify a (·.set i b)).map List.length := by
  have f : ∀ h : List Bytes, (h.modify a (·.set i b)).map List.length = h.map List.length := by
    intro h
    apply List.ext_getElem?
    intro j
    simp only [List.getElem?_map, List.getElem?_modify]
    by_cases e : a = j
    · subst e
      cases h[a]? <;> simp
    · simp [e]
  rw [f, f, hs.2.2]

theorem reads_footprint {s r : State} (hsh : SameShape s r) {t spare : Nat} {pc : PC}
    (hr : ∀ l, .read l ∈ pc.actions s spare → s.cell l = r.cell l) : SameStep s r t spare pc := by
  obtain ⟨hl, hp, hh⟩ := hsh
  have hsh : SameShape s r := ⟨hl, hp, hh⟩
  intro s' es hs
  cases pc with
  | idle => cases hs
  | wWait p | fWait p | cWait | rWait =>
    simp only [State.next, State.lock, Option.bind_eq_bind, Option.bind_eq_some_iff, Option.pure_def,
      Option.some.injEq, Prod.mk.injEq] at hs
    obtain ⟨s1, h1, rfl, rfl⟩ := hs
    split at h1
    · cases h1
    · rename_i hlk
      cases h1
      refine ⟨_, by simp only [State.next, State.lock, ← hl, if_neg hlk]; rfl, ?_⟩
      refine ⟨⟨rfl, by simp [State.goto, hp], hh⟩, ?_⟩
      intro l m
      simp [PC.actions] at m
  | wDone p | fDone p | rDone | cDone =>
    simp only [State.next, State.unlock, Option.bind_eq_bind, Option.bind_eq_some_iff, Option.pure_def,
      Option.some.injEq, Prod.mk.injEq] at hs
    obtain ⟨s1, h1, rfl, rfl⟩ := hs
    split at h1
    · rename_i hlk
      cases h1
      refine ⟨_, by simp only [State.next, State.unlock, ← hl, if_pos hlk]; rfl, ?_⟩
      refine ⟨⟨rfl, by simp [State.goto, hp], hh⟩, ?_⟩
      intro l m
      simp [PC.actions] at m
    · cases h1
  | wGrow p =>
    obtain ⟨e1, e2⟩ := header_agree (hr .header (by simp [PC.actions]))
    simp only [State.next, Option.pure_def, Option.some.injEq, Prod.mk.injEq] at hs
    obtain ⟨rfl, rfl⟩ := hs
    refine ⟨_, by rw [State.next]; rfl, ?_⟩
    have ecap : s.cap = r.cap := by
      unfold State.cap
      rw [← e1]
      split
      · rfl
      · exact hsh.size _
    by_cases hc : s.len + p.length ≤ s.cap
    · have hc' : r.len + p.length ≤ r.cap := by rw [← e2, ← ecap]; exact hc
      have hg : s.grow p.length spare = { s with len := s.len + p.length } := by simp only [State.grow, if_pos hc]
      have hg' : r.grow p.length spare = { r with len := r.len + p.length } := by simp only [State.grow, if_pos hc']
      rw [hg, hg']
      refine ⟨⟨hl, by simp [State.goto, hp, e2], hh⟩, ?_⟩
      · intro l m
        simp only [PC.actions, if_pos hc, List.append_nil, List.mem_cons, List.not_mem_nil, or_false, reduceCtorEq,
          false_or, Action.write.injEq] at m
        subst m
        rw [goto_cell, goto_cell]
        simp only [State.cell, e1, e2]
    · have hc' : ¬ r.len + p.length ≤ r.cap := by rw [← e2, ← ecap]; exact hc
      have econt : s.contents = r.contents := by
        unfold State.contents
        rw [← e1]
        split
        · rfl
        · rename_i a ha
          rw [← e2]
          refine take_agree fun j hj => ?_
          have := hr (.elem a j) (by
            simp only [PC.actions, if_neg hc, List.mem_append, ha]
            exact .inr (.inl (List.mem_map.2 ⟨_, elem_mem hj, rfl⟩)))
          simpa [State.cell] using this
      have hg : s.grow p.length spare = ⟨s.locked, some s.heap.length, s.len + p.length,
          s.heap ++ [s.contents ++ zeros (p.length + spare)], s.pcs⟩ := by simp only [State.grow, if_neg hc]
      have hg' : r.grow p.length spare = ⟨r.locked, some r.heap.length, r.len + p.length,
          r.heap ++ [r.contents ++ zeros (p.length + spare)], r.pcs⟩ := by simp only [State.grow, if_neg hc']
      rw [hg, hg']
      refine ⟨⟨hl, by simp [State.goto, hp, e2], by simp [State.goto, hh, econt]⟩, ?_⟩
      · intro l m
        rw [goto_cell, goto_cell]
        simp only [PC.actions, if_neg hc, List.mem_append, List.mem_cons, List.not_mem_nil, or_false, reduceCtorEq,
          false_or, Action.write.injEq] at m
        rcases m with rfl | m | m
        · simp only [State.cell, e2, hsh.count]
        · split at m
          · cases m
          · obtain ⟨_, _, e⟩ := List.mem_map.1 m
            cases e
        · obtain ⟨l', hl', e⟩ := List.mem_map.1 m
          cases e
          obtain ⟨j, _, rfl⟩ := List.mem_map.1 hl'
          have a1 : (s.heap ++ [s.contents ++ zeros (p.length + spare)])[s.heap.length]?.getD [] =
              s.contents ++ zeros (p.length + spare) := array_new _ _
          have a2 : (r.heap ++ [r.contents ++ zeros (p.length + spare)])[s.heap.length]?.getD [] =
              r.contents ++ zeros (p.length + spare) := by rw [hsh.count]; exact array_new _ _
          simp only [State.cell, State.array]
          rw [a1, a2, econt]
  | wCopy p m i =>
    cases hi : p[i]? with
    | none =>
      simp only [State.next, hi, Option.pure_def, Option.some.injEq, Prod.mk.injEq] at hs
      obtain ⟨rfl, rfl⟩ := hs
      have : ¬ i < p.length := by rw [List.getElem?_eq_none_iff] at hi; omega
      refine ⟨_, by simp only [State.next, hi]; rfl, ?_⟩
      refine ⟨⟨hl, by simp [State.goto, hp], hh⟩, ?_⟩
      intro l m
      simp [PC.actions, this] at m
    | some b =>
      have hi' : i < p.length := (List.getElem?_eq_some_iff.1 hi).1
      simp only [State.next, hi, Option.bind_eq_bind, Option.bind_eq_some_iff, Option.pure_def,
        Option.some.injEq, Prod.mk.injEq] at hs
      obtain ⟨a, ha, s1, h1, rfl, rfl⟩ := hs
      obtain ⟨e1, e2⟩ := header_agree (hr .header (by simp [PC.actions, hi']))
      have hb : m + i < (s.array a).length := by
        unfold State.poke at h1
        split at h1
        · assumption
        · cases h1
      obtain rfl := poke_eq h1
      have hb' : m + i < (r.array a).length := by rw [← hsh.size]; exact hb
      refine ⟨_, by
        simp only [State.next, hi, ← e1, ha, State.poke, if_pos hb', Option.bind_eq_bind, Option.bind_some]
        rfl, ?_⟩
      refine ⟨⟨hl, by simp [State.goto, hp], shape_modify hsh ..⟩, ?_⟩
      intro l mm
      simp only [PC.actions, if_pos hi', ha, List.mem_cons, List.not_mem_nil, or_false, reduceCtorEq, false_or,
        Action.write.injEq] at mm
      subst mm
      rw [goto_cell, goto_cell]
      simp only [State.cell, State.array]
      rw [array_modify_eq, array_modify_eq]
      change Cell.byte ((s.array a).set (m + i) b)[m + i]? = Cell.byte ((r.array a).set (m + i) b)[m + i]?
      rw [List.getElem?_set_self hb, List.getElem?_set_self hb']
  | fGrow p =>
    have e := hr .header (by simp [PC.actions])
    simp only [State.next, Option.pure_def, Option.some.injEq, Prod.mk.injEq] at hs
    obtain ⟨rfl, rfl⟩ := hs
    refine ⟨_, by rw [State.next]; rfl, ?_⟩
    refine ⟨⟨hl, by simp [State.goto, hp], hh⟩, ?_⟩
    intro l m
    simp only [PC.actions, List.mem_cons, List.not_mem_nil, or_false, reduceCtorEq, false_or, Action.write.injEq] at m
    subst m
    rw [goto_cell, goto_cell]
    exact e
  | cBytes =>
    obtain ⟨e1, e2⟩ := header_agree (hr .header (by simp [PC.actions]))
    simp only [State.next, Option.pure_def, Option.some.injEq, Prod.mk.injEq] at hs
    obtain ⟨rfl, rfl⟩ := hs
    refine ⟨_, by rw [State.next]; rfl, ?_⟩
    refine ⟨⟨hl, by simp [State.goto, hp, e1, e2], hh⟩, ?_⟩
    intro l m
    simp [PC.actions] at m
  | cMake src n =>
    simp only [State.next, Option.pure_def, Option.some.injEq, Prod.mk.injEq] at hs
    obtain ⟨rfl, rfl⟩ := hs
    refine ⟨_, by rw [State.next]; rfl, ?_⟩
    refine ⟨⟨hl, by simp [State.goto, hp, hsh.count], by simp [State.goto, hh]⟩, ?_⟩
    intro l m
    obtain ⟨l', hl', e⟩ := List.mem_map.1 m
    cases e
    obtain ⟨j, _, rfl⟩ := List.mem_map.1 hl'
    rw [goto_cell, goto_cell]
    have a1 : (s.heap ++ [zeros n])[s.heap.length]?.getD [] = zeros n := by simp
    have a2 : (r.heap ++ [zeros n])[s.heap.length]?.getD [] = zeros n := by rw [hsh.count]; simp
    simp only [State.cell, State.array, a1, a2]
  | cCopy src n dst i =>
    by_cases hi : i < n
    · simp only [State.next, hi, if_true, Option.bind_eq_bind, Option.bind_eq_some_iff, Option.pure_def,
        Option.some.injEq, Prod.mk.injEq] at hs
      obtain ⟨a, rfl, b, hb, s1, h1, rfl, rfl⟩ := hs
      have eb := hr (.elem a i) (by simp [PC.actions, hi])
      simp only [State.cell, Cell.byte.injEq] at eb
      have hd : i < (s.array dst).length := by
        unfold State.poke at h1
        split at h1
        · assumption
        · cases h1
      obtain rfl := poke_eq h1
      have hd' : i < (r.array dst).length := by rw [← hsh.size]; exact hd
      refine ⟨_, by
        simp only [State.next, hi, if_true, Option.bind_eq_bind, Option.bind_some, ← eb, hb, State.poke, if_pos hd']
        rfl, ?_⟩
      refine ⟨⟨hl, by simp [State.goto, hp], shape_modify hsh ..⟩, ?_⟩
      intro l mm
      simp only [PC.actions, if_pos hi, List.mem_cons, List.not_mem_nil, or_false, reduceCtorEq, false_or,
        Action.write.injEq] at mm
      subst mm
      rw [goto_cell, goto_cell]
      simp only [State.cell, State.array]
      rw [array_modify_eq, array_modify_eq]
      change Cell.byte ((s.array dst).set i b)[i]? = Cell.byte ((r.array dst).set i b)[i]?
      rw [List.getElem?_set_self hd, List.getElem?_set_self hd']
    · simp only [State.next, hi, if_false, Option.pure_def, Option.some.injEq, Prod.mk.injEq] at hs
      obtain ⟨rfl, rfl⟩ := hs
      refine ⟨_, by simp only [State.next, hi, if_false]; rfl, ?_⟩
      refine ⟨⟨hl, by simp [State.goto, hp], hh⟩, ?_⟩
      intro l m
      simp [PC.actions, hi] at m
  | rSet =>
    simp only [State.next, Option.pure_def, Option.some.injEq, Prod.mk.injEq] at hs
    obtain ⟨rfl, rfl⟩ := hs
    refine ⟨_, by rw [State.next]; rfl, ?_⟩
    refine ⟨⟨hl, by simp [State.goto, hp], hh⟩, ?_⟩
    intro l m
    simp only [PC.actions, List.mem_cons, List.not_mem_nil, or_false, Action.write.injEq] at m
    subst m
    rfl
  | out v =>
    simp only [State.next, Option.pure_def, Option.some.injEq, Prod.mk.injEq] at hs
    obtain ⟨rfl, rfl⟩ := hs
    have ev : s.value v = r.value v := by
      cases v with
      | copy d n =>
        simp only [State.value]
        refine congrArg Val.copied (take_agree fun j hj => ?_)
        have := hr (.elem d j) (List.mem_map.2 ⟨_, elem_mem hj, rfl⟩)
        simpa [State.cell] using this
      | _ => rfl
    refine ⟨_, by rw [State.next, ev]; rfl, ?_⟩
    refine ⟨⟨hl, by simp [State.goto, hp], hh⟩, ?_⟩
    intro l m
    cases v with
    | copy d n =>
      obtain ⟨_, _, e⟩ := List.mem_map.1 m
      cases e
    | _ => simp [PC.actions] at m

end SMC.Http
