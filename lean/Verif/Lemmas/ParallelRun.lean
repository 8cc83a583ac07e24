import Verif.Lemmas.Parallel
import Verif.Lemmas.HeapLater
/-!
# What a goroutine does among others is what it does alone
-/

namespace SMC

open Spec HGo

/-- more has been logged before -/
def Go.logged {α : Type} (l : List Bytes) (x : Go α) : Go α := Go.bind (.ret l ()) fun _ => x

theorem Go.logged_panic {α : Type} (l k : List Bytes) : (Go.panic k : Go α).logged l = .panic (l ++ k) := rfl

theorem Go.logged_ret {α : Type} (l k : List Bytes) (a : α) : (Go.ret k a).logged l = .ret (l ++ k) a := rfl

theorem Go.logged_bind {α β : Type} (l k : List Bytes) (b : β) (f : β → Go α) :
    (Go.bind (.ret k b) f).logged l = (f b).logged (l ++ k) := by
  simp only [Go.logged, Go.bind]
  cases f b <;> simp

theorem List.modify_append_right {α : Type} (a b : List α) (i : Nat) (f : α → α) (h : a.length ≤ i) :
    (a ++ b).modify i f = a ++ b.modify (i - a.length) f := by
  induction a generalizing i with
  | nil => rfl
  | cons x a ih =>
    cases i with
    | zero => simp at h
    | succ i =>
      simp only [List.length_cons, Nat.add_le_add_iff_right] at h
      simp [ih i h]

theorem Heap.getD_append_left (a b : Heap) (i : Nat) (h : i < a.length) : (a ++ b).getD i [] = a.getD i [] := by
  simp [List.getD, List.getElem?_append_left h]

theorem Heap.getD_append_right (a b : Heap) (i : Nat) (h : a.length ≤ i) :
    (a ++ b).getD i [] = b.getD (i - a.length) [] := by
  simp [List.getD, List.getElem?_append_right h]

/-- What is seen through a reference to the buffer or to an own array is the same whatever the
other shared arrays are. -/
theorem slice_shared {a : Nat} {H h own : Heap} {r : Ref} (hl : H.length = h.length)
    (ha : H.getD a [] = h.getD a []) (hr : r.Okay h.length (· = a)) :
    Heap.slice (H ++ own) r = Heap.slice (h ++ own) r := by
  have : List.getD (H ++ own) r.arr [] = List.getD (h ++ own) r.arr [] := by
    by_cases h1 : r.arr < h.length
    · rw [Heap.getD_append_left _ _ _ h1, Heap.getD_append_left _ _ _ (by omega)]
      rcases hr with hr | hr
      · rw [hr, ha]
      · omega
    · rw [Heap.getD_append_right _ _ _ (by omega), Heap.getD_append_right _ _ _ (by omega), hl]
  simp only [Heap.slice]
  rw [this]

theorem copy_shared {a : Nat} {H h own : Heap} {dst src : Ref} (hl : H.length = h.length)
    (ha : H.getD a [] = h.getD a []) (hd : h.length ≤ dst.arr) (hs : src.Okay h.length (· = a)) :
    ∃ own', Heap.copy (H ++ own) dst src = H ++ own' ∧ Heap.copy (h ++ own) dst src = h ++ own' := by
  unfold Heap.copy Heap.bytes
  rw [slice_shared hl ha hs]
  refine ⟨_, List.modify_append_right _ _ _ _ (by omega), ?_⟩
  rw [hl]
  exact List.modify_append_right _ _ _ _ hd

/-- the number of steps left -/
def left (h : Heap) (t : Task) : Nat :=
  match t.todo with
  | none => 0
  | some x => stepsOf x (h ++ t.own)

/-- What a goroutine has done and what it has to do together are `solo`, when it is alone with the
memory `h`; it looks at no shared array but `a`. -/
def Same (h : Heap) (a : Nat) (solo : Go (Parsed × Heap)) (t : Task) : Prop :=
  match t.todo with
  | none => solo = .panic t.log
  | some x => x.Within h.length (· = a) (fun _ => True) ∧ solo = (x (h ++ t.own)).logged t.log

theorem Same.start (h : Heap) (j : Job) : Same h j.buf.arr (j.code h) { todo := some j.code } := by
  refine ⟨Job.code_within _ j, ?_⟩
  show _ = Go.logged [] (j.code (h ++ []))
  rw [List.append_nil]
  cases j.code h <;> rfl

theorem Same.after {h : Heap} {a : Nat} {solo : Go (Parsed × Heap)} {t : Task} {β : Type} {x : Go β}
    {k : β → HGo Parsed} (hw : ∀ l b, x = .ret l b → (k b).Within h.length (· = a) fun _ => True)
    (he : solo = (Go.bind x fun b => (k b) (h ++ t.own)).logged t.log) : Same h a solo (t.after x k) := by
  cases x with
  | panic l => exact he
  | ret l b => exact ⟨hw l b rfl, he.trans (Go.logged_bind ..)⟩

/-- A step changes no shared array, and is the step of a goroutine that is alone. -/
theorem Same.step {H h H' : Heap} {a : Nat} {solo : Go (Parsed × Heap)} {t t' : Task} (hl : H.length = h.length)
    (ha : H.getD a [] = h.getD a []) (hs : Same h a solo t) (ht : t.step H = some (H', t')) :
    H' = H ∧ Same h a solo t' ∧ left h t' + 1 = left h t := by
  obtain ⟨own, log, todo⟩ := t
  cases todo with
  | none => cases ht
  | some x =>
    obtain ⟨hw, he⟩ := hs
    cases x with
    | done r => cases ht
    | comp x k =>
      cases ht
      refine ⟨rfl, Same.after hw he, ?_⟩
      cases x <;> rfl
    | look r f k =>
      cases ht
      have e := slice_shared (own := own) hl ha hw.1
      refine ⟨rfl, ?_, ?_⟩
      · dsimp only
        rw [e]
        exact Same.after (fun _ b _ => hw.2 b) he
      · simp only [left, stepsOf]
        rw [e]
        cases hf : f (Heap.slice (h ++ own) r) <;> rfl
    | alloc n k =>
      cases ht
      have e : (h ++ own).length = H.length + own.length := by rw [List.length_append, hl]
      refine ⟨rfl, ⟨hw _ (by dsimp only; omega), ?_⟩, ?_⟩
      · rw [he, run]
        dsimp only
        rw [e, List.append_assoc]
      · simp only [left, stepsOf]
        rw [e, List.append_assoc]
    | fill dst src k =>
      obtain ⟨own', e1, e2⟩ := copy_shared (own := own) hl ha hw.1 hw.2.1
      simp only [Task.step] at ht
      rw [e1] at ht
      simp only [List.take_left', List.drop_left', Option.some.injEq, Prod.mk.injEq] at ht
      obtain ⟨rfl, rfl⟩ := ht
      refine ⟨rfl, ⟨hw.2.2, ?_⟩, ?_⟩
      · rw [he, run]
        dsimp only
        rw [e2]
      · simp only [left, stepsOf]
        rw [e2]

theorem left_of_step_none {H h : Heap} {t : Task} (ht : t.step H = none) : left h t = 0 := by
  obtain ⟨own, log, todo⟩ := t
  match todo, ht with
  | none, _ => rfl
  | some (.done _), _ => rfl

/-- What holds after the moves `ms`. -/
structure Inv (h : Heap) (jobs : List Job) (w : World) (ms : List Move) : Prop where
  shared : w.shared = written h ms
  length : w.shared.length = h.length
  bufs : ∀ j ∈ jobs, w.shared.getD j.buf.arr [] = h.getD j.buf.arr []
  count : w.tasks.length = jobs.length
  same : ∀ (i : Nat) j t, jobs[i]? = some j → w.tasks[i]? = some t →
    Same h j.buf.arr (j.code h) t ∧ left h t = stepsOf j.code h - ms.count (.step i)

theorem Inv.start (h : Heap) (jobs : List Job) : Inv h jobs (World.start h jobs) [] where
  shared := rfl
  length := rfl
  bufs := fun _ _ => rfl
  count := by simp [World.start]
  same := by
    intro i j t hj ht
    simp only [World.start, List.getElem?_map, hj, Option.map_some, Option.some.injEq] at ht
    subst ht
    refine ⟨Same.start h j, ?_⟩
    simp [left]

theorem Inv.move {h : Heap} {jobs : List Job} {w : World} {ms : List Move} (hi : Inv h jobs w ms) (m : Move)
    (hm : ∀ arr i b, m = Move.write arr i b → ∀ j ∈ jobs, j.buf.arr ≠ arr) :
    Inv h jobs (w.move m) (ms ++ [m]) := by
  cases m with
  | write arr k b =>
    refine ⟨?_, ?_, ?_, hi.count, ?_⟩
    · simp only [World.move, written, List.foldl_append, List.foldl_cons, List.foldl_nil]
      rw [hi.shared]
      rfl
    · exact (Heap.set_length ..).trans hi.length
    · intro j hj
      exact (Heap.set_getD _ _ _ _ _ (hm arr k b rfl j hj)).trans (hi.bufs j hj)
    · intro i j t hj ht
      have := hi.same i j t hj ht
      refine ⟨this.1, ?_⟩
      rw [this.2, List.count_append]
      simp
  | step k =>
    have hw : written h (ms ++ [Move.step k]) = written h ms := by
      simp [written, List.foldl_append]
    cases hk : w.tasks[k]? with
    | none =>
      have e : w.move (.step k) = w := by simp only [World.move, hk]
      rw [e]
      refine ⟨by rw [hw]; exact hi.shared, hi.length, hi.bufs, hi.count, ?_⟩
      intro i j t hj ht
      have := hi.same i j t hj ht
      refine ⟨this.1, ?_⟩
      rw [this.2, List.count_append]
      have hne : k ≠ i := by rintro rfl; rw [hk] at ht; cases ht
      simp [hne]
    | some s =>
      cases hst : s.step w.shared with
      | none =>
        have e : w.move (.step k) = w := by simp only [World.move, hk, hst]
        rw [e]
        refine ⟨by rw [hw]; exact hi.shared, hi.length, hi.bufs, hi.count, ?_⟩
        intro i j t hj ht
        have := hi.same i j t hj ht
        refine ⟨this.1, ?_⟩
        by_cases hki : k = i
        · subst hki
          rw [hk] at ht
          cases ht
          have h0 := left_of_step_none (h := h) hst
          rw [List.count_append]
          omega
        · rw [this.2, List.count_append]
          simp [hki]
      | some r =>
        obtain ⟨H', s'⟩ := r
        have e : w.move (.step k) = ⟨H', w.tasks.set k s'⟩ := by simp only [World.move, hk, hst]
        rw [e]
        have hlt : k < w.tasks.length := by
          rcases Nat.lt_or_ge k w.tasks.length with h1 | h1
          · exact h1
          · rw [List.getElem?_eq_none h1] at hk; cases hk
        obtain ⟨j0, hj0⟩ : ∃ j, jobs[k]? = some j :=
          ⟨_, List.getElem?_eq_getElem (by rw [← hi.count]; exact hlt)⟩
        obtain ⟨hs0, hc0⟩ := hi.same k j0 s hj0 hk
        obtain ⟨rfl, hs1, hc1⟩ := hs0.step hi.length (hi.bufs j0 (List.mem_of_getElem? hj0)) hst
        refine ⟨by rw [hw]; exact hi.shared, hi.length, hi.bufs, by rw [List.length_set]; exact hi.count, ?_⟩
        intro i j t hj ht
        by_cases hki : k = i
        · subst hki
          rw [List.getElem?_set_self hlt] at ht
          cases ht
          rw [hj0] at hj
          cases hj
          refine ⟨hs1, ?_⟩
          rw [List.count_append]
          simp only [List.count_cons, List.count_nil, BEq.rfl, if_pos]
          omega
        · rw [List.getElem?_set_ne hki] at ht
          have := hi.same i j t hj ht
          refine ⟨this.1, ?_⟩
          rw [this.2, List.count_append]
          simp [hki]

theorem Inv.moves {h : Heap} {jobs : List Job} (ms : List Move) : ∀ {w : World} {ms0 : List Move}, Inv h jobs w ms0 →
    Apart jobs ms → Inv h jobs (w.after ms) (ms0 ++ ms) := by
  induction ms with
  | nil => intro w ms0 hi _; rw [List.append_nil]; exact hi
  | cons m ms ih =>
    intro w ms0 hi hm
    have h1 := hi.move m fun arr i b e => hm arr i b (by rw [e]; exact List.mem_cons_self ..)
    have h2 := ih h1 fun arr i b hb => hm arr i b (List.mem_cons_of_mem _ hb)
    rw [List.append_assoc] at h2
    exact h2

theorem Inv.reach {h : Heap} {jobs : List Job} {ms : List Move} (hm : Apart jobs ms) :
    Inv h jobs ((World.start h jobs).after ms) ms :=
  Inv.moves ms (Inv.start h jobs) hm

end SMC
