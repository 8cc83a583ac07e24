import Verif.Props.Vars
/-!
# C107: exactly which statements on one variable change what is recognised by another one
-/

namespace SMC.CLC

/-- The statement writes the byte `b` to the place `i` of the array number `n`: an assignment to an
element, or an `append` that finds room behind the slice. Assignments of slices write nothing. -/
def Writes (s : Vars) (a : VarAct) (n i : Nat) (b : UInt8) : Prop :=
  match a with
  | .poke v k c => n = (s.get v).arr ∧ i = (s.get v).off + k ∧ b = c
  | .append v bs _ => (s.get v).len + bs.length ≤ (s.get v).cap ∧ n = (s.get v).arr ∧
      ∃ k, i = (s.get v).off + (s.get v).len + k ∧ bs[k]? = some b
  | _ => False

theorem bytes_at {s : Vars} (w : Var) (j : Nat) (hj : j < (s.get w).len) :
    (s.bytes w)[j]? = ((s.arrays[(s.get w).arr]?).getD [])[(s.get w).off + j]? := by
  simp only [Vars.bytes, List.getElem?_take, if_pos hj, List.getElem?_drop]

theorem overwrite_at (x bs : Bytes) (i k : Nat) (h : i + bs.length ≤ x.length) :
    (x.take i ++ bs ++ x.drop (i + bs.length))[k]? = if i ≤ k ∧ k < i + bs.length then bs[k - i]? else x[k]? := by
  have l : (x.take i).length = i := by rw [List.length_take]; omega
  by_cases c1 : k < i
  · rw [if_neg (by omega), List.append_assoc, List.getElem?_append_left (by omega), List.getElem?_take, if_pos c1]
  · by_cases c2 : k < i + bs.length
    · rw [if_pos ⟨by omega, c2⟩, List.append_assoc, List.getElem?_append_right (by omega), l,
        List.getElem?_append_left (by omega)]
    · rw [if_neg (by omega), List.getElem?_append_right (by rw [List.length_append]; omega), List.length_append, l,
        List.getElem?_drop]
      congr 1
      omega

/-- what a write of some bytes does to a variable that is not assigned -/
theorem bytes_overwritten {s s' : Vars} (h : s.Valid) {w : Var} {n i : Nat} {bs : Bytes}
    (hb : ∀ x, s.arrays[n]? = some x → i + bs.length ≤ x.length)
    (hg : s'.get w = s.get w) (ha : s'.arrays = (s.store n i bs).arrays) :
    s'.bytes w = s.bytes w ↔ ∀ j < (s.get w).len, ∀ b,
      ((s.get w).arr = n ∧ ∃ k, (s.get w).off + j = i + k ∧ bs[k]? = some b) → (s.bytes w)[j]? = some b := by
  obtain ⟨h1, x, h2, h3⟩ := h w
  have at' : ∀ j < (s.get w).len, (s'.bytes w)[j]? =
      if n = (s.get w).arr ∧ i ≤ (s.get w).off + j ∧ (s.get w).off + j < i + bs.length then bs[(s.get w).off + j - i]?
      else (s.bytes w)[j]? := by
    intro j hj
    rw [bytes_at w j (by rw [hg]; exact hj), bytes_at w j hj, hg, ha]
    simp only [Vars.store, List.getElem?_modify, h2]
    by_cases c : n = (s.get w).arr
    · have := overwrite_at x bs i ((s.get w).off + j) (hb x (by rw [c]; exact h2))
      simp only [c, if_true, true_and]
      exact this
    · simp only [c, if_false, false_and]
      rfl
  have len' : (s'.bytes w).length = (s.get w).len := by
    by_cases c : n = (s.get w).arr
    · have hx := hb x (by rw [c]; exact h2)
      simp only [Vars.bytes, hg, ha, Vars.store, List.getElem?_modify, h2, c, if_true, Option.map_eq_map, Option.map_some,
        Option.getD_some, List.length_take, List.length_drop, List.length_append]
      omega
    · rw [show s'.bytes w = s.bytes w from bytes_eq hg (by rw [ha]; exact store_other c), bytes_length h]
  constructor
  · intro e j hj b ⟨hn, k, hk, hkb⟩
    have lk := (List.getElem?_eq_some_iff.1 hkb).1
    have := at' j hj
    rw [e, if_pos ⟨hn.symm, by omega, by omega⟩, show (s.get w).off + j - i = k by omega, hkb] at this
    exact this
  · intro hw
    apply List.ext_getElem?
    intro j
    by_cases hj : j < (s.get w).len
    · rw [at' j hj]
      split
      · rename_i c
        have l : (s.get w).off + j - i < bs.length := by omega
        rw [List.getElem?_eq_getElem l]
        exact (hw j hj _ ⟨c.1.symm, (s.get w).off + j - i, by omega, List.getElem?_eq_getElem l⟩).symm
      · rfl
    · rw [List.getElem?_eq_none (by omega), List.getElem?_eq_none (by rw [bytes_length h]; omega)]

/-- what a statement does to a variable that it does not assign -/
theorem step_other {s s' : Vars} (h : s.Valid) {a : VarAct} {w : Var} (hw : w ≠ a.target) (hs : s.step a = some s') :
    s'.bytes w = s.bytes w ↔ ∀ j < (s.bytes w).length, ∀ b,
      Writes s a (s.get w).arr ((s.get w).off + j) b → (s.bytes w)[j]? = some b := by
  rw [bytes_length h]
  cases a with
  | poke v k c =>
    simp only [Vars.step] at hs
    split at hs
    · rename_i hk
      cases hs
      obtain ⟨h1, x, h2, h3⟩ := h v
      rw [bytes_overwritten h (n := (s.get v).arr) (i := (s.get v).off + k) (bs := [c])
        (fun y hy => by rw [h2] at hy; cases hy; simp only [List.length_cons, List.length_nil]; omega) (get_store ..) rfl]
      refine forall_congr' fun j => imp_congr_right fun _ => forall_congr' fun b => ?_
      apply imp_congr_left
      constructor
      · rintro ⟨e1, m, e2, e3⟩
        cases m with
        | zero => simp at e3; exact ⟨e1, e2, e3.symm⟩
        | succ m => simp at e3
      · rintro ⟨e1, e2, rfl⟩
        exact ⟨e1, 0, e2, rfl⟩
    · cases hs
  | fresh v bs =>
    obtain ⟨-, x, hx, -⟩ := h w
    have lw := (List.getElem?_eq_some_iff.1 hx).1
    have hw' : w ≠ v := hw
    cases hs
    refine ⟨fun _ _ _ _ f => f.elim, fun _ => bytes_eq (by rw [get_set, if_neg hw', get_arrays]) ?_⟩
    rw [arrays_set]
    simp only [List.getElem?_append_left lw]
  | slice v u lo hi =>
    have hw' : w ≠ v := hw
    simp only [Vars.step] at hs
    split at hs
    · cases hs
      exact ⟨fun _ _ _ _ f => f.elim, fun _ => bytes_eq (by rw [get_set, if_neg hw']) (by rw [arrays_set])⟩
    · cases hs
  | append v bs spare =>
    have hw' : w ≠ v := hw
    simp only [Vars.step] at hs
    split at hs
    · rename_i hc
      cases hs
      obtain ⟨h1, x, h2, h3⟩ := h v
      rw [bytes_overwritten h (n := (s.get v).arr) (i := (s.get v).off + (s.get v).len) (bs := bs)
        (fun y hy => by rw [h2] at hy; cases hy; omega) (by rw [get_set, if_neg hw', get_store]) (by rw [arrays_set])]
      refine forall_congr' fun j => imp_congr_right fun _ => forall_congr' fun b => ?_
      exact imp_congr_left ⟨fun e => ⟨hc, e⟩, fun e => e.2⟩
    · rename_i hc
      obtain ⟨-, x, hx, -⟩ := h w
      have lw := (List.getElem?_eq_some_iff.1 hx).1
      cases hs
      refine ⟨fun _ _ _ _ f => absurd f.1 hc, fun _ => bytes_eq (by rw [get_set, if_neg hw', get_arrays]) ?_⟩
      rw [arrays_set]
      simp only [List.getElem?_append_left lw]

/-- the functions do the same exactly if the variables hold the same bytes -/
theorem sameEyes_iff {s s' : Vars} :
    SameEyes s s' ↔ s'.bytes .smcr = s.bytes .smcr ∧ s'.bytes .smcd = s.bytes .smcd := by
  refine ⟨fun h => ?_, fun h => sameEyes h.1 h.2⟩
  have hs := h.2.1
  have n1 : go! "SMC-R" ≠ go! "SMC-D" := by decide
  have n2 : go! "SMC-R" ≠ go! "Unknown" := by decide
  have n3 : go! "SMC-D" ≠ go! "Unknown" := by decide
  have r : s'.bytes .smcr = s.bytes .smcr := by
    have := congrFun hs (s.bytes .smcr)
    simp only [Vars.eyecatcherStr, if_true] at this
    by_cases c : s.bytes .smcr = s'.bytes .smcr
    · exact c.symm
    · rw [if_neg c] at this
      split at this
      · exact absurd this.symm n1
      · exact absurd this.symm n2
  refine ⟨r, ?_⟩
  by_cases c : s'.bytes .smcd = s.bytes .smcd
  · exact c
  · have h1 := congrFun hs (s.bytes .smcd)
    have h2 := congrFun hs (s'.bytes .smcd)
    simp only [Vars.eyecatcherStr, r, if_true] at h1 h2
    by_cases e : s.bytes .smcd = s.bytes .smcr
    · rw [if_neg (by rw [← e]; exact c), if_neg (by rw [← e]; exact c), if_neg c] at h2
      exact absurd h2 n3
    · rw [if_neg e, if_neg e, if_neg (fun x => c x.symm)] at h1
      exact absurd h1.symm n3

end SMC.CLC

namespace SMC.Props
open SMC.CLC

/-- **C107** Exactly which statements on one of the variables change another one, in every state that a
program can reach: those that write another byte to a place that the other one shows. -/
theorem C107_others (as : List VarAct) (s s' : Vars) (a : VarAct) (w : Var) (h : Vars.init.run as = some s)
    (hs : s.step a = some s') (hw : w ≠ a.target) :
    s'.bytes w = s.bytes w ↔ ∀ j < (s.bytes w).length, ∀ b,
      Writes s a (s.get w).arr ((s.get w).off + j) b → (s.bytes w)[j]? = some b :=
  step_other (Vars.valid_init.run h) hw hs

/-- **C107** Exactly when a statement on `SMCOption` leaves the recognition of messages, trailers and
eyecatchers alone: if it writes no other byte to a place that `SMCREyecatcher` or `SMCDEyecatcher` shows. -/
theorem C107_exact (as : List VarAct) (s s' : Vars) (a : VarAct) (h : Vars.init.run as = some s)
    (hs : s.step a = some s') (ht : a.target = .option) :
    SameEyes s s' ↔ ∀ w, w ≠ .option → ∀ j < (s.bytes w).length, ∀ b,
      Writes s a (s.get w).arr ((s.get w).off + j) b → (s.bytes w)[j]? = some b := by
  rw [sameEyes_iff, C107_others as s s' a .smcr h hs (by rw [ht]; decide), C107_others as s s' a .smcd h hs (by rw [ht]; decide)]
  constructor
  · intro e w hw
    cases w with
    | smcr => exact e.1
    | smcd => exact e.2
    | option => exact absurd rfl hw
  · exact fun e => ⟨e .smcr (by decide), e .smcd (by decide)⟩

/-- an option that is the first two bytes of `SMCREyecatcher`: what is appended to it is written to the
rest of `SMCREyecatcher`, unless it does not fit there -/
example : ∃ s s1 s2, Vars.init.run [.slice .option .smcr 0 2] = some s ∧
    s.step (.append .option (hex! "c3c5") 0) = some s1 ∧ Writes s (.append .option (hex! "c3c5") 0) 0 3 0xc5 ∧
    s1.bytes .smcr = hex! "e2d4c3c5" ∧ ¬ SameEyes s s1 ∧
    s.step (.append .option (hex! "c3c5c5") 0) = some s2 ∧ s2.bytes .smcr = SMCREyecatcher ∧ SameEyes s s2 := by
  refine ⟨_, _, _, rfl, rfl, ⟨by decide, rfl, 1, rfl, rfl⟩, by decide +kernel, ?_, rfl, by decide +kernel, ?_⟩
  · rw [sameEyes_iff]
    decide +kernel
  · rw [sameEyes_iff]
    decide +kernel

end SMC.Props
