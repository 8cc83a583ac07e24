import Verif.Props.LLCParse
/-!
# C18: when something of the previous message survives
-/

namespace SMC.Props
open SMC SMC.LLC SMC.Spec

/-- the bytes that the parser of a kind needs (C14) -/
def neededLen : Kind → Nat
  | .other => 0
  | .confirmLink => 35
  | .addLink => 36
  | .addLinkCont => 40
  | .deleteLink => 9
  | .confirmRKey => 44
  | .confirmRKeyCont => 45
  | .deleteRKey => 40
  | .testLink => 20
  | .cdc => 26

/-- the bytes that fill all fields of a kind -/
def fillingLen : Kind → Nat
  | .other => 0
  | .addLink => 46
  | .confirmRKeyCont => 45
  | _ => 44

theorem short_none {α : Type} {n : Nat} {s : Slice} {x : Go α} (h : Needs n s x) (hs : s.len < n) : x.val? = none := by
  cases e : x with
  | ret l a => exact absurd (h l a e) (by omega)
  | panic l => rfl

theorem val_map_none {α β : Type} {x : Go α} (f : α → β) (h : x.val? = none) : (x >>= fun a => pure (f a) : Go β).val? = none := by
  cases x with
  | ret l a => cases h
  | panic l => rfl

theorem short_panics (m : Msg) (hm : SizedMsg m) (s : Slice) (h : s.len < neededLen (kindOf m)) : (m.parse s).val? = none := by
  cases m with
  | other m => exact absurd h (Nat.not_lt_zero _)
  | confirmLink m => exact val_map_none _ (short_none (confirmLink_needs m s) h)
  | addLink m => exact val_map_none _ (short_none (addLink_needs m s) h)
  | addLinkCont m => exact val_map_none _ (short_none (addLinkCont_needs m (by rw [hm.2.1]) s) h)
  | deleteLink m => exact val_map_none _ (short_none (deleteLink_needs m s) h)
  | confirmRKey m => exact val_map_none _ (short_none (confirmRKey_needs m (by rw [show m.OtherRMBs.length = 2 from hm]) s) h)
  | confirmRKeyCont m => exact val_map_none _ (short_none (confirmRKeyCont_needs m (by rw [show m.OtherRMBs.length = 3 from hm]) s) h)
  | deleteRKey m => exact val_map_none _ (short_none (deleteRKey_needs m (by rw [hm.2.1]) s) h)
  | testLink m => exact val_map_none _ (short_none (testLink_needs m s) h)
  | cdc m => exact val_map_none _ (short_none (cdc_needs m s) h)

/-- a field that is filled in part shows what was there -/
theorem copyInto_stale {n : Nat} {x : Bytes} (h : x.length < n) : copyInto (List.replicate n 1) x ≠ copyInto (zeros n) x := by
  intro e
  have := congrArg List.getLast? e
  rw [copyInto, copyInto, List.take_of_length_le (by simp; omega), List.take_of_length_le (by simp; omega),
    List.drop_replicate, zeros, List.drop_replicate, List.getLast?_append, List.getLast?_append, List.getLast?_replicate,
    List.getLast?_replicate, if_neg (by omega), if_neg (by omega)] at this
  exact absurd (Option.some.inj this) (by decide)

theorem fresh_sized (k : Kind) : SizedMsg (fresh k) := by
  cases k <;> first | trivial | exact rfl | exact ⟨rfl, rfl⟩ | exact ⟨rfl, rfl, rfl⟩

/-- the field that is filled with the rest of the buffer -/
def restField : Msg → Bytes
  | .confirmLink m => m.res3
  | .addLink m => m.res4
  | .addLinkCont m => m.res4
  | .deleteLink m => m.res3
  | .deleteRKey m => m.res5
  | .testLink m => m.res3
  | .cdc m => m.res4.drop 1
  | _ => []

/-- C18, exactly: nothing of any previous message survives if and only if the buffer is too short, so that `Parse` panics, or fills
all fields. Messages of 44 bytes fill all fields except for Add Link and, where `Parse` panics, Confirm RKey Continuation. -/
theorem C18_exact (k : Kind) (s : Slice) :
    (∀ m, SizedMsg m → kindOf m = k → (m.parse s).val? = ((fresh k).parse s).val?) ↔ s.len < neededLen k ∨ fillingLen k ≤ s.len := by
  constructor
  · intro h
    by_cases h1 : s.len < neededLen k
    · exact .inl h1
    · by_cases h2 : fillingLen k ≤ s.len
      · exact .inr h2
      · exfalso
        obtain ⟨v, e⟩ := s
        simp only [Slice.len_mk] at h1 h2
        cases k with
        | other => exact h2 (Nat.zero_le _)
        | confirmLink =>
          simp only [neededLen, fillingLen] at h1 h2
          have := h (.confirmLink { res3 := List.replicate 9 1 }) rfl rfl
          simp only [fresh, Msg.parse] at this
          rw [confirmLink_parse _ v e (by omega), confirmLink_parse _ v e (by omega)] at this
          exact copyInto_stale (n := 9) (x := v.drop 35) (by rw [List.length_drop]; omega)
            (Option.some.inj (congrArg (Option.map restField) this))
        | addLink =>
          simp only [neededLen, fillingLen] at h1 h2
          have := h (.addLink { res4 := List.replicate 10 1 }) ⟨rfl, rfl⟩ rfl
          simp only [fresh, Msg.parse] at this
          rw [addLink_parse _ v e (by omega), addLink_parse _ v e (by omega)] at this
          exact copyInto_stale (n := 10) (x := v.drop 36) (by rw [List.length_drop]; omega)
            (Option.some.inj (congrArg (Option.map restField) this))
        | addLinkCont =>
          simp only [neededLen, fillingLen] at h1 h2
          have := h (.addLinkCont { res4 := List.replicate 4 1 }) ⟨rfl, rfl, rfl⟩ rfl
          simp only [fresh, Msg.parse] at this
          rw [addLinkCont_parse _ rfl v e (by omega), addLinkCont_parse _ rfl v e (by omega)] at this
          exact copyInto_stale (n := 4) (x := v.drop 40) (by rw [List.length_drop]; omega)
            (Option.some.inj (congrArg (Option.map restField) this))
        | deleteLink =>
          simp only [neededLen, fillingLen] at h1 h2
          have := h (.deleteLink { res3 := List.replicate 35 1 }) rfl rfl
          simp only [fresh, Msg.parse] at this
          rw [deleteLink_parse _ v e (by omega), deleteLink_parse _ v e (by omega)] at this
          exact copyInto_stale (n := 35) (x := v.drop 9) (by rw [List.length_drop]; omega)
            (Option.some.inj (congrArg (Option.map restField) this))
        | confirmRKey =>
          simp only [neededLen, fillingLen] at h1 h2
          omega
        | confirmRKeyCont =>
          simp only [neededLen, fillingLen] at h1 h2
          omega
        | deleteRKey =>
          simp only [neededLen, fillingLen] at h1 h2
          have := h (.deleteRKey { res5 := List.replicate 4 1 }) ⟨rfl, rfl, rfl⟩ rfl
          simp only [fresh, Msg.parse] at this
          rw [deleteRKey_parse _ rfl v e (by omega), deleteRKey_parse _ rfl v e (by omega)] at this
          exact copyInto_stale (n := 4) (x := v.drop 40) (by rw [List.length_drop]; omega)
            (Option.some.inj (congrArg (Option.map restField) this))
        | testLink =>
          simp only [neededLen, fillingLen] at h1 h2
          have := h (.testLink { res3 := List.replicate 24 1 }) ⟨rfl, rfl⟩ rfl
          simp only [fresh, Msg.parse] at this
          rw [testLink_parse _ v e (by omega), testLink_parse _ v e (by omega)] at this
          exact copyInto_stale (n := 24) (x := v.drop 20) (by rw [List.length_drop]; omega)
            (Option.some.inj (congrArg (Option.map restField) this))
        | cdc =>
          simp only [neededLen, fillingLen] at h1 h2
          have := h (.cdc { res4 := List.replicate 19 1 }) ⟨rfl, rfl, rfl⟩ rfl
          simp only [fresh, Msg.parse] at this
          rw [cdc_parse _ v e (by omega), cdc_parse _ v e (by omega)] at this
          exact copyInto_stale (n := 18) (x := v.drop 26) (by rw [List.length_drop]; omega)
            (Option.some.inj (congrArg (Option.map restField) this))
  · rintro (h | h) m hm rfl
    · have hf := fresh_sized (kindOf m)
      have hk : kindOf (fresh (kindOf m)) = kindOf m := by cases m <;> rfl
      rw [short_panics m hm s h, short_panics _ hf s (by rw [hk]; exact h)]
    · by_cases h0 : kindOf m = .other
      · match m, h0 with
        | .other _, _ => rfl
      · refine C18_reparse_partial m hm s ?_ ?_
        · cases m <;> first | exact absurd rfl h0 | (simp only [kindOf, fillingLen] at h; omega)
        · intro ha
          rw [ha] at h
          exact h

/-- a Delete Link of 20 bytes is parsed, and 24 bytes of what was reserved before remain -/
example : neededLen .deleteLink ≤ 20 ∧ ∃ m, SizedMsg (.deleteLink m) ∧ (m.parse ⟨4 :: zeros 19, []⟩).val?.map (·.res3) =
    some (zeros 11 ++ List.replicate 24 1) :=
  ⟨by decide, { res3 := List.replicate 35 1 }, rfl, by decide +kernel⟩

end SMC.Props
