import Verif.Lemmas.CrashSteps
/-!
# Code that changes its receiver: pkg/clc
-/

namespace SMC.CLC
open SGo

theorem Header.final_parseS (buf : Slice) (h : Header) : final (parseS buf) h = h.parse buf := by
  unfold parseS parse
  repeat same_step
  rfl

theorem final_trailerParseS (buf : Slice) (t : Bytes) : final (trailerParseS buf) t = trailerParse t buf := by
  unfold trailerParseS trailerParse
  repeat same_step
  · exact final_lift_end _ _
  · rfl

theorem Decline.final_parseS (buf : Slice) (d : Decline) : final (parseS buf) d = d.parse buf := by
  unfold parseS parse
  same_step
  same_step
  same_step
  · exact Header.final_parseS _ _
  repeat same_step
  · exact final_lift_end _ _
  repeat same_step
  · exact (final_within_end _ _ _ _).trans (congrArg (· >>= _) (final_trailerParseS _ _))

theorem DeclineV2.final_parseS (buf : Slice) (d : DeclineV2) : final (parseS buf) d = d.parse buf := by
  unfold parseS parse
  same_step
  same_step
  same_step
  · exact Header.final_parseS _ _
  repeat same_step
  · exact final_lift_end _ _
  repeat same_step
  · exact (final_within_end _ _ _ _).trans (congrArg (· >>= _) (final_trailerParseS _ _))

theorem AcceptSMCR.final_parseS (buf : Slice) (ac : AcceptSMCR) : final (parseS buf) ac = ac.parse buf := by
  unfold parseS parse
  same_step
  same_step
  same_step
  · exact Header.final_parseS _ _
  repeat same_step
  · exact final_lift_end _ _
  repeat same_step
  · exact (final_within_end _ _ _ _).trans (congrArg (· >>= _) (final_trailerParseS _ _))

theorem AcceptSMCD.final_parseS (buf : Slice) (ac : AcceptSMCD) : final (parseS buf) ac = ac.parse buf := by
  unfold parseS parse
  same_step
  same_step
  same_step
  · exact Header.final_parseS _ _
  repeat same_step
  · exact final_lift_end _ _
  repeat same_step
  · exact (final_within_end _ _ _ _).trans (congrArg (· >>= _) (final_trailerParseS _ _))

theorem AcceptSMCDv2.run_parseFCES (buf : Slice) (ac : AcceptSMCDv2) : run (parseFCES buf) ac = ac.parseFCE buf := by
  unfold parseFCES parseFCE
  repeat same_step
  exact run_lift _ _

theorem AcceptSMCDv2.final_parseS (buf : Slice) (ac : AcceptSMCDv2) : final (parseS buf) ac = ac.parse buf := by
  unfold parseS parse
  same_step
  same_step
  same_step
  · exact Header.final_parseS _ _
  repeat same_step
  · exact final_lift_end _ _
  repeat same_step
  · exact AcceptSMCDv2.run_parseFCES _ _
  · exact (final_within_end _ _ _ _).trans (congrArg (· >>= _) (final_trailerParseS _ _))
  same_step
  · rfl
  repeat same_step
  · exact (final_within_end _ _ _ _).trans (congrArg (· >>= _) (final_trailerParseS _ _))

theorem Proposal.run_parseSMCDS (buf : Slice) (skip : Nat) (p : Proposal) :
    run (parseSMCDS buf skip) p = p.parseSMCD buf skip := by
  unfold parseSMCDS parseSMCD
  repeat same_step
  · rfl
  · rfl

theorem run_parsePrefixesS (length : UInt16) (buf : Slice) : ∀ (n skip : Nat) (p : Proposal),
    run (parsePrefixesS length buf n skip) p =
      parsePrefixes length buf n skip p.IPv6Prefixes >>= fun ps => pure ({ p with IPv6Prefixes := ps }, ()) := by
  intro n
  induction n with
  | zero =>
    intro skip p
    exact (go_pure_bind _ _).symm
  | succ n ih =>
    intro skip p
    unfold parsePrefixesS parsePrefixes
    dsimp only
    split
    · simp only [go_bind_assoc]
      same_step
      same_step
      rw [show ∀ x : Go Unit, (liftM x : SGo Proposal Unit) = lift x from fun _ => rfl, run_lift]
      rfl
    · simp only [go_bind_assoc]
      repeat same_step
      exact ih _ _

theorem Proposal.final_parseS (buf : Slice) (p : Proposal) : final (parseS buf) p = p.parse buf := by
  unfold parseS parse
  same_step
  same_step
  same_step
  · exact Header.final_parseS _ _
  repeat same_step
  · exact final_lift_end _ _
  repeat same_step
  · exact Proposal.run_parseSMCDS _ _ _
  repeat same_step
  · exact final_lift_end _ _
  repeat same_step
  rw [final_bind, run_parsePrefixesS, go_bind_assoc]
  refine congrArg (Bind.bind _) (funext fun ps => ?_)
  rw [go_pure_bind]
  exact (final_within_end _ _ _ _).trans (congrArg (· >>= _) (final_trailerParseS _ _))

theorem run_parsePrefixesV2S (length : UInt16) (buf : Slice) : ∀ (n skip : Nat) (p : ProposalV2),
    run (parsePrefixesV2S length buf n skip) p =
      parsePrefixesV2 length buf n skip p.IPv6Prefixes >>= fun r => pure ({ p with IPv6Prefixes := r.1 }, r.2) := by
  intro n
  induction n with
  | zero =>
    intro skip p
    exact (go_pure_bind _ _).symm
  | succ n ih =>
    intro skip p
    unfold parsePrefixesV2S parsePrefixesV2
    dsimp only
    split
    · simp only [go_bind_assoc, go_pure_bind]
      repeat same_step
      rfl
    · simp only [go_bind_assoc]
      repeat same_step
      exact ih _ _

theorem modify_set {α : Type} : ∀ (l : List α) (i : Nat) (f : α → α) (h : i < l.length), l.modify i f = l.set i (f l[i])
  | [], _, _, h => absurd h (Nat.not_lt_zero _)
  | _ :: _, 0, _, _ => rfl
  | a :: l, i + 1, f, h => by
    rw [List.modify_succ_cons, List.set_cons_succ, modify_set l i f (Nat.lt_of_succ_lt_succ h)]
    rfl

theorem run_parseEIDsS (length : UInt16) (buf : Slice) : ∀ (n i skip : Nat) (p : ProposalV2),
    run (parseEIDsS length buf n i skip) p =
      parseEIDs length buf n i skip p.EIDArea >>= fun r => pure ({ p with EIDArea := r.1 }, r.2) := by
  intro n
  induction n with
  | zero =>
    intro i skip p
    exact (go_pure_bind _ _).symm
  | succ n ih =>
    intro i skip p
    unfold parseEIDsS parseEIDs
    split
    · simp only [go_bind_assoc, go_pure_bind]
      repeat same_step
      rfl
    · same_step
      by_cases h : i < p.EIDArea.length
      · rw [if_pos h, List.getElem?_eq_getElem h]
        simp only [go_bind_assoc]
        repeat same_step
        rw [ih]
        simp only [modify_set _ _ _ h]
      · rw [if_neg h, List.getElem?_eq_none (Nat.le_of_not_lt h)]
        rfl

theorem run_parseGIDsS (length : UInt16) (buf : Slice) : ∀ (n i skip : Nat) (p : ProposalV2),
    run (parseGIDsS length buf n i skip) p =
      parseGIDs length buf n i skip p.GIDArea >>= fun gs => pure ({ p with GIDArea := gs }, ()) := by
  intro n
  induction n with
  | zero =>
    intro i skip p
    exact (go_pure_bind _ _).symm
  | succ n ih =>
    intro i skip p
    unfold parseGIDsS parseGIDs
    split
    · simp only [go_bind_assoc, go_pure_bind]
      repeat same_step
      exact run_lift _ _
    · same_step
      by_cases h : i < p.GIDArea.length
      · rw [if_pos h, List.getElem?_eq_getElem h]
        simp only [go_bind_assoc]
        repeat same_step
        rw [ih]
        simp only [modify_set _ _ _ h]
        rw [modify_set _ _ _ (by rw [List.length_set]; exact h), List.getElem_set_self, List.set_set]
      · rw [if_neg h, List.getElem?_eq_none (Nat.le_of_not_lt h)]
        rfl

theorem ProposalV2.run_parseIPAreaS (buf : Slice) (skip : Nat) (p : ProposalV2) :
    run (parseIPAreaS buf skip) p = p.parseIPArea buf skip := by
  unfold parseIPAreaS parseIPArea
  repeat same_step
  · rfl
  repeat same_step
  · rw [run_bind, run_parsePrefixesV2S, go_bind_assoc]
    refine congrArg (Bind.bind _) (funext fun ps => ?_)
    rw [go_pure_bind]
    rfl
  · rfl

theorem ProposalV2.run_parseV2ExtS (buf : Slice) (skip : Nat) (p : ProposalV2) :
    run (parseV2ExtS buf skip) p = p.parseV2Ext buf skip := by
  unfold parseV2ExtS parseV2Ext
  repeat same_step
  · rfl
  repeat same_step
  · rw [run_bind, run_parseEIDsS, go_bind_assoc]
    refine congrArg (Bind.bind _) (funext fun ps => ?_)
    rw [go_pure_bind]
    rfl
  · rfl

theorem ProposalV2.run_parseSMCDExtS (buf : Slice) (skip : Nat) (p : ProposalV2) :
    run (parseSMCDExtS buf skip) p = p.parseSMCDExt buf skip := by
  unfold parseSMCDExtS parseSMCDExt
  repeat same_step
  · rfl
  repeat same_step
  · rw [run_bind, run_parseGIDsS, go_bind_assoc]
    refine congrArg (Bind.bind _) (funext fun ps => ?_)
    rw [go_pure_bind]
    rfl
  · rfl

theorem ProposalV2.run_parseFixedS (buf : Slice) (p : ProposalV2) : run (parseFixedS buf) p = p.parseFixed buf := by
  unfold parseFixedS parseFixed
  repeat same_step
  rfl

theorem ProposalV2.final_parseS (buf : Slice) (p : ProposalV2) : final (parseS buf) p = p.parse buf := by
  unfold parseS parse
  same_step
  same_step
  same_step
  · exact Header.final_parseS _ _
  repeat same_step
  · exact final_lift_end _ _
  same_step
  · exact ProposalV2.run_parseFixedS _ _
  same_step
  · exact ProposalV2.run_parseIPAreaS _ _ _
  rename_i a
  rcases a with _ | skip
  · rfl
  same_step
  · exact ProposalV2.run_parseV2ExtS _ _ _
  rename_i a
  rcases a with _ | skip
  · rfl
  same_step
  · exact ProposalV2.run_parseSMCDExtS _ _ _
  rename_i a
  rcases a with _ | skip
  · rfl
  exact (final_within_end _ _ _ _).trans (congrArg (· >>= _) (final_trailerParseS _ _))

end SMC.CLC
