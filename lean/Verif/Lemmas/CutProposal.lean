import Verif.Lemmas.CutCLC
/-!
# The values of the fields of Proposals after a crash
-/

namespace SMC.Tail
open SGo Left CLC

/-- the end of a method that rejects the message -/
macro "held_reject" : tactic => `(tactic| (
  repeat held_gets
  refine Held.logs (log_ret _) (log_ret _) ?_
  refine Held.sto fun _ _ _ => ?_
  exact Held.logs_last))

/-- the trailer is another field -/
macro "held_trail" : tactic => `(tactic| exact Held.rest (fun _ => rfl) fun _ => rfl)

/-! ## Proposal -/

abbrev proposalOthers : View Proposal Slice := without proposalView [18]

def proposalPrefixes : Sight Proposal Slice (List Bytes) where
  get p := p.IPv6Prefixes.map fun p => p.pfx ++ [p.prefixLen]
  put := proposalView.put
  get_put _ _ := rfl
  put_put _ _ _ := rfl

theorem cut_parsePrefixesS {W : Nat → Way → Prop} {f g : Unit → SGo Proposal Unit} {len off : Nat} {a b : Slice}
    {length : UInt16} (h : Cut proposalOthers W 18 (Rest len off a b) (f ()) (g ())) :
    ∀ n skip, Cut proposalOthers W 18 (Rest len off a b) (parsePrefixesS length a n skip >>= f)
      (parsePrefixesS length b n skip >>= g) := by
  intro n
  induction n with
  | zero =>
    intro skip
    unfold parsePrefixesS
    rw [pure_bind', pure_bind']
    exact h
  | succ n ih =>
    intro skip
    unfold parsePrefixesS
    simp only [bind_assoc', ite_bind]
    refine Cut.ite ?_ ?_
    · refine Cut.logs (log_ret _) (log_ret _) ?_
      refine Cut.sto fun _ _ _ => ?_
      exact Cut.logs (errDump_ret _) (errDump_ret _) h
    · refine Cut.sub fun _ _ _ => ?_
      refine Cut.idx fun _ => ?_
      cut_keep
      exact ih _

theorem held_parsePrefixesS {f g : Unit → SGo Proposal Unit} {len off : Nat} {a b : Slice}
    {length : UInt16} (h : Held proposalPrefixes appends (Rest len off a b) (f ()) (g ())) :
    ∀ n skip, Held proposalPrefixes appends (Rest len off a b) (parsePrefixesS length a n skip >>= f)
      (parsePrefixesS length b n skip >>= g) := by
  intro n
  induction n with
  | zero =>
    intro skip
    unfold parsePrefixesS
    rw [pure_bind', pure_bind']
    exact h
  | succ n ih =>
    intro skip
    unfold parsePrefixesS
    simp only [bind_assoc', ite_bind]
    refine Held.ite ?_ ?_
    · refine Held.logs (log_ret _) (log_ret _) ?_
      refine Held.sto fun _ _ _ => ?_
      exact Held.logs (errDump_ret _) (errDump_ret _) h
    · refine Held.sub fun _ _ _ => ?_
      refine Held.idx fun _ => ?_
      refine Held.append (fun _ _ => rfl) (fun s => ?_) (ih _)
      show s.IPv6Prefixes.map _ <+: (s.IPv6Prefixes ++ [_]).map _
      rw [List.map_append]
      exact List.prefix_append _ _

theorem cut_parseSMCDS {W : Nat → Way → Prop} {len off : Nat} {a b : Slice} {f g : Nat → SGo Proposal Unit}
    (h : ∀ skip, Cut proposalOthers W 14 (Rest len off a b) (f skip) (g skip)) :
    ∀ skip, Cut proposalOthers W 12 (Rest len off a b) (Proposal.parseSMCDS a skip >>= f) (Proposal.parseSMCDS b skip >>= g) := by
  intro skip
  unfold Proposal.parseSMCDS
  simp only [bind_assoc', ite_bind, pure_bind']
  cut_gets
  refine Cut.ite ?_ ?_
  · repeat cut_step
    exact h _
  · exact Cut.weaken (by decide) id (h _)

theorem held_parseSMCDS {len off : Nat} {a b : Slice} {f g : Nat → SGo Proposal Unit}
    (h : ∀ skip, Held proposalPrefixes appends (Rest len off a b) (f skip) (g skip)) :
    ∀ skip, Held proposalPrefixes appends (Rest len off a b) (Proposal.parseSMCDS a skip >>= f)
      (Proposal.parseSMCDS b skip >>= g) := by
  intro skip
  unfold Proposal.parseSMCDS
  simp only [bind_assoc', ite_bind, pure_bind']
  held_gets
  refine Held.ite ?_ (h _)
  repeat held_step
  exact h _

theorem proposal_between {m s' m' : Proposal} {short long : Slice} {l l' : List Bytes} (h : Part short long)
    (hs : Proposal.parseS short m = (.panic l, s')) (hl : m.parse long = .ret l' m') :
    Between proposalWays (proposal m) (proposal m') (proposal s') := by
  rw [← Proposal.final_parseS] at hl
  unfold Proposal.parseS at hs hl
  rw [within_headerS] at hs hl
  · refine between_without (V := proposalView) (ks := [18]) (ways := [(9, .fresh 16), (10, .fresh 6), (14, .fresh 4)]) ?_ (by decide) ?_
    · refine cut_whole (V := proposalOthers) h ?_ hs hl
      repeat cut_step
      refine Cut.ite ?_ ?_
      · cut_reject
      dsimp only
      repeat cut_step
      refine cut_parseSMCDS (fun skip => ?_) _
      cut_gets
      refine Cut.ite ?_ ?_
      · cut_reject
      repeat cut_step
      refine cut_parsePrefixesS ?_ _ _
      cut_trail 19
    · have key := held_whole (S := proposalPrefixes) (k := appends) h ?_ hs hl
      · intro k hk
        obtain rfl := List.mem_singleton.1 hk
        exact ⟨.appended, by decide, _, _, _, rfl, rfl, rfl, key.1, key.2⟩
      repeat held_step
      refine Held.ite ?_ ?_
      · held_reject
      dsimp only
      repeat held_step
      refine held_parseSMCDS (fun skip => ?_) _
      held_gets
      refine Held.ite ?_ ?_
      · held_reject
      repeat held_step
      refine held_parsePrefixesS ?_ _ _
      held_trail
  all_goals (intros; rfl)

end SMC.Tail
