import Verif.Lemmas.CutProposalV2
import Verif.Props.Left
/-!
# C96: the values of the fields after a crash of `Parse`

`Between` (`Verif/Spec/LeftValue.lean`) lists for every field the values it may have besides the old and the new one. `[]` says
that there are none.
-/

namespace SMC.Props
open Left

/-- a complete Proposal with two IPv6 prefixes -/
def twoPrefixes : Bytes := hex! "e2 d4 c3 d9 01 00 56 10" ++ hex! "00 01 02 00 00 00 00 01" ++
    List.replicate 22 0xab ++ [0, 0] ++ hex! "0a 00 00 00 18 00 00 02" ++ List.replicate 34 0xcd ++ hex! "e2 d4 c3 d9"

/-- a complete ProposalV2 with two IPv6 prefixes, two EIDs and two GIDs -/
def twoOfEach : Bytes := hex! "e2 d4 c3 d9 01 01 2a 24" ++ List.replicate 72 0xab ++ hex! "0a 00 00 00 18 00 00 02" ++
    List.replicate 34 0xcd ++ [2, 2] ++ zeros 38 ++ List.replicate 32 0x41 ++ List.replicate 32 0x42 ++
    List.replicate 32 0x43 ++ zeros 16 ++ List.replicate 20 0x44 ++ hex! "e2 d4 c3 d9"

/-- `Parse` of the first bytes panics, of all bytes returns, and field `n` is neither old nor new -/
def odd {σ : Type} (fields : σ → List Item) (parseS : Slice → SGo σ Unit) (parse : σ → Slice → Go σ) (m : σ)
    (short long : Slice) (n : Nat) : Bool :=
  match parseS short m, parse m long with
  | (.panic _, s'), .ret _ m' => (fields s')[n]? != (fields m)[n]? && (fields s')[n]? != (fields m')[n]?
  | _, _ => false

/-- C96 for ConfirmLink: the MAC address and the GID may be zero, the number of the queue pair may be read in part -/
theorem C96_confirmLink_values_partial {m s' m' : LLC.ConfirmLink} {short long : Slice} {l l' : List Bytes}
    (h : Part short long) (hs : LLC.ConfirmLink.parseS short m = (.panic l, s')) (hl : m.parse long = .ret l' m') :
    Between confirmLinkWays (confirmLink m) (confirmLink m') (confirmLink s') :=
  Tail.confirmLink_between h hs hl

example : Part (cut wholeConfirmLink 27) (cut wholeConfirmLink 400) ∧
    odd confirmLink LLC.ConfirmLink.parseS LLC.ConfirmLink.parse
      { SenderMAC := List.replicate 6 1, SenderGID := List.replicate 16 1, SenderQP := 0xabcdef }
      (cut wholeConfirmLink 27) (cut wholeConfirmLink 400) 7 = true :=
  ⟨⟨⟨_, rfl⟩, ⟨_, rfl⟩⟩, by decide +kernel⟩

example : Part (cut wholeConfirmLink 15) (cut wholeConfirmLink 400) ∧
    odd confirmLink LLC.ConfirmLink.parseS LLC.ConfirmLink.parse
      { SenderMAC := List.replicate 6 1, SenderGID := List.replicate 16 1, SenderQP := 0xabcdef }
      (cut wholeConfirmLink 15) (cut wholeConfirmLink 400) 6 = true :=
  ⟨⟨⟨_, rfl⟩, ⟨_, rfl⟩⟩, by decide +kernel⟩

example : Part (cut wholeConfirmLink 6) (cut wholeConfirmLink 400) ∧
    odd confirmLink LLC.ConfirmLink.parseS LLC.ConfirmLink.parse
      { SenderMAC := List.replicate 6 1, SenderGID := List.replicate 16 1, SenderQP := 0xabcdef }
      (cut wholeConfirmLink 6) (cut wholeConfirmLink 400) 5 = true :=
  ⟨⟨⟨_, rfl⟩, ⟨_, rfl⟩⟩, by decide +kernel⟩

/-- C96 for AddLink: the MAC address and the GID may be zero, the number of the queue pair and the packet
number may be read in part -/
theorem C96_addLink_values_partial {m s' m' : LLC.AddLink} {short long : Slice} {l l' : List Bytes}
    (h : Part short long) (hs : LLC.AddLink.parseS short m = (.panic l, s')) (hl : m.parse long = .ret l' m') :
    Between addLinkWays (addLink m) (addLink m') (addLink s') :=
  Tail.addLink_between h hs hl

example : Part (cut wholeAddLink 30) (cut wholeAddLink 400) ∧
    odd addLink LLC.AddLink.parseS LLC.AddLink.parse
      { SenderMAC := List.replicate 6 1, SenderGID := List.replicate 16 1, SenderQP := 0xabcdef, PSN := 1 }
      (cut wholeAddLink 30) (cut wholeAddLink 400) 10 = true :=
  ⟨⟨⟨_, rfl⟩, ⟨_, rfl⟩⟩, by decide +kernel⟩

example : Part (cut wholeAddLink 20) (cut wholeAddLink 400) ∧
    odd addLink LLC.AddLink.parseS LLC.AddLink.parse
      { SenderMAC := List.replicate 6 1, SenderGID := List.replicate 16 1, SenderQP := 0xabcdef, PSN := 1 }
      (cut wholeAddLink 20) (cut wholeAddLink 400) 9 = true :=
  ⟨⟨⟨_, rfl⟩, ⟨_, rfl⟩⟩, by decide +kernel⟩

example : Part (cut wholeAddLink 6) (cut wholeAddLink 400) ∧
    odd addLink LLC.AddLink.parseS LLC.AddLink.parse
      { SenderMAC := List.replicate 6 1, SenderGID := List.replicate 16 1, SenderQP := 0xabcdef, PSN := 1 }
      (cut wholeAddLink 6) (cut wholeAddLink 400) 7 = true :=
  ⟨⟨⟨_, rfl⟩, ⟨_, rfl⟩⟩, by decide +kernel⟩

example : Part (cut wholeAddLink 35) (cut wholeAddLink 400) ∧
    odd addLink LLC.AddLink.parseS LLC.AddLink.parse
      { SenderMAC := List.replicate 6 1, SenderGID := List.replicate 16 1, SenderQP := 0xabcdef, PSN := 1 }
      (cut wholeAddLink 35) (cut wholeAddLink 400) 14 = true :=
  ⟨⟨⟨_, rfl⟩, ⟨_, rfl⟩⟩, by decide +kernel⟩

/-- C96 for AddLinkCont: the numbers of the RKey pairs are new up to one of them and old from there on -/
theorem C96_addLinkCont_values_partial {m s' m' : LLC.AddLinkCont} {short long : Slice} {l l' : List Bytes}
    (h : Part short long) (hs : LLC.AddLinkCont.parseS short m = (.panic l, s')) (hl : m.parse long = .ret l' m') :
    Between addLinkContWays (addLinkCont m) (addLinkCont m') (addLinkCont s') :=
  Tail.addLinkCont_between h hs hl

example : Part (cut wholeAddLinkCont 12) (cut wholeAddLinkCont 400) ∧
    odd addLinkCont LLC.AddLinkCont.parseS LLC.AddLinkCont.parse
      {}
      (cut wholeAddLinkCont 12) (cut wholeAddLinkCont 400) 8 = true :=
  ⟨⟨⟨_, rfl⟩, ⟨_, rfl⟩⟩, by decide +kernel⟩

/-- C96 for DeleteLink: every field is old or new -/
theorem C96_deleteLink_values {m s' m' : LLC.DeleteLink} {short long : Slice} {l l' : List Bytes}
    (h : Part short long) (hs : LLC.DeleteLink.parseS short m = (.panic l, s')) (hl : m.parse long = .ret l' m') (n : Nat) :
    (deleteLink s')[n]? = (deleteLink m)[n]? ∨ (deleteLink s')[n]? = (deleteLink m')[n]? := by
  rcases Tail.deleteLink_between h hs hl n with h | h | ⟨_, h, _⟩
  · exact .inl h
  · exact .inr h
  · cases h

example : ∃ l s' l' m', Part (cut wholeDeleteLink 7) (cut wholeDeleteLink 200) ∧
    LLC.DeleteLink.parseS (cut wholeDeleteLink 7) {} = (.panic l, s') ∧
    ({} : LLC.DeleteLink).parse (cut wholeDeleteLink 200) = .ret l' m' ∧
    deleteLink s' ≠ deleteLink m' ∧ deleteLink s' ≠ deleteLink {} :=
  by refine ⟨_, _, _, _, ⟨⟨_, rfl⟩, ⟨_, rfl⟩⟩, crashed rfl, rfl, ?_, ?_⟩ <;> decide +kernel

/-- C96 for ConfirmRKey: the numbers of the RMBs are new up to one of them and old from there on -/
theorem C96_confirmRKey_values_partial {m s' m' : LLC.ConfirmRKey} {short long : Slice} {l l' : List Bytes}
    (h : Part short long) (hs : LLC.ConfirmRKey.parseS short m = (.panic l, s')) (hl : m.parse long = .ret l' m') :
    Between confirmRKeyWays (confirmRKey m) (confirmRKey m') (confirmRKey s') :=
  Tail.confirmRKey_between h hs hl

example : Part (cut wholeConfirmRKey 20) (cut wholeConfirmRKey 400) ∧
    odd confirmRKey LLC.ConfirmRKey.parseS LLC.ConfirmRKey.parse
      {}
      (cut wholeConfirmRKey 20) (cut wholeConfirmRKey 400) 11 = true :=
  ⟨⟨⟨_, rfl⟩, ⟨_, rfl⟩⟩, by decide +kernel⟩

/-- C96 for ConfirmRKeyCont: the numbers of the RMBs are new up to one of them and old from there on -/
theorem C96_confirmRKeyCont_values_partial {m s' m' : LLC.ConfirmRKeyCont} {short long : Slice} {l l' : List Bytes}
    (h : Part short long) (hs : LLC.ConfirmRKeyCont.parseS short m = (.panic l, s')) (hl : m.parse long = .ret l' m') :
    Between confirmRKeyContWays (confirmRKeyCont m) (confirmRKeyCont m') (confirmRKeyCont s') :=
  Tail.confirmRKeyCont_between h hs hl

example : Part (cut wholeConfirmRKeyCont 8) (cut wholeConfirmRKeyCont 400) ∧
    odd confirmRKeyCont LLC.ConfirmRKeyCont.parseS LLC.ConfirmRKeyCont.parse
      {}
      (cut wholeConfirmRKeyCont 8) (cut wholeConfirmRKeyCont 400) 8 = true :=
  ⟨⟨⟨_, rfl⟩, ⟨_, rfl⟩⟩, by decide +kernel⟩

/-- C96 for DeleteRKey: the RKeys are new up to one of them and old from there on -/
theorem C96_deleteRKey_values_partial {m s' m' : LLC.DeleteRKey} {short long : Slice} {l l' : List Bytes}
    (h : Part short long) (hs : LLC.DeleteRKey.parseS short m = (.panic l, s')) (hl : m.parse long = .ret l' m') :
    Between deleteRKeyWays (deleteRKey m) (deleteRKey m') (deleteRKey s') :=
  Tail.deleteRKey_between h hs hl

example : Part (cut wholeDeleteRKey 13) (cut wholeDeleteRKey 400) ∧
    odd deleteRKey LLC.DeleteRKey.parseS LLC.DeleteRKey.parse
      {}
      (cut wholeDeleteRKey 13) (cut wholeDeleteRKey 400) 10 = true :=
  ⟨⟨⟨_, rfl⟩, ⟨_, rfl⟩⟩, by decide +kernel⟩

/-- C96 for TestLink: every field is old or new -/
theorem C96_testLink_values {m s' m' : LLC.TestLink} {short long : Slice} {l l' : List Bytes}
    (h : Part short long) (hs : LLC.TestLink.parseS short m = (.panic l, s')) (hl : m.parse long = .ret l' m') (n : Nat) :
    (testLink s')[n]? = (testLink m)[n]? ∨ (testLink s')[n]? = (testLink m')[n]? := by
  rcases Tail.testLink_between h hs hl n with h | h | ⟨_, h, _⟩
  · exact .inl h
  · exact .inr h
  · cases h

example : ∃ l s' l' m', Part (cut wholeTestLink 10) (cut wholeTestLink 200) ∧
    LLC.TestLink.parseS (cut wholeTestLink 10) {} = (.panic l, s') ∧
    ({} : LLC.TestLink).parse (cut wholeTestLink 200) = .ret l' m' ∧
    testLink s' ≠ testLink m' ∧ testLink s' ≠ testLink {} :=
  by refine ⟨_, _, _, _, ⟨⟨_, rfl⟩, ⟨_, rfl⟩⟩, crashed rfl, rfl, ?_, ?_⟩ <;> decide +kernel

/-- C96 for CDC: every field is old or new -/
theorem C96_cdc_values {m s' m' : LLC.CDC} {short long : Slice} {l l' : List Bytes}
    (h : Part short long) (hs : LLC.CDC.parseS short m = (.panic l, s')) (hl : m.parse long = .ret l' m') (n : Nat) :
    (cdc s')[n]? = (cdc m)[n]? ∨ (cdc s')[n]? = (cdc m')[n]? := by
  rcases Tail.cdc_between h hs hl n with h | h | ⟨_, h, _⟩
  · exact .inl h
  · exact .inr h
  · cases h

example : ∃ l s' l' m', Part (cut wholeCDC 13) (cut wholeCDC 200) ∧
    LLC.CDC.parseS (cut wholeCDC 13) {} = (.panic l, s') ∧
    ({} : LLC.CDC).parse (cut wholeCDC 200) = .ret l' m' ∧
    cdc s' ≠ cdc m' ∧ cdc s' ≠ cdc {} :=
  by refine ⟨_, _, _, _, ⟨⟨_, rfl⟩, ⟨_, rfl⟩⟩, crashed rfl, rfl, ?_, ?_⟩ <;> decide +kernel

/-- C96 for BTH: the number of the queue pair and the packet number may be read in part -/
theorem C96_bth_values_partial {m s' m' : RoCE.BTH} {short long : Slice} {l l' : List Bytes}
    (h : Part short long) (hs : RoCE.BTH.parseS short m = (.panic l, s')) (hl : m.parse long = .ret l' m') :
    Between bthWays (bth m) (bth m') (bth s') :=
  Tail.bth_between h hs hl

example : Part (cut wholeBTH 6) (cut wholeBTH 400) ∧
    odd bth RoCE.BTH.parseS RoCE.BTH.parse
      { DestQP := 0xffffff, PSN := 0xffffff }
      (cut wholeBTH 6) (cut wholeBTH 400) 9 = true :=
  ⟨⟨⟨_, rfl⟩, ⟨_, rfl⟩⟩, by decide +kernel⟩

example : Part (cut wholeBTH 10) (cut wholeBTH 400) ∧
    odd bth RoCE.BTH.parseS RoCE.BTH.parse
      { DestQP := 0xffffff, PSN := 0xffffff }
      (cut wholeBTH 10) (cut wholeBTH 400) 12 = true :=
  ⟨⟨⟨_, rfl⟩, ⟨_, rfl⟩⟩, by decide +kernel⟩

/-- C96 for Decline: every field is old or new -/
theorem C96_decline_values {m s' m' : CLC.Decline} {short long : Slice} {l l' : List Bytes}
    (h : Part short long) (hs : CLC.Decline.parseS short m = (.panic l, s')) (hl : m.parse long = .ret l' m') (n : Nat) :
    (decline s')[n]? = (decline m)[n]? ∨ (decline s')[n]? = (decline m')[n]? := by
  rcases Tail.decline_between h hs hl n with h | h | ⟨_, h, _⟩
  · exact .inl h
  · exact .inr h
  · cases h

example : ∃ l s' l' m', Part (cut wholeDecline 19) (cut wholeDecline 200) ∧
    CLC.Decline.parseS (cut wholeDecline 19) {} = (.panic l, s') ∧
    ({} : CLC.Decline).parse (cut wholeDecline 200) = .ret l' m' ∧
    decline s' ≠ decline m' ∧ decline s' ≠ decline {} :=
  by refine ⟨_, _, _, _, ⟨⟨_, rfl⟩, ⟨_, rfl⟩⟩, crashed rfl, rfl, ?_, ?_⟩ <;> decide +kernel

/-- C96 for DeclineV2: the bits of the operating system may still be in the reserved bytes -/
theorem C96_declineV2_values_partial {m s' m' : CLC.DeclineV2} {short long : Slice} {l l' : List Bytes}
    (h : Part short long) (hs : CLC.DeclineV2.parseS short m = (.panic l, s')) (hl : m.parse long = .ret l' m') :
    Between declineV2Ways (declineV2 m) (declineV2 m') (declineV2 s') :=
  Tail.declineV2_between h hs hl

example : Part ⟨wholeDeclineV2.take 20, wholeDeclineV2.drop 20⟩ ⟨wholeDeclineV2, []⟩ ∧
    odd declineV2 CLC.DeclineV2.parseS CLC.DeclineV2.parse {} ⟨wholeDeclineV2.take 20, wholeDeclineV2.drop 20⟩
      ⟨wholeDeclineV2, []⟩ 10 = true :=
  ⟨⟨⟨_, rfl⟩, ⟨_, rfl⟩⟩, by decide +kernel⟩

/-- C96 for AcceptSMCR: the GID and the MAC address may be zero, the number of the queue pair and the packet
number may be read in part -/
theorem C96_acceptSMCR_values_partial {m s' m' : CLC.AcceptSMCR} {short long : Slice} {l l' : List Bytes}
    (h : Part short long) (hs : CLC.AcceptSMCR.parseS short m = (.panic l, s')) (hl : m.parse long = .ret l' m') :
    Between acceptSMCRWays (acceptSMCR m) (acceptSMCR m') (acceptSMCR s') :=
  Tail.acceptSMCR_between h hs hl

example : Part (cut wholeAcceptSMCR 20) (cut wholeAcceptSMCR 400) ∧
    odd acceptSMCR CLC.AcceptSMCR.parseS CLC.AcceptSMCR.parse
      { IBGID := List.replicate 16 1, IBMAC := List.replicate 6 1, QPN := 1, PSN := 1 }
      (cut wholeAcceptSMCR 20) (cut wholeAcceptSMCR 400) 9 = true :=
  ⟨⟨⟨_, rfl⟩, ⟨_, rfl⟩⟩, by decide +kernel⟩

example : Part (cut wholeAcceptSMCR 34) (cut wholeAcceptSMCR 400) ∧
    odd acceptSMCR CLC.AcceptSMCR.parseS CLC.AcceptSMCR.parse
      { IBGID := List.replicate 16 1, IBMAC := List.replicate 6 1, QPN := 1, PSN := 1 }
      (cut wholeAcceptSMCR 34) (cut wholeAcceptSMCR 400) 10 = true :=
  ⟨⟨⟨_, rfl⟩, ⟨_, rfl⟩⟩, by decide +kernel⟩

example : Part (cut wholeAcceptSMCR 40) (cut wholeAcceptSMCR 400) ∧
    odd acceptSMCR CLC.AcceptSMCR.parseS CLC.AcceptSMCR.parse
      { IBGID := List.replicate 16 1, IBMAC := List.replicate 6 1, QPN := 1, PSN := 1 }
      (cut wholeAcceptSMCR 40) (cut wholeAcceptSMCR 400) 11 = true :=
  ⟨⟨⟨_, rfl⟩, ⟨_, rfl⟩⟩, by decide +kernel⟩

example : Part (cut wholeAcceptSMCR 62) (cut wholeAcceptSMCR 400) ∧
    odd acceptSMCR CLC.AcceptSMCR.parseS CLC.AcceptSMCR.parse
      { IBGID := List.replicate 16 1, IBMAC := List.replicate 6 1, QPN := 1, PSN := 1 }
      (cut wholeAcceptSMCR 62) (cut wholeAcceptSMCR 400) 20 = true :=
  ⟨⟨⟨_, rfl⟩, ⟨_, rfl⟩⟩, by decide +kernel⟩

/-- C96 for AcceptSMCD: every field is old or new -/
theorem C96_acceptSMCD_values {m s' m' : CLC.AcceptSMCD} {short long : Slice} {l l' : List Bytes}
    (h : Part short long) (hs : CLC.AcceptSMCD.parseS short m = (.panic l, s')) (hl : m.parse long = .ret l' m') (n : Nat) :
    (acceptSMCD s')[n]? = (acceptSMCD m)[n]? ∨ (acceptSMCD s')[n]? = (acceptSMCD m')[n]? := by
  rcases Tail.acceptSMCD_between h hs hl n with h | h | ⟨_, h, _⟩
  · exact .inl h
  · exact .inr h
  · cases h

example : ∃ l s' l' m', Part (cut wholeAcceptSMCD 20) (cut wholeAcceptSMCD 200) ∧
    CLC.AcceptSMCD.parseS (cut wholeAcceptSMCD 20) {} = (.panic l, s') ∧
    ({} : CLC.AcceptSMCD).parse (cut wholeAcceptSMCD 200) = .ret l' m' ∧
    acceptSMCD s' ≠ acceptSMCD m' ∧ acceptSMCD s' ≠ acceptSMCD {} :=
  by refine ⟨_, _, _, _, ⟨⟨_, rfl⟩, ⟨_, rfl⟩⟩, crashed rfl, rfl, ?_, ?_⟩ <;> decide +kernel

/-- C96 for AcceptSMCDv2: every field is old or new -/
theorem C96_acceptSMCDv2_values {m s' m' : CLC.AcceptSMCDv2} {short long : Slice} {l l' : List Bytes}
    (h : Part short long) (hs : CLC.AcceptSMCDv2.parseS short m = (.panic l, s')) (hl : m.parse long = .ret l' m') (n : Nat) :
    (acceptSMCDv2 s')[n]? = (acceptSMCDv2 m)[n]? ∨ (acceptSMCDv2 s')[n]? = (acceptSMCDv2 m')[n]? := by
  rcases Tail.acceptSMCDv2_between h hs hl n with h | h | ⟨_, h, _⟩
  · exact .inl h
  · exact .inr h
  · cases h

set_option maxRecDepth 4000 in
example : ∃ l s' l' m', Part (cut wholeAcceptSMCDv2 20) (cut wholeAcceptSMCDv2 200) ∧
    CLC.AcceptSMCDv2.parseS (cut wholeAcceptSMCDv2 20) {} = (.panic l, s') ∧
    ({} : CLC.AcceptSMCDv2).parse (cut wholeAcceptSMCDv2 200) = .ret l' m' ∧
    acceptSMCDv2 s' ≠ acceptSMCDv2 m' ∧ acceptSMCDv2 s' ≠ acceptSMCDv2 {} :=
  by refine ⟨_, _, _, _, ⟨⟨_, rfl⟩, ⟨_, rfl⟩⟩, crashed rfl, rfl, ?_, ?_⟩ <;> decide +kernel

/-- C96 for Proposal: the GID, the MAC address and the prefix may be zero, some of the IPv6 prefixes may have been appended -/
theorem C96_proposal_values_partial {m s' m' : CLC.Proposal} {short long : Slice} {l l' : List Bytes}
    (h : Part short long) (hs : CLC.Proposal.parseS short m = (.panic l, s')) (hl : m.parse long = .ret l' m') :
    Between proposalWays (proposal m) (proposal m') (proposal s') :=
  Tail.proposal_between h hs hl

example : Part (cut twoPrefixes 20) (cut twoPrefixes 400) ∧
    odd proposal CLC.Proposal.parseS CLC.Proposal.parse
      { IBGID := List.replicate 16 1, IBMAC := List.replicate 6 1, Prefix := List.replicate 4 1 }
      (cut twoPrefixes 20) (cut twoPrefixes 400) 9 = true :=
  ⟨⟨⟨_, rfl⟩, ⟨_, rfl⟩⟩, by decide +kernel⟩

example : Part (cut twoPrefixes 34) (cut twoPrefixes 400) ∧
    odd proposal CLC.Proposal.parseS CLC.Proposal.parse
      { IBGID := List.replicate 16 1, IBMAC := List.replicate 6 1, Prefix := List.replicate 4 1 }
      (cut twoPrefixes 34) (cut twoPrefixes 400) 10 = true :=
  ⟨⟨⟨_, rfl⟩, ⟨_, rfl⟩⟩, by decide +kernel⟩

example : Part (cut twoPrefixes 42) (cut twoPrefixes 400) ∧
    odd proposal CLC.Proposal.parseS CLC.Proposal.parse
      { IBGID := List.replicate 16 1, IBMAC := List.replicate 6 1, Prefix := List.replicate 4 1 }
      (cut twoPrefixes 42) (cut twoPrefixes 400) 14 = true :=
  ⟨⟨⟨_, rfl⟩, ⟨_, rfl⟩⟩, by decide +kernel⟩

example : Part (cut twoPrefixes 70) (cut twoPrefixes 400) ∧
    odd proposal CLC.Proposal.parseS CLC.Proposal.parse
      { IBGID := List.replicate 16 1, IBMAC := List.replicate 6 1, Prefix := List.replicate 4 1 }
      (cut twoPrefixes 70) (cut twoPrefixes 400) 18 = true :=
  ⟨⟨⟨_, rfl⟩, ⟨_, rfl⟩⟩, by decide +kernel⟩

/-- C96 for ProposalV2: the GID, the MAC address and the prefix may be zero, some of the IPv6 prefixes may have been
appended, the EIDs and the numbers of the GIDs are new up to one of them and old from there on -/
theorem C96_proposalV2_values_partial {m s' m' : CLC.ProposalV2} {short long : Slice} {l l' : List Bytes}
    (h : Part short long) (hs : CLC.ProposalV2.parseS short m = (.panic l, s')) (hl : m.parse long = .ret l' m') :
    Between proposalV2Ways (proposalV2 m) (proposalV2 m') (proposalV2 s') :=
  Tail.proposalV2_between h hs hl

example : Part (cut twoOfEach 20) (cut twoOfEach 400) ∧
    odd proposalV2 CLC.ProposalV2.parseS CLC.ProposalV2.parse
      { IBGID := List.replicate 16 1, IBMAC := List.replicate 6 1, Prefix := List.replicate 4 1 }
      (cut twoOfEach 20) (cut twoOfEach 400) 9 = true :=
  ⟨⟨⟨_, rfl⟩, ⟨_, rfl⟩⟩, by decide +kernel⟩

example : Part (cut twoOfEach 34) (cut twoOfEach 400) ∧
    odd proposalV2 CLC.ProposalV2.parseS CLC.ProposalV2.parse
      { IBGID := List.replicate 16 1, IBMAC := List.replicate 6 1, Prefix := List.replicate 4 1 }
      (cut twoOfEach 34) (cut twoOfEach 400) 10 = true :=
  ⟨⟨⟨_, rfl⟩, ⟨_, rfl⟩⟩, by decide +kernel⟩

example : Part (cut twoOfEach 82) (cut twoOfEach 400) ∧
    odd proposalV2 CLC.ProposalV2.parseS CLC.ProposalV2.parse
      { IBGID := List.replicate 16 1, IBMAC := List.replicate 6 1, Prefix := List.replicate 4 1 }
      (cut twoOfEach 82) (cut twoOfEach 400) 16 = true :=
  ⟨⟨⟨_, rfl⟩, ⟨_, rfl⟩⟩, by decide +kernel⟩

example : Part (cut twoOfEach 110) (cut twoOfEach 400) ∧
    odd proposalV2 CLC.ProposalV2.parseS CLC.ProposalV2.parse
      { IBGID := List.replicate 16 1, IBMAC := List.replicate 6 1, Prefix := List.replicate 4 1 }
      (cut twoOfEach 110) (cut twoOfEach 400) 20 = true :=
  ⟨⟨⟨_, rfl⟩, ⟨_, rfl⟩⟩, by decide +kernel⟩

set_option maxRecDepth 4000 in
example : Part (cut twoOfEach 200) (cut twoOfEach 400) ∧
    odd proposalV2 CLC.ProposalV2.parseS CLC.ProposalV2.parse
      { IBGID := List.replicate 16 1, IBMAC := List.replicate 6 1, Prefix := List.replicate 4 1 }
      (cut twoOfEach 200) (cut twoOfEach 400) 30 = true :=
  ⟨⟨⟨_, rfl⟩, ⟨_, rfl⟩⟩, by decide +kernel⟩

set_option maxRecDepth 4000 in
example : Part (cut twoOfEach 282) (cut twoOfEach 400) ∧
    odd proposalV2 CLC.ProposalV2.parseS CLC.ProposalV2.parse
      { IBGID := List.replicate 16 1, IBMAC := List.replicate 6 1, Prefix := List.replicate 4 1 }
      (cut twoOfEach 282) (cut twoOfEach 400) 33 = true :=
  ⟨⟨⟨_, rfl⟩, ⟨_, rfl⟩⟩, by decide +kernel⟩

end SMC.Props
