import Verif.Lemmas.TailCLC
/-!
# C96: what a crash of `Parse` leaves in the message

`T.parseS` (`Verif/Crash/`) are the methods again, with every assignment to the receiver as a step, so that the
receiver is known when they panic. `Left` is in `Verif/Spec/Left.lean`.
-/

namespace SMC.Props
open Left

/-- a message of which the last bytes are missing -/
def cut (b : Bytes) (n : Nat) : Slice := ⟨b.take n, []⟩

theorem crashed {σ : Type} {x : Go Unit × σ} {l : List Bytes} (h : x.1 = .panic l) : x = (.panic l, x.2) := Prod.ext h rfl

/-! ## The two models -/

/-- C96: the methods with every assignment as a step return what the methods return and log the same -/
theorem C96_agree_llc (buffer : Slice) :
    (∀ m, SGo.final (LLC.Other.parseS buffer) m = m.parse buffer) ∧
    (∀ m, SGo.final (LLC.ConfirmLink.parseS buffer) m = m.parse buffer) ∧
    (∀ m, SGo.final (LLC.AddLink.parseS buffer) m = m.parse buffer) ∧
    (∀ m, SGo.final (LLC.AddLinkCont.parseS buffer) m = m.parse buffer) ∧
    (∀ m, SGo.final (LLC.DeleteLink.parseS buffer) m = m.parse buffer) ∧
    (∀ m, SGo.final (LLC.ConfirmRKey.parseS buffer) m = m.parse buffer) ∧
    (∀ m, SGo.final (LLC.ConfirmRKeyCont.parseS buffer) m = m.parse buffer) ∧
    (∀ m, SGo.final (LLC.DeleteRKey.parseS buffer) m = m.parse buffer) ∧
    (∀ m, SGo.final (LLC.TestLink.parseS buffer) m = m.parse buffer) ∧
    (∀ m, SGo.final (LLC.CDC.parseS buffer) m = m.parse buffer) ∧
    (∀ m, SGo.final (RoCE.BTH.parseS buffer) m = m.parse buffer) :=
  ⟨LLC.Other.final_parseS buffer, LLC.ConfirmLink.final_parseS buffer, LLC.AddLink.final_parseS buffer,
   LLC.AddLinkCont.final_parseS buffer, LLC.DeleteLink.final_parseS buffer, LLC.ConfirmRKey.final_parseS buffer,
   LLC.ConfirmRKeyCont.final_parseS buffer, LLC.DeleteRKey.final_parseS buffer, LLC.TestLink.final_parseS buffer,
   LLC.CDC.final_parseS buffer, RoCE.BTH.final_parseS buffer⟩

theorem C96_agree_clc (buf : Slice) :
    (∀ m, SGo.final (CLC.Decline.parseS buf) m = m.parse buf) ∧
    (∀ m, SGo.final (CLC.DeclineV2.parseS buf) m = m.parse buf) ∧
    (∀ m, SGo.final (CLC.AcceptSMCR.parseS buf) m = m.parse buf) ∧
    (∀ m, SGo.final (CLC.AcceptSMCD.parseS buf) m = m.parse buf) ∧
    (∀ m, SGo.final (CLC.AcceptSMCDv2.parseS buf) m = m.parse buf) ∧
    (∀ m, SGo.final (CLC.Proposal.parseS buf) m = m.parse buf) ∧
    (∀ m, SGo.final (CLC.ProposalV2.parseS buf) m = m.parse buf) :=
  ⟨CLC.Decline.final_parseS buf, CLC.DeclineV2.final_parseS buf, CLC.AcceptSMCR.final_parseS buf,
   CLC.AcceptSMCD.final_parseS buf, CLC.AcceptSMCDv2.final_parseS buf, CLC.Proposal.final_parseS buf,
   CLC.ProposalV2.final_parseS buf⟩

/-! ## Fields that are neither old nor new -/

/-- a complete ConfirmLink -/
def wholeConfirmLink : Bytes := hex! "01 2c 00 80 02 00 00 00 00 01 fe 80 00 00 00 00 00 00" ++
    hex! "02 00 00 ff fe 00 00 01 12 34 56 01 00 00 00 07 02" ++ zeros 9

/-- a complete AddLink -/
def wholeAddLink : Bytes := hex! "02 2c 00 80 02 00 00 00 00 01 00 00 fe 80 00 00 00 00" ++
    hex! "00 00 02 00 00 ff fe 00 00 01 12 34 56 01 03 ab cd ef" ++ zeros 8

/-- a complete AddLinkCont -/
def wholeAddLinkCont : Bytes := hex! "03 2c 00 80 01 02 00 00" ++
    hex! "00 00 00 01 00 00 00 02 00 00 00 00 00 00 00 03" ++
    hex! "00 00 00 04 00 00 00 05 00 00 00 00 00 00 00 06" ++ zeros 4

/-- a complete DeleteLink -/
def wholeDeleteLink : Bytes := hex! "04 2c 00 60 01 00 01 00 00" ++ zeros 35

/-- a complete ConfirmRKey -/
def wholeConfirmRKey : Bytes := hex! "06 2c 00 80 02 00 00 00 01 00 00 00 00 00 00 00 02" ++
    hex! "01 00 00 00 03 00 00 00 00 00 00 00 04" ++ hex! "02 00 00 00 05 00 00 00 00 00 00 00 06" ++ [0]

/-- a complete ConfirmRKeyCont -/
def wholeConfirmRKeyCont : Bytes := hex! "08 2c 00 80 03" ++ hex! "01 00 00 00 03 00 00 00 00 00 00 00 04" ++
    hex! "02 00 00 00 05 00 00 00 00 00 00 00 06" ++ zeros 14

/-- a complete DeleteRKey -/
def wholeDeleteRKey : Bytes := hex! "09 2c 00 80 02 00 00 00 00 00 00 01 00 00 00 02" ++ zeros 28

/-- a complete TestLink -/
def wholeTestLink : Bytes := hex! "07 2c 00 80" ++ List.replicate 16 0xab ++ zeros 24

/-- a complete CDC -/
def wholeCDC : Bytes := hex! "fe 2c 00 01 00 00 00 02 00 00 00 03 00 00 00 04 00 00 00 05 00 00 00 06 80 80" ++
    zeros 18

/-- a complete BTH -/
def wholeBTH : Bytes := hex! "04 40 ff ff 00 00 01 23 80 00 00 07"

/-- a complete Decline -/
def wholeDecline : Bytes := hex! "e2 d4 c3 d9 04 00 1c 10" ++ hex! "00 01 02 00 00 00 00 01" ++
    hex! "03 00 00 00" ++ hex! "11 22 33 44" ++ hex! "e2 d4 c3 d9"

/-- a complete DeclineV2 -/
def wholeDeclineV2 : Bytes := hex! "e2 d4 c3 d9 04 00 1c 20" ++ hex! "00 01 02 00 00 00 00 01" ++
    hex! "03 00 00 00" ++ hex! "11 22 33 44" ++ hex! "e2 d4 c3 d9"

/-- a complete AcceptSMCR -/
def wholeAcceptSMCR : Bytes := hex! "e2 d4 c3 d9 02 00 44 10" ++ hex! "00 01 02 00 00 00 00 01" ++
    List.replicate 48 0xab ++ hex! "e2 d4 c3 d9"

/-- a complete AcceptSMCD -/
def wholeAcceptSMCD : Bytes := hex! "e2 d4 c3 d9 02 00 30 11" ++ List.replicate 36 0xab ++ hex! "e2 d4 c3 d9"

/-- a complete AcceptSMCDv2 -/
def wholeAcceptSMCDv2 : Bytes := hex! "e2 d4 c3 d9 02 00 72 21" ++ List.replicate 102 0xab ++ hex! "e2 d4 c3 d9"

/-- a complete Proposal -/
def wholeProposal : Bytes := hex! "e2 d4 c3 d9 01 00 34 10" ++ hex! "00 01 02 00 00 00 00 01" ++
    List.replicate 22 0xab ++ [0, 0] ++ hex! "0a 00 00 00 18 00 00 00" ++ hex! "e2 d4 c3 d9"

/-- a complete ProposalV2 -/
def wholeProposalV2 : Bytes := hex! "e2 d4 c3 d9 01 00 ae 28" ++ List.replicate 79 0xab ++ [1] ++
    List.replicate 17 0xab ++ zeros 48 ++ hex! "e2 d4 c3 d9"

/-- C96 is false: a field may have a value it had neither before nor would have in the end. Numbers of 24 bits are
put together from three bytes one after another. -/
theorem C96_number_false : ∃ (m s' m' : LLC.ConfirmLink) (short long : Slice) (l l' : List Bytes), Part short long ∧
    LLC.ConfirmLink.parseS short m = (.panic l, s') ∧ m.parse long = .ret l' m' ∧
    m.SenderQP = 0xabcdef ∧ m'.SenderQP = 0x123456 ∧ s'.SenderQP = 0x120000 :=
  ⟨{ SenderQP := 0xabcdef }, _, _, cut wholeConfirmLink 27, cut wholeConfirmLink 44, _, _, ⟨⟨_, rfl⟩, ⟨_, rfl⟩⟩, rfl, rfl,
    rfl, rfl, rfl⟩

/-- C96 is false for addresses, too: they are made before they are read. -/
theorem C96_address_false : ∃ (m s' m' : CLC.Proposal) (short long : Slice) (l l' : List Bytes), Part short long ∧
    CLC.Proposal.parseS short m = (.panic l, s') ∧ m.parse long = .ret l' m' ∧
    m.IBGID = List.replicate 16 1 ∧ m'.IBGID = List.replicate 16 0xab ∧ s'.IBGID = zeros 16 :=
  ⟨{ IBGID := List.replicate 16 1 }, _, _, cut wholeProposal 20, cut wholeProposal 52, _, _, ⟨⟨_, rfl⟩, ⟨_, rfl⟩⟩, rfl, rfl,
    rfl, rfl, rfl⟩

/-! ## At most one such field

In each case: one field may have any value. The fields before it are as if the message had been complete, the ones after it are as
they were. All fields that are completely in the bytes are as if the message had been complete. -/

/-- C96 for ConfirmLink -/
theorem C96_confirmLink_partial {m s' m' : LLC.ConfirmLink} {short long : Slice} {l l' : List Bytes} (h : Part short long)
    (hs : LLC.ConfirmLink.parseS short m = (.panic l, s')) (hl : m.parse long = .ret l' m') :
    Left confirmLinkEnds short.len (confirmLink m) (confirmLink m') (confirmLink s') ∧
      s'.base.Raw = copyInto (zeros short.len) short.vis :=
  Tail.confirmLink_left h hs hl

example : ∃ l s' l' m', Part (cut wholeConfirmLink 27) (cut wholeConfirmLink 200) ∧
    LLC.ConfirmLink.parseS (cut wholeConfirmLink 27) {} = (.panic l, s') ∧
    ({} : LLC.ConfirmLink).parse (cut wholeConfirmLink 200) = .ret l' m' ∧
    confirmLink s' ≠ confirmLink m' ∧ confirmLink s' ≠ confirmLink {} :=
  by refine ⟨_, _, _, _, ⟨⟨_, rfl⟩, ⟨_, rfl⟩⟩, crashed rfl, rfl, ?_, ?_⟩ <;> decide +kernel

/-- C96 for AddLink -/
theorem C96_addLink_partial {m s' m' : LLC.AddLink} {short long : Slice} {l l' : List Bytes} (h : Part short long)
    (hs : LLC.AddLink.parseS short m = (.panic l, s')) (hl : m.parse long = .ret l' m') :
    Left addLinkEnds short.len (addLink m) (addLink m') (addLink s') ∧
      s'.base.Raw = copyInto (zeros short.len) short.vis :=
  Tail.addLink_left h hs hl

example : ∃ l s' l' m', Part (cut wholeAddLink 29) (cut wholeAddLink 200) ∧
    LLC.AddLink.parseS (cut wholeAddLink 29) {} = (.panic l, s') ∧
    ({} : LLC.AddLink).parse (cut wholeAddLink 200) = .ret l' m' ∧
    addLink s' ≠ addLink m' ∧ addLink s' ≠ addLink {} :=
  by refine ⟨_, _, _, _, ⟨⟨_, rfl⟩, ⟨_, rfl⟩⟩, crashed rfl, rfl, ?_, ?_⟩ <;> decide +kernel

/-- C96 for AddLinkCont -/
theorem C96_addLinkCont_partial {m s' m' : LLC.AddLinkCont} {short long : Slice} {l l' : List Bytes} (h : Part short long)
    (hs : LLC.AddLinkCont.parseS short m = (.panic l, s')) (hl : m.parse long = .ret l' m') :
    Left addLinkContEnds short.len (addLinkCont m) (addLinkCont m') (addLinkCont s') ∧
      s'.base.Raw = copyInto (zeros short.len) short.vis :=
  Tail.addLinkCont_left h hs hl

example : ∃ l s' l' m', Part (cut wholeAddLinkCont 30) (cut wholeAddLinkCont 200) ∧
    LLC.AddLinkCont.parseS (cut wholeAddLinkCont 30) {} = (.panic l, s') ∧
    ({} : LLC.AddLinkCont).parse (cut wholeAddLinkCont 200) = .ret l' m' ∧
    addLinkCont s' ≠ addLinkCont m' ∧ addLinkCont s' ≠ addLinkCont {} :=
  by refine ⟨_, _, _, _, ⟨⟨_, rfl⟩, ⟨_, rfl⟩⟩, crashed rfl, rfl, ?_, ?_⟩ <;> decide +kernel

/-- C96 for DeleteLink -/
theorem C96_deleteLink_partial {m s' m' : LLC.DeleteLink} {short long : Slice} {l l' : List Bytes} (h : Part short long)
    (hs : LLC.DeleteLink.parseS short m = (.panic l, s')) (hl : m.parse long = .ret l' m') :
    Left deleteLinkEnds short.len (deleteLink m) (deleteLink m') (deleteLink s') ∧
      s'.base.Raw = copyInto (zeros short.len) short.vis :=
  Tail.deleteLink_left h hs hl

example : ∃ l s' l' m', Part (cut wholeDeleteLink 7) (cut wholeDeleteLink 200) ∧
    LLC.DeleteLink.parseS (cut wholeDeleteLink 7) {} = (.panic l, s') ∧
    ({} : LLC.DeleteLink).parse (cut wholeDeleteLink 200) = .ret l' m' ∧
    deleteLink s' ≠ deleteLink m' ∧ deleteLink s' ≠ deleteLink {} :=
  by refine ⟨_, _, _, _, ⟨⟨_, rfl⟩, ⟨_, rfl⟩⟩, crashed rfl, rfl, ?_, ?_⟩ <;> decide +kernel

/-- C96 for ConfirmRKey -/
theorem C96_confirmRKey_partial {m s' m' : LLC.ConfirmRKey} {short long : Slice} {l l' : List Bytes} (h : Part short long)
    (hs : LLC.ConfirmRKey.parseS short m = (.panic l, s')) (hl : m.parse long = .ret l' m') :
    Left confirmRKeyEnds short.len (confirmRKey m) (confirmRKey m') (confirmRKey s') ∧
      s'.base.Raw = copyInto (zeros short.len) short.vis :=
  Tail.confirmRKey_left h hs hl

example : ∃ l s' l' m', Part (cut wholeConfirmRKey 12) (cut wholeConfirmRKey 200) ∧
    LLC.ConfirmRKey.parseS (cut wholeConfirmRKey 12) {} = (.panic l, s') ∧
    ({} : LLC.ConfirmRKey).parse (cut wholeConfirmRKey 200) = .ret l' m' ∧
    confirmRKey s' ≠ confirmRKey m' ∧ confirmRKey s' ≠ confirmRKey {} :=
  by refine ⟨_, _, _, _, ⟨⟨_, rfl⟩, ⟨_, rfl⟩⟩, crashed rfl, rfl, ?_, ?_⟩ <;> decide +kernel

/-- C96 for ConfirmRKeyCont -/
theorem C96_confirmRKeyCont_partial {m s' m' : LLC.ConfirmRKeyCont} {short long : Slice} {l l' : List Bytes} (h : Part short long)
    (hs : LLC.ConfirmRKeyCont.parseS short m = (.panic l, s')) (hl : m.parse long = .ret l' m') :
    Left confirmRKeyContEnds short.len (confirmRKeyCont m) (confirmRKeyCont m') (confirmRKeyCont s') ∧
      s'.base.Raw = copyInto (zeros short.len) short.vis :=
  Tail.confirmRKeyCont_left h hs hl

example : ∃ l s' l' m', Part (cut wholeConfirmRKeyCont 20) (cut wholeConfirmRKeyCont 200) ∧
    LLC.ConfirmRKeyCont.parseS (cut wholeConfirmRKeyCont 20) {} = (.panic l, s') ∧
    ({} : LLC.ConfirmRKeyCont).parse (cut wholeConfirmRKeyCont 200) = .ret l' m' ∧
    confirmRKeyCont s' ≠ confirmRKeyCont m' ∧ confirmRKeyCont s' ≠ confirmRKeyCont {} :=
  by refine ⟨_, _, _, _, ⟨⟨_, rfl⟩, ⟨_, rfl⟩⟩, crashed rfl, rfl, ?_, ?_⟩ <;> decide +kernel

/-- C96 for DeleteRKey -/
theorem C96_deleteRKey_partial {m s' m' : LLC.DeleteRKey} {short long : Slice} {l l' : List Bytes} (h : Part short long)
    (hs : LLC.DeleteRKey.parseS short m = (.panic l, s')) (hl : m.parse long = .ret l' m') :
    Left deleteRKeyEnds short.len (deleteRKey m) (deleteRKey m') (deleteRKey s') ∧
      s'.base.Raw = copyInto (zeros short.len) short.vis :=
  Tail.deleteRKey_left h hs hl

example : ∃ l s' l' m', Part (cut wholeDeleteRKey 14) (cut wholeDeleteRKey 200) ∧
    LLC.DeleteRKey.parseS (cut wholeDeleteRKey 14) {} = (.panic l, s') ∧
    ({} : LLC.DeleteRKey).parse (cut wholeDeleteRKey 200) = .ret l' m' ∧
    deleteRKey s' ≠ deleteRKey m' ∧ deleteRKey s' ≠ deleteRKey {} :=
  by refine ⟨_, _, _, _, ⟨⟨_, rfl⟩, ⟨_, rfl⟩⟩, crashed rfl, rfl, ?_, ?_⟩ <;> decide +kernel

/-- C96 for TestLink -/
theorem C96_testLink_partial {m s' m' : LLC.TestLink} {short long : Slice} {l l' : List Bytes} (h : Part short long)
    (hs : LLC.TestLink.parseS short m = (.panic l, s')) (hl : m.parse long = .ret l' m') :
    Left testLinkEnds short.len (testLink m) (testLink m') (testLink s') ∧
      s'.base.Raw = copyInto (zeros short.len) short.vis :=
  Tail.testLink_left h hs hl

example : ∃ l s' l' m', Part (cut wholeTestLink 10) (cut wholeTestLink 200) ∧
    LLC.TestLink.parseS (cut wholeTestLink 10) {} = (.panic l, s') ∧
    ({} : LLC.TestLink).parse (cut wholeTestLink 200) = .ret l' m' ∧
    testLink s' ≠ testLink m' ∧ testLink s' ≠ testLink {} :=
  by refine ⟨_, _, _, _, ⟨⟨_, rfl⟩, ⟨_, rfl⟩⟩, crashed rfl, rfl, ?_, ?_⟩ <;> decide +kernel

/-- C96 for CDC -/
theorem C96_cdc_partial {m s' m' : LLC.CDC} {short long : Slice} {l l' : List Bytes} (h : Part short long)
    (hs : LLC.CDC.parseS short m = (.panic l, s')) (hl : m.parse long = .ret l' m') :
    Left cdcEnds short.len (cdc m) (cdc m') (cdc s') ∧
      s'.base.Raw = copyInto (zeros short.len) short.vis :=
  Tail.cdc_left h hs hl

example : ∃ l s' l' m', Part (cut wholeCDC 14) (cut wholeCDC 200) ∧
    LLC.CDC.parseS (cut wholeCDC 14) {} = (.panic l, s') ∧
    ({} : LLC.CDC).parse (cut wholeCDC 200) = .ret l' m' ∧
    cdc s' ≠ cdc m' ∧ cdc s' ≠ cdc {} :=
  by refine ⟨_, _, _, _, ⟨⟨_, rfl⟩, ⟨_, rfl⟩⟩, crashed rfl, rfl, ?_, ?_⟩ <;> decide +kernel

/-- C96 for BTH -/
theorem C96_bth_partial {m s' m' : RoCE.BTH} {short long : Slice} {l l' : List Bytes} (h : Part short long)
    (hs : RoCE.BTH.parseS short m = (.panic l, s')) (hl : m.parse long = .ret l' m') :
    Left bthEnds short.len (bth m) (bth m') (bth s') ∧
      s'.Raw = copyInto (zeros short.len) short.vis :=
  Tail.bth_left h hs hl

example : ∃ l s' l' m', Part (cut wholeBTH 6) (cut wholeBTH 200) ∧
    RoCE.BTH.parseS (cut wholeBTH 6) {} = (.panic l, s') ∧
    ({} : RoCE.BTH).parse (cut wholeBTH 200) = .ret l' m' ∧
    bth s' ≠ bth m' ∧ bth s' ≠ bth {} :=
  by refine ⟨_, _, _, _, ⟨⟨_, rfl⟩, ⟨_, rfl⟩⟩, crashed rfl, rfl, ?_, ?_⟩ <;> decide +kernel

/-- C96 for Decline -/
theorem C96_decline_partial {m s' m' : CLC.Decline} {short long : Slice} {l l' : List Bytes} (h : Part short long)
    (hs : CLC.Decline.parseS short m = (.panic l, s')) (hl : m.parse long = .ret l' m') :
    Left declineEnds short.len (decline m) (decline m') (decline s') ∧
      s'.raw = short :=
  Tail.decline_left h hs hl

example : ∃ l s' l' m', Part (cut wholeDecline 18) (cut wholeDecline 200) ∧
    CLC.Decline.parseS (cut wholeDecline 18) {} = (.panic l, s') ∧
    ({} : CLC.Decline).parse (cut wholeDecline 200) = .ret l' m' ∧
    decline s' ≠ decline m' ∧ decline s' ≠ decline {} :=
  by refine ⟨_, _, _, _, ⟨⟨_, rfl⟩, ⟨_, rfl⟩⟩, crashed rfl, rfl, ?_, ?_⟩ <;> decide +kernel

/-- C96 for DeclineV2 -/
theorem C96_declineV2_partial {m s' m' : CLC.DeclineV2} {short long : Slice} {l l' : List Bytes} (h : Part short long)
    (hs : CLC.DeclineV2.parseS short m = (.panic l, s')) (hl : m.parse long = .ret l' m') :
    Left declineEnds short.len (declineV2 m) (declineV2 m') (declineV2 s') ∧
      s'.raw = short :=
  Tail.declineV2_left h hs hl

example : ∃ l s' l' m', Part (cut wholeDeclineV2 21) (cut wholeDeclineV2 200) ∧
    CLC.DeclineV2.parseS (cut wholeDeclineV2 21) {} = (.panic l, s') ∧
    ({} : CLC.DeclineV2).parse (cut wholeDeclineV2 200) = .ret l' m' ∧
    declineV2 s' ≠ declineV2 m' ∧ declineV2 s' ≠ declineV2 {} :=
  by refine ⟨_, _, _, _, ⟨⟨_, rfl⟩, ⟨_, rfl⟩⟩, crashed rfl, rfl, ?_, ?_⟩ <;> decide +kernel

/-- C96 for AcceptSMCR -/
theorem C96_acceptSMCR_partial {m s' m' : CLC.AcceptSMCR} {short long : Slice} {l l' : List Bytes} (h : Part short long)
    (hs : CLC.AcceptSMCR.parseS short m = (.panic l, s')) (hl : m.parse long = .ret l' m') :
    Left acceptSMCREnds short.len (acceptSMCR m) (acceptSMCR m') (acceptSMCR s') ∧
      s'.raw = short :=
  Tail.acceptSMCR_left h hs hl

example : ∃ l s' l' m', Part (cut wholeAcceptSMCR 40) (cut wholeAcceptSMCR 200) ∧
    CLC.AcceptSMCR.parseS (cut wholeAcceptSMCR 40) {} = (.panic l, s') ∧
    ({} : CLC.AcceptSMCR).parse (cut wholeAcceptSMCR 200) = .ret l' m' ∧
    acceptSMCR s' ≠ acceptSMCR m' ∧ acceptSMCR s' ≠ acceptSMCR {} :=
  by refine ⟨_, _, _, _, ⟨⟨_, rfl⟩, ⟨_, rfl⟩⟩, crashed rfl, rfl, ?_, ?_⟩ <;> decide +kernel

/-- C96 for AcceptSMCD -/
theorem C96_acceptSMCD_partial {m s' m' : CLC.AcceptSMCD} {short long : Slice} {l l' : List Bytes} (h : Part short long)
    (hs : CLC.AcceptSMCD.parseS short m = (.panic l, s')) (hl : m.parse long = .ret l' m') :
    Left acceptSMCDEnds short.len (acceptSMCD m) (acceptSMCD m') (acceptSMCD s') ∧
      s'.raw = short :=
  Tail.acceptSMCD_left h hs hl

example : ∃ l s' l' m', Part (cut wholeAcceptSMCD 30) (cut wholeAcceptSMCD 200) ∧
    CLC.AcceptSMCD.parseS (cut wholeAcceptSMCD 30) {} = (.panic l, s') ∧
    ({} : CLC.AcceptSMCD).parse (cut wholeAcceptSMCD 200) = .ret l' m' ∧
    acceptSMCD s' ≠ acceptSMCD m' ∧ acceptSMCD s' ≠ acceptSMCD {} :=
  by refine ⟨_, _, _, _, ⟨⟨_, rfl⟩, ⟨_, rfl⟩⟩, crashed rfl, rfl, ?_, ?_⟩ <;> decide +kernel

/-- C96 for AcceptSMCDv2 -/
theorem C96_acceptSMCDv2_partial {m s' m' : CLC.AcceptSMCDv2} {short long : Slice} {l l' : List Bytes} (h : Part short long)
    (hs : CLC.AcceptSMCDv2.parseS short m = (.panic l, s')) (hl : m.parse long = .ret l' m') :
    Left headerEnds short.len (acceptSMCDv2 m) (acceptSMCDv2 m') (acceptSMCDv2 s') ∧
      s'.raw = short :=
  Tail.acceptSMCDv2_left h hs hl

set_option maxRecDepth 4000 in
example : ∃ l s' l' m', Part (cut wholeAcceptSMCDv2 90) (cut wholeAcceptSMCDv2 200) ∧
    CLC.AcceptSMCDv2.parseS (cut wholeAcceptSMCDv2 90) {} = (.panic l, s') ∧
    ({} : CLC.AcceptSMCDv2).parse (cut wholeAcceptSMCDv2 200) = .ret l' m' ∧
    acceptSMCDv2 s' ≠ acceptSMCDv2 m' ∧ acceptSMCDv2 s' ≠ acceptSMCDv2 {} :=
  by refine ⟨_, _, _, _, ⟨⟨_, rfl⟩, ⟨_, rfl⟩⟩, crashed rfl, rfl, ?_, ?_⟩ <;> decide +kernel

/-- C96 for Proposal -/
theorem C96_proposal_partial {m s' m' : CLC.Proposal} {short long : Slice} {l l' : List Bytes} (h : Part short long)
    (hs : CLC.Proposal.parseS short m = (.panic l, s')) (hl : m.parse long = .ret l' m') :
    Left proposalEnds short.len (proposal m) (proposal m') (proposal s') ∧
      s'.raw = short :=
  Tail.proposal_left h hs hl

set_option maxRecDepth 4000 in
example : ∃ l s' l' m', Part (cut wholeProposal 35) (cut wholeProposal 200) ∧
    CLC.Proposal.parseS (cut wholeProposal 35) {} = (.panic l, s') ∧
    ({} : CLC.Proposal).parse (cut wholeProposal 200) = .ret l' m' ∧
    proposal s' ≠ proposal m' ∧ proposal s' ≠ proposal {} :=
  by refine ⟨_, _, _, _, ⟨⟨_, rfl⟩, ⟨_, rfl⟩⟩, crashed rfl, rfl, ?_, ?_⟩ <;> decide +kernel

/-- C96 for ProposalV2 -/
theorem C96_proposalV2_partial {m s' m' : CLC.ProposalV2} {short long : Slice} {l l' : List Bytes} (h : Part short long)
    (hs : CLC.ProposalV2.parseS short m = (.panic l, s')) (hl : m.parse long = .ret l' m') :
    Left proposalV2Ends short.len (proposalV2 m) (proposalV2 m') (proposalV2 s') ∧
      s'.raw = short :=
  Tail.proposalV2_left h hs hl

set_option maxRecDepth 4000 in
example : ∃ l s' l' m', Part (cut wholeProposalV2 100) (cut wholeProposalV2 200) ∧
    CLC.ProposalV2.parseS (cut wholeProposalV2 100) {} = (.panic l, s') ∧
    ({} : CLC.ProposalV2).parse (cut wholeProposalV2 200) = .ret l' m' ∧
    proposalV2 s' ≠ proposalV2 m' ∧ proposalV2 s' ≠ proposalV2 {} :=
  by refine ⟨_, _, _, _, ⟨⟨_, rfl⟩, ⟨_, rfl⟩⟩, crashed rfl, rfl, ?_, ?_⟩ <;> decide +kernel

end SMC.Props
