import Verif.Lemmas.LeftWhen
import Verif.Lemmas.LeftLists
import Verif.Lemmas.CrashSteps
import Verif.Lemmas.CrashCLC
import Verif.Props.Left
/-!
# C96: every field after a crash of `Parse`, by the number of bytes

For the messages whose fields all have fixed places and a buffer without spare capacity. Lists have the lengths that their
arrays have in the code. `values`
(`Verif/Spec/LeftWhen.lean`) gives all fields.
-/

namespace SMC.Props
open Left

theorem new_of {σ : Type} {x : SGo σ Unit} {m m' : σ} {l : List Bytes} (h : SGo.final x m = .ret l m') : (x m).2 = m' := by
  unfold SGo.final at h
  split at h
  · next heq => cases h; rw [heq]
  · cases h

theorem crashes {σ : Type} {x : SGo σ Unit} {m : σ} {P : σ → Prop} (h : (∃ l, (x m).1 = .panic l) ∧ P (x m).2) :
    ∃ l s', x m = (.panic l, s') ∧ P s' := by
  obtain ⟨⟨l, hl⟩, hP⟩ := h
  exact ⟨l, _, Prod.ext hl rfl, hP⟩

/-- `Parse` of all bytes returns, and `Parse` of the first `n` panics and leaves the fields `values` says; some field
is new, some is old -/
def leaves {σ : Type} (fields : σ → List Item) (parseS : Slice → SGo σ Unit) (parse : σ → Slice → Go σ) (m : σ)
    (whole : Bytes) (whens : List When) (n : Nat) : Bool :=
  match parseS (cut whole n) m, parse m ⟨whole, []⟩ with
  | (.panic _, s'), .ret _ m' => fields s' == values whens n (fields m) (fields m') && fields s' != fields m &&
      fields s' != fields m'
  | _, _ => false

/-- C96 for ConfirmLink: the MAC address and the GID are zero while their bytes are missing,
the number of the queue pair is read byte by byte -/
theorem C96_confirmLink_exact {m m' : LLC.ConfirmLink} {v e : Bytes} {l' : List Bytes} {n : Nat} (hv : 35 ≤ v.length)
    (hn : n < 35) (hl : m.parse ⟨v, e⟩ = .ret l' m') :
    ∃ l s', LLC.ConfirmLink.parseS ⟨v.take n, []⟩ m = (.panic l, s') ∧
      confirmLink s' = values confirmLinkWhen n (confirmLink m) (confirmLink m') := by
  rw [← LLC.ConfirmLink.final_parseS] at hl
  rw [← new_of hl]
  exact crashes (P := fun s => confirmLink s = _) (confirmLink_left hv hn)

example : 35 ≤ wholeConfirmLink.length ∧ 27 < 35 ∧
    leaves confirmLink LLC.ConfirmLink.parseS LLC.ConfirmLink.parse { SenderMAC := List.replicate 6 1, SenderQP := 0xabcdef }
      wholeConfirmLink confirmLinkWhen 27 = true :=
  ⟨by decide +kernel, by decide, by decide +kernel⟩

/-- C96 for AddLink: like ConfirmLink, and the packet number is read byte by byte -/
theorem C96_addLink_exact {m m' : LLC.AddLink} {v e : Bytes} {l' : List Bytes} {n : Nat} (hv : 36 ≤ v.length)
    (hn : n < 36) (hl : m.parse ⟨v, e⟩ = .ret l' m') :
    ∃ l s', LLC.AddLink.parseS ⟨v.take n, []⟩ m = (.panic l, s') ∧
      addLink s' = values addLinkWhen n (addLink m) (addLink m') := by
  rw [← LLC.AddLink.final_parseS] at hl
  rw [← new_of hl]
  exact crashes (P := fun s => addLink s = _) (addLink_left hv hn)

example : 36 ≤ wholeAddLink.length ∧ 35 < 36 ∧
    leaves addLink LLC.AddLink.parseS LLC.AddLink.parse { SenderQP := 0xabcdef, PSN := 0xabcdef }
      wholeAddLink addLinkWhen 35 = true :=
  ⟨by decide +kernel, by decide, by decide +kernel⟩

/-- C96 for DeleteLink: every field is read at once -/
theorem C96_deleteLink_exact {m m' : LLC.DeleteLink} {v e : Bytes} {l' : List Bytes} {n : Nat} (hv : 9 ≤ v.length)
    (hn : n < 9) (hl : m.parse ⟨v, e⟩ = .ret l' m') :
    ∃ l s', LLC.DeleteLink.parseS ⟨v.take n, []⟩ m = (.panic l, s') ∧
      deleteLink s' = values deleteLinkWhen n (deleteLink m) (deleteLink m') := by
  rw [← LLC.DeleteLink.final_parseS] at hl
  rw [← new_of hl]
  exact crashes (P := fun s => deleteLink s = _) (deleteLink_left hv hn)

example : 9 ≤ wholeDeleteLink.length ∧ 6 < 9 ∧
    leaves deleteLink LLC.DeleteLink.parseS LLC.DeleteLink.parse { Link := 7, RsnCode := 7 }
      wholeDeleteLink deleteLinkWhen 6 = true :=
  ⟨by decide +kernel, by decide, by decide +kernel⟩

/-- C96 for TestLink: every field is read at once -/
theorem C96_testLink_exact {m m' : LLC.TestLink} {v e : Bytes} {l' : List Bytes} {n : Nat} (hv : 20 ≤ v.length)
    (hn : n < 20) (hl : m.parse ⟨v, e⟩ = .ret l' m') :
    ∃ l s', LLC.TestLink.parseS ⟨v.take n, []⟩ m = (.panic l, s') ∧
      testLink s' = values testLinkWhen n (testLink m) (testLink m') := by
  rw [← LLC.TestLink.final_parseS] at hl
  rw [← new_of hl]
  exact crashes (P := fun s => testLink s = _) (testLink_left hv hn)

example : 20 ≤ wholeTestLink.length ∧ 19 < 20 ∧
    leaves testLink LLC.TestLink.parseS LLC.TestLink.parse { Reply := false }
      wholeTestLink testLinkWhen 19 = true :=
  ⟨by decide +kernel, by decide, by decide +kernel⟩

/-- C96 for CDC: every field is read at once -/
theorem C96_cdc_exact {m m' : LLC.CDC} {v e : Bytes} {l' : List Bytes} {n : Nat} (hv : 26 ≤ v.length)
    (hn : n < 26) (hl : m.parse ⟨v, e⟩ = .ret l' m') :
    ∃ l s', LLC.CDC.parseS ⟨v.take n, []⟩ m = (.panic l, s') ∧
      cdc s' = values cdcWhen n (cdc m) (cdc m') := by
  rw [← LLC.CDC.final_parseS] at hl
  rw [← new_of hl]
  exact crashes (P := fun s => cdc s = _) (cdc_left hv hn)

example : 26 ≤ wholeCDC.length ∧ 13 < 26 ∧
    leaves cdc LLC.CDC.parseS LLC.CDC.parse { ProdCurs := 7 }
      wholeCDC cdcWhen 13 = true :=
  ⟨by decide +kernel, by decide, by decide +kernel⟩

/-- C96 for BTH: the number of the queue pair and the packet number are read byte by byte -/
theorem C96_bth_exact {m m' : RoCE.BTH} {v e : Bytes} {l' : List Bytes} {n : Nat} (hv : 12 ≤ v.length)
    (hn : n < 12) (hl : m.parse ⟨v, e⟩ = .ret l' m') :
    ∃ l s', RoCE.BTH.parseS ⟨v.take n, []⟩ m = (.panic l, s') ∧
      bth s' = values bthWhen n (bth m) (bth m') := by
  rw [← RoCE.BTH.final_parseS] at hl
  rw [← new_of hl]
  exact crashes (P := fun s => bth s = _) (bth_left hv hn)

example : 12 ≤ wholeBTH.length ∧ 11 < 12 ∧
    leaves bth RoCE.BTH.parseS RoCE.BTH.parse { PSN := 0xabcdef }
      wholeBTH bthWhen 11 = true :=
  ⟨by decide +kernel, by decide, by decide +kernel⟩

/-- C96 for Decline: every field is read at once -/
theorem C96_decline_exact {m m' : CLC.Decline} {v e : Bytes} {l' : List Bytes} {n : Nat} (hv : 28 ≤ v.length)
    (hlen : 28 ≤ (v.getD 5 0).toNat * 256 + (v.getD 6 0).toNat)
    (hn : n < 28) (hl : m.parse ⟨v, e⟩ = .ret l' m') :
    ∃ l s', CLC.Decline.parseS ⟨v.take n, []⟩ m = (.panic l, s') ∧
      decline s' = values declineWhen n (decline m) (decline m') := by
  rw [← CLC.Decline.final_parseS] at hl
  rw [← new_of hl]
  exact crashes (P := fun s => decline s = _) (decline_left hv hlen hn)

example : 28 ≤ wholeDecline.length ∧
    28 ≤ (wholeDecline.getD 5 0).toNat * 256 + (wholeDecline.getD 6 0).toNat ∧ 18 < 28 ∧
    leaves decline CLC.Decline.parseS CLC.Decline.parse { PeerDiagnosis := 7 }
      wholeDecline declineWhen 18 = true :=
  ⟨by decide +kernel, by decide +kernel, by decide, by decide +kernel⟩

/-- C96 for DeclineV2: every field is read at once if the buffer has no spare capacity -/
theorem C96_declineV2_exact {m m' : CLC.DeclineV2} {v e : Bytes} {l' : List Bytes} {n : Nat} (hv : 28 ≤ v.length)
    (hlen : 28 ≤ (v.getD 5 0).toNat * 256 + (v.getD 6 0).toNat)
    (hn : n < 28) (hl : m.parse ⟨v, e⟩ = .ret l' m') :
    ∃ l s', CLC.DeclineV2.parseS ⟨v.take n, []⟩ m = (.panic l, s') ∧
      declineV2 s' = values declineV2When n (declineV2 m) (declineV2 m') := by
  rw [← CLC.DeclineV2.final_parseS] at hl
  rw [← new_of hl]
  exact crashes (P := fun s => declineV2 s = _) (declineV2_left hv hlen hn)

example : 28 ≤ wholeDeclineV2.length ∧
    28 ≤ (wholeDeclineV2.getD 5 0).toNat * 256 + (wholeDeclineV2.getD 6 0).toNat ∧ 26 < 28 ∧
    leaves declineV2 CLC.DeclineV2.parseS CLC.DeclineV2.parse { PeerDiagnosis := 7 }
      wholeDeclineV2 declineV2When 26 = true :=
  ⟨by decide +kernel, by decide +kernel, by decide, by decide +kernel⟩

/-- C96 for AcceptSMCR: like AddLink -/
theorem C96_acceptSMCR_exact {m m' : CLC.AcceptSMCR} {v e : Bytes} {l' : List Bytes} {n : Nat} (hv : 68 ≤ v.length)
    (hlen : 68 ≤ (v.getD 5 0).toNat * 256 + (v.getD 6 0).toNat)
    (hn : n < 68) (hl : m.parse ⟨v, e⟩ = .ret l' m') :
    ∃ l s', CLC.AcceptSMCR.parseS ⟨v.take n, []⟩ m = (.panic l, s') ∧
      acceptSMCR s' = values acceptSMCRWhen n (acceptSMCR m) (acceptSMCR m') := by
  rw [← CLC.AcceptSMCR.final_parseS] at hl
  rw [← new_of hl]
  exact crashes (P := fun s => acceptSMCR s = _) (acceptSMCR_left hv hlen hn)

example : 68 ≤ wholeAcceptSMCR.length ∧
    68 ≤ (wholeAcceptSMCR.getD 5 0).toNat * 256 + (wholeAcceptSMCR.getD 6 0).toNat ∧ 35 < 68 ∧
    leaves acceptSMCR CLC.AcceptSMCR.parseS CLC.AcceptSMCR.parse { QPN := 7 }
      wholeAcceptSMCR acceptSMCRWhen 35 = true :=
  ⟨by decide +kernel, by decide +kernel, by decide, by decide +kernel⟩

/-- C96 for AcceptSMCD: every field is read at once -/
theorem C96_acceptSMCD_exact {m m' : CLC.AcceptSMCD} {v e : Bytes} {l' : List Bytes} {n : Nat} (hv : 48 ≤ v.length)
    (hlen : 48 ≤ (v.getD 5 0).toNat * 256 + (v.getD 6 0).toNat)
    (hn : n < 48) (hl : m.parse ⟨v, e⟩ = .ret l' m') :
    ∃ l s', CLC.AcceptSMCD.parseS ⟨v.take n, []⟩ m = (.panic l, s') ∧
      acceptSMCD s' = values acceptSMCDWhen n (acceptSMCD m) (acceptSMCD m') := by
  rw [← CLC.AcceptSMCD.final_parseS] at hl
  rw [← new_of hl]
  exact crashes (P := fun s => acceptSMCD s = _) (acceptSMCD_left hv hlen hn)

example : 48 ≤ wholeAcceptSMCD.length ∧
    48 ≤ (wholeAcceptSMCD.getD 5 0).toNat * 256 + (wholeAcceptSMCD.getD 6 0).toNat ∧ 20 < 48 ∧
    leaves acceptSMCD CLC.AcceptSMCD.parseS CLC.AcceptSMCD.parse { Token := 7 }
      wholeAcceptSMCD acceptSMCDWhen 20 = true :=
  ⟨by decide +kernel, by decide +kernel, by decide, by decide +kernel⟩

/-- C96 for AddLinkCont: the pairs are read number by number -/
theorem C96_addLinkCont_exact {m m' : LLC.AddLinkCont} {v e : Bytes} {l' : List Bytes} {n : Nat}
    (hm : m.RKeyPairs.length = 2) (hv : 40 ≤ v.length) (hn : n < 40) (hl : m.parse ⟨v, e⟩ = .ret l' m') :
    ∃ l s', LLC.AddLinkCont.parseS ⟨v.take n, []⟩ m = (.panic l, s') ∧
      addLinkCont s' = values addLinkContWhen n (addLinkCont m) (addLinkCont m') := by
  rw [← LLC.AddLinkCont.final_parseS] at hl
  rw [← new_of hl]
  exact crashes (P := fun s => addLinkCont s = _) (addLinkCont_left hm hv hn).2

example : ({ RKeyPairs := [⟨7, 7, 7⟩, ⟨7, 7, 7⟩] } : LLC.AddLinkCont).RKeyPairs.length = 2 ∧
    40 ≤ wholeAddLinkCont.length ∧ 29 < 40 ∧
    leaves addLinkCont LLC.AddLinkCont.parseS LLC.AddLinkCont.parse
      { RKeyPairs := [⟨7, 7, 7⟩, ⟨7, 7, 7⟩] } wholeAddLinkCont addLinkContWhen 29 = true :=
  ⟨rfl, by decide +kernel, by decide, by decide +kernel⟩

/-- C96 for ConfirmRKey: the RMBs are read number by number -/
theorem C96_confirmRKey_exact {m m' : LLC.ConfirmRKey} {v e : Bytes} {l' : List Bytes} {n : Nat}
    (hm : m.OtherRMBs.length = 2) (hv : 44 ≤ v.length) (hn : n < 44) (hl : m.parse ⟨v, e⟩ = .ret l' m') :
    ∃ l s', LLC.ConfirmRKey.parseS ⟨v.take n, []⟩ m = (.panic l, s') ∧
      confirmRKey s' = values confirmRKeyWhen n (confirmRKey m) (confirmRKey m') := by
  rw [← LLC.ConfirmRKey.final_parseS] at hl
  rw [← new_of hl]
  exact crashes (P := fun s => confirmRKey s = _) (confirmRKey_left hm hv hn).2

example : ({ OtherRMBs := [⟨7, 7, 7⟩, ⟨7, 7, 7⟩] } : LLC.ConfirmRKey).OtherRMBs.length = 2 ∧
    44 ≤ wholeConfirmRKey.length ∧ 32 < 44 ∧
    leaves confirmRKey LLC.ConfirmRKey.parseS LLC.ConfirmRKey.parse
      { OtherRMBs := [⟨7, 7, 7⟩, ⟨7, 7, 7⟩] } wholeConfirmRKey confirmRKeyWhen 32 = true :=
  ⟨rfl, by decide +kernel, by decide, by decide +kernel⟩

/-- C96 for ConfirmRKeyCont: the RMBs are read number by number; 44 bytes are not enough -/
theorem C96_confirmRKeyCont_exact {m m' : LLC.ConfirmRKeyCont} {v e : Bytes} {l' : List Bytes} {n : Nat}
    (hm : m.OtherRMBs.length = 3) (hv : 45 ≤ v.length) (hn : n < 45) (hl : m.parse ⟨v, e⟩ = .ret l' m') :
    ∃ l s', LLC.ConfirmRKeyCont.parseS ⟨v.take n, []⟩ m = (.panic l, s') ∧
      confirmRKeyCont s' = values confirmRKeyContWhen n (confirmRKeyCont m) (confirmRKeyCont m') := by
  rw [← LLC.ConfirmRKeyCont.final_parseS] at hl
  rw [← new_of hl]
  exact crashes (P := fun s => confirmRKeyCont s = _) (confirmRKeyCont_left hm hv hn).2

example : ({ OtherRMBs := [⟨7, 7, 7⟩, ⟨7, 7, 7⟩, ⟨7, 7, 7⟩] } : LLC.ConfirmRKeyCont).OtherRMBs.length = 3 ∧
    45 ≤ (wholeConfirmRKeyCont ++ [0]).length ∧ 20 < 45 ∧
    leaves confirmRKeyCont LLC.ConfirmRKeyCont.parseS LLC.ConfirmRKeyCont.parse
      { OtherRMBs := [⟨7, 7, 7⟩, ⟨7, 7, 7⟩, ⟨7, 7, 7⟩] } (wholeConfirmRKeyCont ++ [0]) confirmRKeyContWhen 20 = true :=
  ⟨rfl, by decide +kernel, by decide, by decide +kernel⟩

/-- C96 for DeleteRKey: the keys are read one by one -/
theorem C96_deleteRKey_exact {m m' : LLC.DeleteRKey} {v e : Bytes} {l' : List Bytes} {n : Nat}
    (hm : m.rkeys.length = 8) (hv : 40 ≤ v.length) (hn : n < 40) (hl : m.parse ⟨v, e⟩ = .ret l' m') :
    ∃ l s', LLC.DeleteRKey.parseS ⟨v.take n, []⟩ m = (.panic l, s') ∧
      deleteRKey s' = values deleteRKeyWhen n (deleteRKey m) (deleteRKey m') := by
  rw [← LLC.DeleteRKey.final_parseS] at hl
  rw [← new_of hl]
  exact crashes (P := fun s => deleteRKey s = _) (deleteRKey_left hm hv hn).2

example : ({ rkeys := List.replicate 8 7 } : LLC.DeleteRKey).rkeys.length = 8 ∧
    40 ≤ wholeDeleteRKey.length ∧ 15 < 40 ∧
    leaves deleteRKey LLC.DeleteRKey.parseS LLC.DeleteRKey.parse
      { rkeys := List.replicate 8 7 } wholeDeleteRKey deleteRKeyWhen 15 = true :=
  ⟨rfl, by decide +kernel, by decide, by decide +kernel⟩

end SMC.Props
