import Verif.Lemmas.Alloc
/-!
# The header stays as it was parsed
-/

namespace SMC.CLC

/-- the header `h` parsed from `s` -/
def Hdr (h0 : Header) (s : Slice) (h : Header) : Prop := ∃ l, h0.parse s = .ret l h

theorem hdr_bind {α : Type} {h0 : Header} {s : Slice} {f : Header → Go α} {P : α → Prop}
    (hf : ∀ h, Hdr h0 s h → Ensures (f h) P) : Ensures (h0.parse s >>= f) P :=
  Ensures.bind_with (Q := Hdr h0 s) (fun l _ e => ⟨l, e⟩) hf

theorem AcceptSMCR.hdr_parse (a : AcceptSMCR) (s : Slice) : Ensures (a.parse s) fun a' => Hdr a.hdr s a'.hdr := by
  unfold AcceptSMCR.parse
  dsimp only
  refine hdr_bind fun _ hh => Ensures.ite ?_ ?_ <;> repeat' refine Ensures.bind fun _ => ?_
  all_goals exact Ensures.pure hh

theorem AcceptSMCD.hdr_parse (a : AcceptSMCD) (s : Slice) : Ensures (a.parse s) fun a' => Hdr a.hdr s a'.hdr := by
  unfold AcceptSMCD.parse
  dsimp only
  refine hdr_bind fun _ hh => Ensures.ite ?_ ?_ <;> repeat' refine Ensures.bind fun _ => ?_
  all_goals exact Ensures.pure hh

theorem AcceptSMCDv2.hdr_parseFCE (a : AcceptSMCDv2) (s : Slice) :
    Ensures (a.parseFCE s) fun r => r.1.hdr = a.hdr := by
  unfold AcceptSMCDv2.parseFCE
  dsimp only
  repeat' refine Ensures.bind fun _ => ?_
  all_goals exact Ensures.pure rfl

theorem AcceptSMCDv2.hdr_parse (a : AcceptSMCDv2) (s : Slice) : Ensures (a.parse s) fun a' => Hdr a.hdr s a'.hdr := by
  unfold AcceptSMCDv2.parse
  dsimp only
  refine hdr_bind fun _ hh => Ensures.ite ?_ ?_
  · repeat' refine Ensures.bind fun _ => ?_
    exact Ensures.pure hh
  · repeat' refine Ensures.bind fun _ => ?_
    refine Ensures.ite ?_ ?_
    · refine Ensures.bind_with (AcceptSMCDv2.hdr_parseFCE _ _) fun _ k => Ensures.bind fun _ => Ensures.pure ?_
      dsimp only at k ⊢
      rw [k]
      exact hh
    · exact Ensures.bind_with (Ensures.pure (P := fun r => Hdr a.hdr s r.1.hdr) hh) fun _ k =>
        Ensures.bind fun _ => Ensures.pure k

theorem Decline.hdr_parse (a : Decline) (s : Slice) : Ensures (a.parse s) fun a' => Hdr a.hdr s a'.hdr := by
  unfold Decline.parse
  dsimp only
  refine hdr_bind fun _ hh => Ensures.ite ?_ ?_ <;> repeat' refine Ensures.bind fun _ => ?_
  all_goals exact Ensures.pure hh

theorem DeclineV2.hdr_parse (a : DeclineV2) (s : Slice) : Ensures (a.parse s) fun a' => Hdr a.hdr s a'.hdr := by
  unfold DeclineV2.parse
  dsimp only
  refine hdr_bind fun _ hh => Ensures.ite ?_ ?_ <;> repeat' refine Ensures.bind fun _ => ?_
  all_goals exact Ensures.pure hh

theorem Proposal.hdr_parse (p : Proposal) (s : Slice) : Ensures (p.parse s) fun p' => Hdr p.hdr s p'.hdr := by
  unfold Proposal.parse
  dsimp only
  refine hdr_bind fun h hh => Ensures.ite ?_ ?_
  · repeat' refine Ensures.bind fun _ => ?_
    exact Ensures.pure hh
  · refine Ensures.bind fun _ => Ensures.bind fun _ => Ensures.bind fun _ => Ensures.bind fun _ => Ensures.bind fun _ => ?_
    refine Ensures.bind_with (Proposal.parseSMCD_keeps _ _ _) fun r hr => ?_
    obtain ⟨p', skip⟩ := r
    have hr : p'.hdr = h := hr.1
    subst hr
    refine Ensures.ite ?_ ?_ <;> repeat' refine Ensures.bind fun _ => ?_
    all_goals exact Ensures.pure hh

theorem ProposalV2.hdr_parseFixed (p : ProposalV2) (s : Slice) : Ensures (p.parseFixed s) fun r => r.1.hdr = p.hdr := by
  unfold ProposalV2.parseFixed
  repeat' refine Ensures.bind fun _ => ?_
  exact Ensures.pure rfl

theorem ProposalV2.hdr_parseIPArea (p : ProposalV2) (s : Slice) (skip : Nat) :
    Ensures (p.parseIPArea s skip) fun r => r.1.hdr = p.hdr := by
  unfold ProposalV2.parseIPArea
  refine Ensures.ite (Ensures.ite ?_ ?_) (Ensures.pure rfl) <;>
  · repeat' refine Ensures.bind fun _ => ?_
    exact Ensures.pure rfl

theorem ProposalV2.hdr_parse (p : ProposalV2) (s : Slice) : Ensures (p.parse s) fun p' => Hdr p.hdr s p'.hdr := by
  unfold ProposalV2.parse
  dsimp only
  refine hdr_bind fun h hh => Ensures.ite ?_ ?_
  · repeat' refine Ensures.bind fun _ => ?_
    exact Ensures.pure hh
  · refine Ensures.bind_with (ProposalV2.hdr_parseFixed _ _) fun ⟨p1, k1⟩ h1 => ?_
    refine Ensures.bind_with (ProposalV2.hdr_parseIPArea _ _ _) fun ⟨p2, o2⟩ h2 => ?_
    dsimp only at h1 h2
    have e2 : Hdr p.hdr s p2.hdr := by rw [h2, h1]; exact hh
    cases o2 with
    | none => exact Ensures.pure e2
    | some k2 =>
      refine Ensures.bind_with (ProposalV2.parseV2Ext_keeps _ _ _) fun ⟨p3, o3⟩ h3 => ?_
      dsimp only at h3
      have e3 : Hdr p.hdr s p3.hdr := by rw [h3]; exact e2
      cases o3 with
      | none => exact Ensures.pure e3
      | some k3 =>
        refine Ensures.bind_with (ProposalV2.parseSMCDExt_keeps _ _ _) fun ⟨p4, o4⟩ h4 => ?_
        dsimp only at h4
        have e4 : Hdr p.hdr s p4.hdr := by rw [h4]; exact e3
        cases o4 with
        | none => exact Ensures.pure e4
        | some k4 => exact Ensures.bind fun _ => Ensures.pure e4

theorem Message.hdr_parse (m : Message) (s : Slice) : Ensures (m.parse s) fun m' => Hdr m.hdr s m'.hdr := by
  cases m <;> unfold Message.parse
  case proposal m => exact Ensures.bind_with (m.hdr_parse s) fun _ k => Ensures.pure k
  case proposalV2 m => exact Ensures.bind_with (m.hdr_parse s) fun _ k => Ensures.pure k
  case acceptSMCR m => exact Ensures.bind_with (m.hdr_parse s) fun _ k => Ensures.pure k
  case acceptSMCD m => exact Ensures.bind_with (m.hdr_parse s) fun _ k => Ensures.pure k
  case acceptSMCDv2 m => exact Ensures.bind_with (m.hdr_parse s) fun _ k => Ensures.pure k
  case confirmSMCR m => exact Ensures.bind_with (m.hdr_parse s) fun _ k => Ensures.pure k
  case confirmSMCD m => exact Ensures.bind_with (m.hdr_parse s) fun _ k => Ensures.pure k
  case confirmSMCDv2 m => exact Ensures.bind_with (m.hdr_parse s) fun _ k => Ensures.pure k
  case decline m => exact Ensures.bind_with (m.hdr_parse s) fun _ k => Ensures.pure k
  case declineV2 m => exact Ensures.bind_with (m.hdr_parse s) fun _ k => Ensures.pure k

end SMC.CLC
