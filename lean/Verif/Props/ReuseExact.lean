import Verif.Props.CLCReuse
/-!
# C46, exactly: for which messages a used value decodes like a zero value
-/

namespace SMC.Props

open SMC Spec CLC

/-- the messages for which `Parse` sets, or crashes on, every field of the value -/
def SetsAll : CLCKind → Bytes → Prop
  | .proposal, _ => False
  | .proposalV2, v => HasExt v ∧ (8 < eidCount v ∨ (HasSMCD v ∧ 8 < gidCount v))
  | .acceptSMCDv2, v | .confirmSMCDv2, v => declared v = 114
  | .decline, _ => False
  | _, _ => True

/-- C46, exactly: a complete accepted message is decoded into every used value as into a zero
value iff its kind and contents are among these. Otherwise there is a value whose contents show
through. -/
theorem C46_exact (k : CLCKind) (s : Slice) (hL : declared s.vis ≤ s.len) (ha : Accepted k s.vis) :
    (∀ m, Sized m → clcKind m = k → m.parse s = (freshCLC k).parse s) ↔ SetsAll k s.vis := by
  have h8 : 8 ≤ minLen k := by cases k <;> simp [minLen]
  have hlen := ha.1
  constructor
  · intro h
    cases k with
    | acceptSMCR | confirmSMCR | acceptSMCD | confirmSMCD | declineV2 => trivial
    | proposal =>
      exfalso
      have h1 := h (.proposal { IPv6Prefixes := [{}] }) (by decide : SizedProposal _) rfl
      obtain ⟨l, m, hp, hq, _⟩ := C41_proposal_prefixes { IPv6Prefixes := [{}] } (by decide) s ha.1 hL ha.2
      obtain ⟨l', m', hp', hq', _⟩ := C41_proposal_prefixes {} (by decide) s ha.1 hL ha.2
      simp only [freshCLC, Message.parse] at h1
      rw [hp, hp', map_ret, map_ret] at h1
      have e : m = m' := by injection h1 with _ h2; injection h2
      have a := hq.length
      have b := hq'.length
      rw [e] at a
      simp only [List.length_cons, List.length_nil] at a b
      omega
    | proposalV2 =>
      obtain ⟨h84, r1, r2, r3⟩ := ha
      have hs1 : SizedProposalV2 { IPv6Prefixes := [{}] } := by decide
      have hs0 : SizedProposalV2 {} := by decide
      have h1 := h (.proposalV2 { IPv6Prefixes := [{}] }) hs1 rfl
      have c0 := C33_proposalV2_panics_iff {} hs0 s h84 hL
      have c1 := C33_proposalV2_panics_iff { IPv6Prefixes := [{}] } hs1 s h84 hL
      simp only [freshCLC, Message.parse] at h1
      cases hp : ({ IPv6Prefixes := [{}] } : ProposalV2).parse s with
      | panic l =>
        obtain ⟨_, g2, _, g4⟩ := c1.1 ⟨l, hp⟩
        exact ⟨g2, g4.imp id fun g => ⟨g.1, g.2.2⟩⟩
      | ret l m =>
        exfalso
        cases hp' : ({} : ProposalV2).parse s with
        | panic l' => exact (ret_not_panics l m) (hp ▸ c1.2 (c0.1 ⟨l', hp'⟩))
        | ret l' m' =>
          rw [hp, hp', map_ret, map_ret] at h1
          have e : m = m' := by injection h1 with _ h2; injection h2
          by_cases hi : HasIP s.vis
          · have a := (C41_proposalV2_prefixes _ hs1 s h84 hL hp hi r1).1.length
            have b := (C41_proposalV2_prefixes _ hs0 s h84 hL hp' hi r1).1.length
            rw [e] at a
            simp only [List.length_cons, List.length_nil] at a b
            omega
          · have a := ((C39_proposalV2_wire _ hs1 s h84 hL hp).2.2.1 fun c => hi c.1).2.2.2.2
            have b := ((C39_proposalV2_wire _ hs0 s h84 hL hp').2.2.1 fun c => hi c.1).2.2.2.2
            rw [e, b] at a
            simp at a
    | acceptSMCDv2 | confirmSMCDv2 =>
      all_goals
        obtain ⟨v, e⟩ := s
        simp only [Slice.len_mk, minLen] at *
        apply Classical.byContradiction
        intro hc
        have hc : declared v ≠ 114 := hc
        have hv : 8 ≤ v.length := by omega
        have hd := declared_eq v hv
        first
          | have h1 := h (.acceptSMCDv2 { OSType := 1 }) (by decide : SizedSMCDv2 _) rfl
            simp only [freshCLC, Message.parse] at h1
            rw [smcdv2_parse v e hv { OSType := 1 } rfl rfl rfl rfl rfl (by omega) (by omega) (by omega),
              smcdv2_parse v e hv {} rfl rfl rfl rfl rfl (by omega) (by omega) (by omega), map_ret, map_ret] at h1
            injection h1 with _ h2
            injection h2 with h3
            have h4 := congrArg AcceptSMCDv2.OSType h3
            exact absurd (show (1 : UInt8) = 0 from h4) (by decide)
          | have h1 := h (.confirmSMCDv2 { OSType := 1 }) (by decide : SizedSMCDv2 _) rfl
            simp only [freshCLC, Message.parse] at h1
            rw [smcdv2_parse v e hv { OSType := 1 } rfl rfl rfl rfl rfl (by omega) (by omega) (by omega),
              smcdv2_parse v e hv {} rfl rfl rfl rfl rfl (by omega) (by omega) (by omega), map_ret, map_ret] at h1
            injection h1 with _ h2
            injection h2 with h3
            have h4 := congrArg AcceptSMCDv2.OSType h3
            exact absurd (show (1 : UInt8) = 0 from h4) (by decide)
    | decline =>
      exfalso
      obtain ⟨v, e⟩ := s
      simp only [Slice.len_mk, minLen] at *
      have hv : 8 ≤ v.length := by omega
      have hd := declared_eq v hv
      have h1 := h (.decline { OSType := 1 }) (by decide : SizedDecline _) rfl
      simp only [freshCLC, Message.parse] at h1
      rw [decline_parse v e hv { OSType := 1 } rfl rfl rfl rfl (by omega) (by omega),
        decline_parse v e hv {} rfl rfl rfl rfl (by omega) (by omega), map_ret, map_ret] at h1
      injection h1 with _ h2
      injection h2 with h3
      have h4 := congrArg Decline.OSType h3
      exact absurd (show (1 : UInt8) = 0 from h4) (by decide)
  · intro h m hm hk
    subst hk
    cases m with
    | acceptSMCR m | confirmSMCR m | acceptSMCD m | confirmSMCD m | declineV2 m =>
      exact C46_reuse_partial _ hm trivial s hL ha
    | proposal m | decline m => exact h.elim
    | acceptSMCDv2 m | confirmSMCDv2 m =>
      have h : declared s.vis = 114 := h
      simp only [clcKind, freshCLC, Message.parse]
      rw [C46_reuse_fce m hm s h (h ▸ hL)]
    | proposalV2 m =>
      obtain ⟨v, e⟩ := s
      obtain ⟨h84, r1, r2, r3⟩ := ha
      obtain ⟨h1, h2⟩ := h
      simp only [Slice.len_mk, clcKind, minLen] at *
      have hv : 8 ≤ v.length := by omega
      simp only [freshCLC, Message.parse]
      rw [proposalV2_result v e hv m hm (by omega) h84 hL,
        proposalV2_result v e hv {} (sized_fresh .proposalV2) (by omega) h84 hL]
      congr 1
      have n1 : ¬¬ RoomIP v := fun c => c r1
      have n2 : ¬¬ RoomExt v := fun c => c r2
      have n3 : ¬¬ RoomSMCD v := fun c => c r3
      unfold v2Result
      rw [if_neg n1, if_neg n1, if_neg n2, if_neg n2]
      refine ite_same (fun _ => rfl) fun g => ?_
      rw [if_neg n3, if_neg n3, if_pos (h2.resolve_left fun c => g ⟨h1, c⟩), if_pos (h2.resolve_left fun c => g ⟨h1, c⟩)]

/-- the messages of `C46_exact` exist: with and without first contact extension -/
example : Accepted .acceptSMCDv2 withFCE ∧ declared withFCE ≤ withFCE.length ∧ SetsAll .acceptSMCDv2 withFCE ∧
    Accepted .acceptSMCDv2 withoutFCE ∧ declared withoutFCE ≤ withoutFCE.length ∧ ¬ SetsAll .acceptSMCDv2 withoutFCE := by
  refine ⟨⟨by decide +kernel, trivial⟩, by decide +kernel, ?_, ⟨by decide +kernel, trivial⟩, by decide +kernel, ?_⟩
  · exact (by decide +kernel : declared withFCE = 114)
  · exact (by decide +kernel : declared withoutFCE ≠ 114)

end SMC.Props
