import Verif.Lemmas.Spare
import Verif.Props.CLCCrash
/-!
# C83: what is between the length and the capacity of the buffer
-/

namespace SMC.Props

open SMC Spec CLC

theorem spareSim_map {α : Type} {R : α → α → Prop} {S : Message → Message → Prop} {f : α → Message} {x y : Go α}
    (h : SpareSim R x y) (hf : ∀ a b, R a b → S (f a) (f b)) :
    SpareSim S (x >>= fun a => pure (f a)) (y >>= fun a => pure (f a)) :=
  spareSim_bind h fun a b hab => spareSim_pure (hf a b hab)

theorem spareSim_message (m : Message) (v e : Bytes) :
    SpareSim (fun a b => b = withRawHdr a ⟨v, e⟩ a.hdr) (m.parse ⟨v, []⟩) (m.parse ⟨v, e⟩) := by
  cases m with
  | proposal m => exact spareSim_map (spareSim_proposal m v e) fun a b h => by rw [h]; rfl
  | proposalV2 m => exact spareSim_map (spareSim_proposalV2 m v e) fun a b h => by rw [h]; rfl
  | acceptSMCR m => exact spareSim_map (spareSim_smcr m v e) fun a b h => by rw [h]; rfl
  | acceptSMCD m => exact spareSim_map (spareSim_smcd m v e) fun a b h => by rw [h]; rfl
  | acceptSMCDv2 m => exact spareSim_map (spareSim_smcdv2 m v e) fun a b h => by rw [h]; rfl
  | confirmSMCR m => exact spareSim_map (spareSim_smcr m v e) fun a b h => by rw [h]; rfl
  | confirmSMCD m => exact spareSim_map (spareSim_smcd m v e) fun a b h => by rw [h]; rfl
  | confirmSMCDv2 m => exact spareSim_map (spareSim_smcdv2 m v e) fun a b h => by rw [h]; rfl
  | decline m => exact spareSim_map (spareSim_decline m v e) fun a b h => by rw [h]; rfl
  | declineV2 m => exact spareSim_map (spareSim_declineV2 m v e) fun a b h => by rw [h]; rfl

/-- C83 for buffers whose parsing does not need any spare capacity: what is in the spare
capacity changes neither the log nor the message, and `Parse` does not panic because of it. -/
theorem C83_spare_partial (m : Message) (hm : Sized m) (v : Bytes) (h : ¬ ParseCrashes (clcKind m) ⟨v, []⟩) :
    ∃ l x, m.parse ⟨v, []⟩ = .ret l x ∧ ∀ e, m.parse ⟨v, e⟩ = .ret l (withRawHdr x ⟨v, e⟩ x.hdr) := by
  rw [← C45_crashes m hm ⟨v, []⟩] at h
  cases hp : m.parse ⟨v, []⟩ with
  | panic l => exact absurd ⟨l, hp⟩ h
  | ret l x =>
    refine ⟨l, x, rfl, fun e => ?_⟩
    obtain ⟨b, hb, rfl⟩ := spareSim_message m v e l x hp
    exact hb

/-- the hypotheses hold for a Decline of 28 bytes, and for a Proposal cut off after 54 bytes -/
example : Sized (.decline {}) ∧ ¬ ParseCrashes .decline ⟨hex! "e2 d4 c3 d9 04 00 1c 10" ++ zeros 16 ++ hex! "e2 d4 c3 d9", []⟩ ∧
    ¬ ParseCrashes .proposal ⟨cutProposal 0, []⟩ := by
  refine ⟨by unfold Sized; decide, ?_, ?_⟩
  · intro h
    rcases h with h | h
    · exact absurd h (by decide +kernel)
    · dsimp only at h
      unfold FixedCrashes at h
      rw [if_neg (by decide +kernel)] at h
      exact absurd h (by decide +kernel)
  · dsimp only [ParseCrashes, CrashesV1, Overdump]; decide +kernel

/-- C83 is false for every kind of message: a header that declares 9 bytes, in a buffer of 8
bytes with one spare byte. The error report prints the spare byte. -/
theorem C83_spare_false (k : CLCKind) :
    ∃ (v e e' : Bytes) (l l' : List Bytes) (x x' : Message), e.length = e'.length ∧
      (freshCLC k).parse ⟨v, e⟩ = .ret l x ∧ (freshCLC k).parse ⟨v, e'⟩ = .ret l' x' ∧ l ≠ l' := by
  have h (b : UInt8) := C40_short (freshCLC k) (by cases k <;> (unfold Sized freshCLC; decide))
    ⟨hex! "e2 d4 c3 d9 00 00 09 10", [b]⟩ (by show 8 ≤ 8; omega)
    (by
      have h9 : declared (hex! "e2 d4 c3 d9 00 00 09 10") = 9 := by decide +kernel
      show declared (hex! "e2 d4 c3 d9 00 00 09 10") < _
      rw [h9]
      cases k <;> decide) (by show declared (hex! "e2 d4 c3 d9 00 00 09 10") ≤ 9; decide +kernel)
  obtain ⟨x, -, hx⟩ := h 0
  obtain ⟨x', -, hx'⟩ := h 1
  refine ⟨_, _, _, _, _, _, _, ?_, hx, hx', ?_⟩
  · rfl
  · intro h
    have := List.cons.inj (List.cons.inj h).2
    exact absurd this.1 (by decide +kernel)

/-- C83, fields only, for all kinds but Proposals: what is in the spare capacity, and how much
there is of it, does not change the message. -/
theorem C83_fields_partial (m : Message) (hm : Sized m) (h1 : clcKind m ≠ .proposal) (h2 : clcKind m ≠ .proposalV2)
    (v e e' : Bytes) (l l' : List Bytes) (x x' : Message) (hx : m.parse ⟨v, e⟩ = .ret l x)
    (hx' : m.parse ⟨v, e'⟩ = .ret l' x') : x' = withRawHdr x ⟨v, e'⟩ x.hdr := by
  have hv : 8 ≤ v.length := Nat.le_of_not_lt fun h => by
    obtain ⟨l, hl⟩ := (parse_needs m ⟨v, e⟩).panics h
    rw [hl] at hx; cases hx
  have n1 : ¬ (m.parse ⟨v, e⟩).Panics := by rw [hx]; exact ret_not_panics _ _
  have key : (∃ t, ∀ e, m.parse ⟨v, e⟩ = reject t v e (declared v) (withRawHdr m ⟨v, e⟩ (hdrOf v hv))) ∨
      ¬ FixedCrashes (clcKind m) (declared v) v.length v.length := by
    by_cases hsh : declared v < minLen (clcKind m)
    · exact .inl ⟨_, fun e => message_short m hm v e hv hsh⟩
    · rw [C45_panics_iff m hm h1 h2 ⟨v, e⟩ hv] at n1
      simp only [FixedCrashes, if_neg hsh, Slice.len_mk, Slice.cap_mk] at n1 ⊢
      cases m
      case acceptSMCDv2 m =>
        by_cases hl : v.length < 78
        · left
          refine ⟨acceptV2Text v[4], fun e => ?_⟩
          rw [Message.parse, smcdv2_short v e hv m hm.1 (.inr hl), declared_eq v hv]
          exact map_reject _ _ _ _ _ _
        · right; simp only [clcKind] at n1 ⊢; omega
      case confirmSMCDv2 m =>
        by_cases hl : v.length < 78
        · left
          refine ⟨acceptV2Text v[4], fun e => ?_⟩
          rw [Message.parse, smcdv2_short v e hv m hm.1 (.inr hl), declared_eq v hv]
          exact map_reject _ _ _ _ _ _
        · right; simp only [clcKind] at n1 ⊢; omega
      all_goals exact .inr n1
  rcases key with ⟨t, ht⟩ | hc
  · rw [ht] at hx hx'
    unfold reject at hx hx'
    split at hx
    · split at hx'
      · cases hx; cases hx'
        cases m <;> rfl
      · cases hx'
    · cases hx
  · replace hc := mt (C45_panics_iff m hm h1 h2 ⟨v, []⟩ hv).1 hc
    cases hp : m.parse ⟨v, []⟩ with
    | panic l => exact absurd ⟨l, hp⟩ hc
    | ret l0 x0 =>
      obtain ⟨b, hb, hb'⟩ := spareSim_message m v e l0 x0 hp
      obtain ⟨c, hc, hc'⟩ := spareSim_message m v e' l0 x0 hp
      rw [hb] at hx
      rw [hc] at hx'
      cases hx; cases hx'
      rw [hb', hc']
      cases x0 <;> rfl

/-- the hypotheses hold for a header that declares 9 bytes -/
example : clcKind (.decline {}) ≠ .proposal ∧ clcKind (.decline {}) ≠ .proposalV2 ∧
    ∀ b : UInt8, ∃ l x, (Message.decline {}).parse ⟨hex! "e2 d4 c3 d9 04 00 09 10", [b]⟩ = .ret l x :=
  ⟨by decide, by decide, fun _ => ⟨_, _, rfl⟩⟩

/-- C83, fields only, is false for Proposals of version 1: only the header is in the buffer, and
the peer ID and addresses are taken from the spare capacity. -/
theorem C83_fields_v1_false :
    ∃ (v e e' : Bytes) (l l' : List Bytes) (x x' : Proposal), e.length = e'.length ∧
      ({} : Proposal).parse ⟨v, e⟩ = .ret l x ∧ ({} : Proposal).parse ⟨v, e'⟩ = .ret l' x' ∧
      x.IBGID ≠ x'.IBGID := by
  refine ⟨hex! "e2 d4 c3 d9 01 00 34 10", zeros 30 ++ [255, 255] ++ zeros 12,
    zeros 8 ++ [1] ++ zeros 21 ++ [255, 255] ++ zeros 12, _, _, _, _, by decide, rfl, rfl, by decide +kernel⟩

/-- C83, fields only, is false for Proposals of version 2, likewise. -/
theorem C83_fields_v2_false :
    ∃ (v e e' : Bytes) (l l' : List Bytes) (x x' : ProposalV2), e.length = e'.length ∧
      ({} : ProposalV2).parse ⟨v, e⟩ = .ret l x ∧ ({} : ProposalV2).parse ⟨v, e'⟩ = .ret l' x' ∧
      x.IBGID ≠ x'.IBGID := by
  refine ⟨hex! "e2 d4 c3 d9 01 00 54 2a", zeros 72, zeros 8 ++ [1] ++ zeros 63, _, _, _, _, by decide, rfl, rfl, by decide +kernel⟩

/-! ## C40, continued -/

/-- C40 also for SMC-Dv2 messages in buffers of less than 78 bytes, whatever they declare. -/
theorem C40_buffer (m : Message) (hm : Sized m) (hk : clcKind m = .acceptSMCDv2 ∨ clcKind m = .confirmSMCDv2)
    (s : Slice) (hs : 8 ≤ s.len) (h : s.len < 78) (hc : declared s.vis ≤ s.cap) :
    ∃ h, WireHeader s.vis h ∧
      m.parse s = .ret [tooShort (clcKind m) (num s.vis 4 0 8),
        go! "Message Buffer Hex Dump:\n" ++ hexDump ((s.vis ++ s.extra).take (declared s.vis))] (withRawHdr m s h) := by
  obtain ⟨v, e⟩ := s
  simp only [Slice.len_mk, Slice.cap_mk] at *
  refine ⟨hdrOf v hs, hdrOf_wire v hs, ?_⟩
  have key : m.parse ⟨v, e⟩ = reject (tooShort (clcKind m) (num v 4 0 8)) v e (declared v)
      (withRawHdr m ⟨v, e⟩ (hdrOf v hs)) := by
    have e2 := acceptV2Text_eq v hs
    cases m <;> simp only [clcKind, reduceCtorEq, or_self, or_false, false_or] at hk
    case acceptSMCDv2 m =>
      rw [Message.parse, smcdv2_short v e hs m hm.1 (.inr h), declared_eq v hs, e2]; exact map_reject _ _ _ _ _ _
    case confirmSMCDv2 m =>
      rw [Message.parse, smcdv2_short v e hs m hm.1 (.inr h), declared_eq v hs, e2]; exact map_reject _ _ _ _ _ _
  rw [key]
  unfold reject
  rw [if_pos hc]
  congr 2
  unfold dumpText
  unfmt []
  simp

/-- the hypotheses hold for the first 60 bytes of a message of 78 bytes in a larger array -/
example : Sized (.acceptSMCDv2 {}) ∧ clcKind (.acceptSMCDv2 {}) = .acceptSMCDv2 ∧
    declared (hex! "e2 d4 c3 c4 02 00 4e 21" ++ zeros 52) ≤ Slice.cap ⟨hex! "e2 d4 c3 c4 02 00 4e 21" ++ zeros 52, zeros 18⟩ :=
  ⟨by unfold Sized; decide, rfl, by decide +kernel⟩

end SMC.Props
