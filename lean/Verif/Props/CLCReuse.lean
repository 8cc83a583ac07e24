import Verif.Props.CLCLocal
import Verif.Spec.Crash
/-!
# C45–C47: truncated messages, used message values, Confirm messages
-/

namespace SMC.Props

open SMC Spec CLC

/-! ## C45 -/

theorem panics_of_none {α : Type} {x : Go α} (h : x.val?.isNone = true) : x.Panics := by
  cases x with
  | ret l a => exact absurd h (by simp [Go.val?])
  | panic l => exact ⟨l, rfl⟩

theorem panics_of_needs {α β : Type} (f : α → β) {n : Nat} {s : Slice} {x : Go α} (h : Needs n s x) (hs : s.len < n) :
    (x >>= fun a => pure (f a)).Panics := (map_panics f x).2 (h.panics hs)

theorem map_ret_not_panics {α β : Type} (f : α → β) {x : Go α} {l : List Bytes} {a : α} (h : x = .ret l a) :
    ¬ (x >>= fun a => pure (f a)).Panics := by rw [h, map_ret]; exact ret_not_panics _ _

/-- C45, exactly, for all kinds but Proposals: when `Parse` panics on buffers with at least a
header. Complete messages are among them, truncated ones panic unless their minimum is there. -/
theorem C45_panics_iff (m : Message) (hm : Sized m) (h1 : clcKind m ≠ .proposal) (h2 : clcKind m ≠ .proposalV2)
    (s : Slice) (hs : 8 ≤ s.len) :
    (m.parse s).Panics ↔ FixedCrashes (clcKind m) (declared s.vis) s.len s.cap := by
  by_cases hsh : declared s.vis < minLen (clcKind m)
  · rw [C40_short_panics_iff m hm s hs hsh]
    unfold FixedCrashes; rw [if_pos hsh]
  · unfold FixedCrashes; rw [if_neg hsh]
    obtain ⟨v, e⟩ := s
    simp only [Slice.len_mk, Slice.cap_mk] at *
    have hd := declared_eq v hs
    cases m with
    | proposal m => exact absurd rfl h1
    | proposalV2 m => exact absurd rfl h2
    | acceptSMCR m | confirmSMCR m =>
      simp only [clcKind, minLen] at hsh ⊢
      rw [Message.parse]
      by_cases hl : v.length < 68
      · exact ⟨fun _ => hl, fun _ => panics_of_needs _ (smcr_needs v e hs m hm.1 (by omega)) hl⟩
      · exact ⟨fun c => absurd c (map_ret_not_panics _ (smcr_parse v e hs m hm.1 hm.2.1 hm.2.2 (by omega) (by omega))),
          fun c => absurd c hl⟩
    | acceptSMCD m | confirmSMCD m =>
      simp only [clcKind, minLen] at hsh ⊢
      rw [Message.parse]
      by_cases hl : v.length < 48
      · exact ⟨fun _ => hl, fun _ => panics_of_needs _ (smcd_needs v e hs m hm.1 (by omega)) hl⟩
      · exact ⟨fun c => absurd c (map_ret_not_panics _ (smcd_parse v e hs m hm.1 hm.2.1 hm.2.2.1 hm.2.2.2 (by omega)
          (by omega))), fun c => absurd c hl⟩
    | acceptSMCDv2 m | confirmSMCDv2 m =>
      simp only [clcKind, minLen] at hsh ⊢
      obtain ⟨g1, g2, g3, g4, g5, g6, g7⟩ := hm
      rw [Message.parse]
      by_cases hl : v.length < 78
      · rw [smcdv2_short v e hs m g1 (.inr hl), map_reject, reject_panics, hd]; omega
      · by_cases hc : declared v = 114
        · by_cases hl2 : v.length < 114
          · exact ⟨fun _ => .inr ⟨by omega, hc, hl2⟩, fun _ => panics_of_needs _ (smcdv2_needs v e hs m g1 (by omega) (by omega)) hl2⟩
          · exact ⟨fun c => absurd c (map_ret_not_panics _ (smcdv2_parse_fce v e hs m g1 g2 g3 g4 g7 g5 g6 (by omega)
              (by omega))), fun c => by omega⟩
        · exact ⟨fun c => absurd c (map_ret_not_panics _ (smcdv2_parse v e hs m g1 g2 g3 g4 g7 (by omega) (by omega)
              (by omega))), fun c => by omega⟩
    | decline m =>
      simp only [clcKind, minLen] at hsh ⊢
      rw [Message.parse]
      by_cases hl : v.length < 28
      · exact ⟨fun _ => hl, fun _ => panics_of_needs _ (decline_needs v e hs m hm.1 (by omega)) hl⟩
      · exact ⟨fun c => absurd c (map_ret_not_panics _ (decline_parse v e hs m hm.1 hm.2.1 hm.2.2.1 hm.2.2.2 (by omega)
          (by omega))), fun c => absurd c hl⟩
    | declineV2 m =>
      simp only [clcKind, minLen] at hsh ⊢
      rw [Message.parse]
      by_cases hl : v.length < 28
      · exact ⟨fun _ => hl, fun _ => panics_of_needs _ (declineV2_needs v e hs m hm.1 (by omega)) hl⟩
      · exact ⟨fun c => absurd c (map_ret_not_panics _ (declineV2_parse v e hs m hm.1 hm.2.1 hm.2.2.1 hm.2.2.2 (by omega)
          (by omega))), fun c => absurd c hl⟩

/-- C45 is false of every kind: a header that declares 1000 bytes, alone in its buffer. -/
theorem C45_truncated_false (k : CLCKind) :
    ∃ s : Slice, 8 ≤ s.len ∧ s.len < declared s.vis ∧ ((freshCLC k).parse s).Panics := by
  refine ⟨⟨hex! "e2 d4 c3 d9 01 03 e8 10", []⟩, by decide, by decide +kernel, ?_⟩
  cases k
  all_goals
    apply panics_of_none
    decide +kernel

/-- C45 where it holds: a truncated message whose minimum is in the buffer and that is not an
SMC-Dv2 Accept or Confirm with first contact extension. -/
theorem C45_truncated_partial (m : Message) (hm : Sized m) (h1 : clcKind m ≠ .proposal) (h2 : clcKind m ≠ .proposalV2)
    (s : Slice) (hl : minLen (clcKind m) ≤ s.len) (ht : s.len < declared s.vis)
    (h3 : clcKind m = .acceptSMCDv2 ∨ clcKind m = .confirmSMCDv2 → declared s.vis ≠ 114) : ¬ (m.parse s).Panics := by
  have h8 : 8 ≤ minLen (clcKind m) := by cases m <;> simp [clcKind, minLen]
  rw [C45_panics_iff m hm h1 h2 s (by omega)]
  unfold FixedCrashes
  rw [if_neg (by omega)]
  cases m <;> simp only [clcKind, minLen] at *
  case acceptSMCDv2 | confirmSMCDv2 =>
    have := h3 (by simp)
    omega
  all_goals first
    | exact absurd rfl h1
    | exact absurd rfl h2
    | omega

example : minLen (clcKind (.declineV2 {})) ≤ (hex! "e2 d4 c3 d9 04 01 00 20" ++ zeros 20).length ∧
    (hex! "e2 d4 c3 d9 04 01 00 20" ++ zeros 20).length < declared (hex! "e2 d4 c3 d9 04 01 00 20" ++ zeros 20) := by
  decide +kernel

/-! ## C46 -/

/-- the fields that `Parse` may leave as they are, or only adds to, have their zero values -/
def Unused : Message → Prop
  | .decline m => m.OSType = 0
  | .acceptSMCDv2 m | .confirmSMCDv2 m => SameFCE m {}
  | .proposal m => m.SMCDGID = 0 ∧ m.rsv = zeros 32 ∧ m.IPv6Prefixes = []
  | .proposalV2 m => SameIP m {} ∧ SameExt m {} ∧ SameSMCD m {}
  | _ => True

theorem ite_same {α : Type} {c : Prop} [Decidable c] {a b a' b' : α} (h1 : c → a = a') (h2 : ¬ c → b = b') :
    (if c then a else b) = if c then a' else b' := by
  by_cases h : c
  · rw [if_pos h, if_pos h, h1 h]
  · rw [if_neg h, if_neg h, h2 h]

theorem propFull_unused (v e : Bytes) (hv : 8 ≤ v.length) (p : Proposal) (h : 52 ≤ v.length) (k : Nat)
    (h1 : p.SMCDGID = 0) (h2 : p.rsv = zeros 32) (h3 : p.IPv6Prefixes = []) :
    propFull v (propFixed v e hv p h) k = propFull v (propFixed v e hv {} h) k := by
  cases p
  simp only at h1 h2 h3
  subst h1 h2 h3
  unfold propFull propFixed propBase
  split <;> rfl

theorem v2_unused (v e : Bytes) (hv : 8 ≤ v.length) (p : ProposalV2) (h : 84 ≤ v.length)
    (h1 : SameIP p {}) (h2 : SameExt p {}) (h3 : SameSMCD p {}) :
    { v2R v e hv p h with trailer := last4 v } = { v2R v e hv {} h with trailer := last4 v } := by
  cases p
  obtain ⟨a1, a2, a3, a4, a5⟩ := h1
  obtain ⟨b1, b2, b3, b4, b5, b6, b7, b8, b9, b10⟩ := h2
  obtain ⟨c1, c2, c3⟩ := h3
  simp only at a1 a2 a3 a4 a5 b1 b2 b3 b4 b5 b6 b7 b8 b9 b10 c1 c2 c3
  subst a1 a2 a3 a4 a5 b1 b2 b3 b4 b5 b6 b7 b8 b9 b10 c1 c2 c3
  unfold v2R v2Q v2P v2SMCD v2Ext v2IP v2Fixed
  split <;> split <;> split <;> rfl

/-- C46 for values whose fields that `Parse` does not always set are zero: every accepted
message is decoded, or crashed on, as into a zero value. This is no restriction for Declines of
version 2 and Accepts and Confirms of version 1. -/
theorem C46_reuse_partial (m : Message) (hm : Sized m) (hu : Unused m) (s : Slice) (hL : declared s.vis ≤ s.len)
    (ha : Accepted (clcKind m) s.vis) : m.parse s = (freshCLC (clcKind m)).parse s := by
  obtain ⟨v, e⟩ := s
  simp only [Slice.len_mk] at *
  obtain ⟨hl, ha⟩ := ha
  have hf := sized_fresh (clcKind m)
  have hv : 8 ≤ v.length := by
    have : 8 ≤ minLen (clcKind m) := by cases m <;> simp [clcKind, minLen]
    omega
  have hd := declared_eq v hv
  cases m with
  | proposal m =>
    simp only [clcKind, minLen, freshCLC, Message.parse] at *
    rw [proposal_result v e hv m hm (by omega) hl hL, proposal_result v e hv {} hf (by omega) hl hL]
    congr 1
    unfold propResult
    refine ite_same (fun _ => rfl) fun _ => ?_
    rw [if_neg (by omega), if_neg (by omega), propFull_unused v e hv m (by omega) _ hu.1 hu.2.1 hu.2.2]
  | proposalV2 m =>
    simp only [clcKind, minLen, freshCLC, Message.parse] at *
    rw [proposalV2_result v e hv m hm (by omega) hl hL, proposalV2_result v e hv {} hf (by omega) hl hL]
    congr 1
    obtain ⟨r1, r2, r3⟩ := ha
    unfold v2Result
    have n1 : ¬¬ RoomIP v := fun c => c r1
    have n2 : ¬¬ RoomExt v := fun c => c r2
    have n3 : ¬¬ RoomSMCD v := fun c => c r3
    rw [if_neg n1, if_neg n1, if_neg n2, if_neg n2]
    refine ite_same (fun _ => rfl) fun _ => ?_
    rw [if_neg n3, if_neg n3]
    refine ite_same (fun _ => rfl) fun _ => ?_
    rw [v2_unused v e hv m (by omega) hu.1 hu.2.1 hu.2.2]
  | acceptSMCR m | confirmSMCR m =>
    simp only [clcKind, minLen, freshCLC, Message.parse] at *
    rw [smcr_parse v e hv m hm.1 hm.2.1 hm.2.2 (by omega) (by omega),
      smcr_parse v e hv {} hf.1 hf.2.1 hf.2.2 (by omega) (by omega)]
  | acceptSMCD m | confirmSMCD m =>
    simp only [clcKind, minLen, freshCLC, Message.parse] at *
    rw [smcd_parse v e hv m hm.1 hm.2.1 hm.2.2.1 hm.2.2.2 (by omega) (by omega),
      smcd_parse v e hv {} hf.1 hf.2.1 hf.2.2.1 hf.2.2.2 (by omega) (by omega)]
  | acceptSMCDv2 m | confirmSMCDv2 m =>
    simp only [clcKind, minLen, freshCLC, Message.parse] at *
    obtain ⟨g1, g2, g3, g4, g5, g6, g7⟩ := hm
    obtain ⟨f1, f2, f3, f4, f5, f6, f7⟩ := hf
    by_cases hc : declared v = 114
    · rw [smcdv2_parse_fce v e hv m g1 g2 g3 g4 g7 g5 g6 (by omega) (by omega),
        smcdv2_parse_fce v e hv {} f1 f2 f3 f4 f7 f5 f6 (by omega) (by omega)]
      rfl
    · rw [smcdv2_parse v e hv m g1 g2 g3 g4 g7 (by omega) (by omega) (by omega),
        smcdv2_parse v e hv {} f1 f2 f3 f4 f7 (by omega) (by omega) (by omega)]
      obtain ⟨u1, u2, u3, u4, u5⟩ := hu
      unfold smcdv2Of
      rw [u1, u2, u3, u4, u5]
  | decline m =>
    simp only [clcKind, minLen, freshCLC, Message.parse] at *
    rw [decline_parse v e hv m hm.1 hm.2.1 hm.2.2.1 hm.2.2.2 (by omega) (by omega),
      decline_parse v e hv {} hf.1 hf.2.1 hf.2.2.1 hf.2.2.2 (by omega) (by omega),
      show m.OSType = 0 from hu]
  | declineV2 m =>
    simp only [clcKind, minLen, freshCLC, Message.parse] at *
    rw [declineV2_parse v e hv m hm.1 hm.2.1 hm.2.2.1 hm.2.2.2 (by omega) (by omega),
      declineV2_parse v e hv {} hf.1 hf.2.1 hf.2.2.1 hf.2.2.2 (by omega) (by omega)]

/-- C46 for an SMC-Dv2 Accept or Confirm with first contact extension: all values. -/
theorem C46_reuse_fce (m : AcceptSMCDv2) (hm : SizedSMCDv2 m) (s : Slice) (hd : declared s.vis = 114) (hL : 114 ≤ s.len) :
    m.parse s = ({} : AcceptSMCDv2).parse s := by
  obtain ⟨v, e⟩ := s
  simp only [Slice.len_mk] at *
  obtain ⟨g1, g2, g3, g4, g5, g6, g7⟩ := hm
  have hv : 8 ≤ v.length := by omega
  have := declared_eq v hv
  rw [smcdv2_parse_fce v e hv m g1 g2 g3 g4 g7 g5 g6 (by omega) (by omega),
    smcdv2_parse_fce v e hv {} rfl rfl rfl rfl rfl rfl rfl (by omega) (by omega)]
  rfl

/-- a used value that is like a new one where it matters, and one whose extension is overwritten -/
example : Sized (.decline { PeerDiagnosis := 7, trailer := zeros 4 }) ∧ Unused (.decline { PeerDiagnosis := 7, trailer := zeros 4 }) ∧
    Accepted .decline (hex! "e2 d4 c3 d9 04 00 1c 10" ++ zeros 16 ++ hex! "e2 d4 c3 d9") ∧
    SizedSMCDv2 { OSType := 2, Hostname := List.replicate 32 7 } ∧
    declared (hex! "e2 d4 c3 c4 02 00 72 20" ++ zeros 106) = 114 := by
  refine ⟨?_, ?_, ?_, ?_, ?_⟩
  · exact ⟨rfl, rfl, rfl, rfl⟩
  · rfl
  · exact ⟨by decide +kernel, trivial⟩
  · exact ⟨rfl, rfl, rfl, rfl, rfl, rfl, rfl⟩
  · decide +kernel

/-- a Proposal with one IPv6 prefix -/
def onePrefix : Bytes :=
  hex! "e2 d4 c3 d9 01 00 45 10" ++ zeros 32 ++ zeros 7 ++ [1] ++ zeros 17 ++ hex! "e2 d4 c3 d9"
/-- a Proposal of version 2 with path and v2 path N -/
def emptyV2 : Bytes := hex! "e2 d4 c3 d9 01 00 54 2a" ++ zeros 72 ++ hex! "e2 d4 c3 d9"
/-- an SMC-Dv2 Accept with first contact extension, host name "h" -/
def withFCE : Bytes := hex! "e2 d4 c3 c4 02 00 72 20" ++ zeros 66 ++ hex! "00 21 00 00 68" ++ zeros 31 ++ hex! "e2 d4 c3 c4"
/-- an SMC-Dv2 Accept without -/
def withoutFCE : Bytes := hex! "e2 d4 c3 c4 02 00 4e 20" ++ zeros 66 ++ hex! "e2 d4 c3 c4"

/-- C46 is false of Proposals: parsing the same message twice doubles the list of prefixes. -/
theorem C46_reuse_false_proposal :
    Accepted .proposal onePrefix ∧ declared onePrefix = onePrefix.length ∧
    ∃ l m m', ({} : Proposal).parse ⟨onePrefix, []⟩ = .ret l m ∧ m.parse ⟨onePrefix, []⟩ = .ret l m' ∧
      m.IPv6Prefixes.length = 1 ∧ m'.IPv6Prefixes.length = 2 := by
  have hs : ∀ m : Proposal, SizedProposal m → m.parse ⟨onePrefix, []⟩ =
      .ret (trailerLog (last4 onePrefix)) (propFull onePrefix (propFixed onePrefix [] (by decide) m (by decide)) 40) := by
    intro m hm
    rw [proposal_result _ _ (by decide) m hm (by decide) (by decide +kernel) (by decide +kernel)]
    unfold propResult
    rw [if_neg (by decide +kernel), if_neg (by decide +kernel), (by decide +kernel : ipAreaAt onePrefix = 40),
      (by decide +kernel : pfxLog pfxText onePrefix (declared onePrefix) (40 + 8) 17 (num onePrefix (40 + 7) 0 8) = [])]
    rfl
  refine ⟨⟨by decide +kernel, by decide +kernel⟩, by decide +kernel, _, _, _, hs {} (by decide), hs _ (by decide +kernel),
    by decide +kernel, by decide +kernel⟩

/-- C46 is false of SMC-Dv2 Accepts: without first contact extension the operating system,
release and host name of the message before remain. -/
theorem C46_reuse_false_fce :
    Accepted .acceptSMCDv2 withoutFCE ∧ declared withoutFCE = withoutFCE.length ∧
    ∃ m m', ({} : AcceptSMCDv2).parse ⟨withFCE, []⟩ = .ret [] m ∧ m.parse ⟨withoutFCE, []⟩ = .ret [] m' ∧
      m'.Hostname = hex! "68" ++ zeros 31 ∧ m'.OSType = 2 ∧ m'.Release = 1 := by
  have e1 := smcdv2_parse_fce withFCE [] (by decide) {} rfl rfl rfl rfl rfl rfl rfl (by decide +kernel) (by decide +kernel)
  rw [(by decide +kernel : trailerLog (last4 withFCE) = [])] at e1
  have e2 : ∀ m : AcceptSMCDv2, SizedSMCDv2 m →
      m.parse ⟨withoutFCE, []⟩ = .ret [] (smcdv2Of withoutFCE [] (by decide) m (by decide)) := by
    rintro m ⟨g1, g2, g3, g4, g5, g6, g7⟩
    rw [smcdv2_parse withoutFCE [] (by decide) m g1 g2 g3 g4 g7 (by decide +kernel) (by decide +kernel) (by decide +kernel),
      (by decide +kernel : trailerLog (last4 withoutFCE) = [])]
  exact ⟨⟨by decide +kernel, trivial⟩, by decide +kernel, _, _, e1, e2 _ (by decide +kernel), by decide +kernel,
    by decide +kernel, by decide +kernel⟩

/-- a Proposal of version 2 with path N, v2 path R and one EID -/
def oneEID : Bytes :=
  hex! "e2 d4 c3 d9 01 00 9c 22" ++ zeros 72 ++ [1] ++ zeros 39 ++ hex! "41" ++ zeros 31 ++ hex! "e2 d4 c3 d9"

/-- C46 is false of Proposals of version 2: without v2 extension the EIDs of the message before
remain. -/
theorem C46_reuse_false_proposalV2 :
    Accepted .proposalV2 emptyV2 ∧ declared emptyV2 = emptyV2.length ∧
    ∃ m m', ({} : ProposalV2).parse ⟨oneEID, []⟩ = .ret [] m ∧ m.parse ⟨emptyV2, []⟩ = .ret [] m' ∧
      m'.EIDNumber = 1 ∧ m'.EIDArea[0]? = some (hex! "41" ++ zeros 31) := by
  have hs : ∀ v (hv : 8 ≤ v.length) (h : 84 ≤ v.length), 84 ≤ declared v → declared v ≤ v.length → RoomIP v → RoomExt v →
      ¬ (HasExt v ∧ 8 < eidCount v) → RoomSMCD v → ¬ (HasSMCD v ∧ 8 < gidCount v) →
      v2LogP v ++ v2LogQ v ++ v2LogR v ++ trailerLog (last4 v) = [] →
      ∀ m : ProposalV2, SizedProposalV2 m → m.parse ⟨v, []⟩ = .ret [] { v2R v [] hv m h with trailer := last4 v } := by
    intro v hv h h1 h2 h3 h4 h5 h6 h7 h8 m hm
    rw [proposalV2_result v [] hv m hm h h1 h2]
    unfold v2Result
    rw [if_neg (fun c => c h3), if_neg (fun c => c h4), if_neg h5, if_neg (fun c => c h6), if_neg h7, h8]
  have e1 := hs oneEID (by decide +kernel) (by decide +kernel) (by decide +kernel) (by decide +kernel) (by decide +kernel) (by decide +kernel)
    (by decide +kernel) (by decide +kernel) (by decide +kernel) (by decide +kernel) {} (by decide)
  exact ⟨⟨by decide +kernel, by decide +kernel, by decide +kernel, by decide +kernel⟩, by decide +kernel, _, _, e1,
    hs emptyV2 (by decide +kernel) (by decide +kernel) (by decide +kernel) (by decide +kernel) (by decide +kernel) (by decide +kernel)
    (by decide +kernel) (by decide +kernel) (by decide +kernel) (by decide +kernel) _ (by decide +kernel), by decide +kernel,
    by decide +kernel⟩

/-! ## C47 -/

/-- the Confirm with the fields of an Accept; other messages as they are -/
def toConfirm : Message → Message
  | .acceptSMCR m => .confirmSMCR m
  | .acceptSMCD m => .confirmSMCD m
  | .acceptSMCDv2 m => .confirmSMCDv2 m
  | m => m

/-- C47: a Confirm parses every buffer like the Accept with the same fields, log and panics
included. -/
theorem C47_confirm_as_accept (m : Message) (s : Slice) :
    (toConfirm m).parse s = (do pure (toConfirm (← m.parse s))) := by
  have h : ∀ {α β γ : Type} (x : Go α) (f : α → β) (g : β → γ),
      (x >>= fun a => pure (g (f a))) = ((x >>= fun a => pure (f a)) >>= fun b => pure (g b)) := by
    intro α β γ x f g
    cases x with
    | ret l a => rw [map_ret, map_ret, map_ret]
    | panic l => rfl
  cases m with
  | acceptSMCR m => exact h (m.parse s) .acceptSMCR toConfirm
  | acceptSMCD m => exact h (m.parse s) .acceptSMCD toConfirm
  | acceptSMCDv2 m => exact h (m.parse s) .acceptSMCDv2 toConfirm
  | confirmSMCR m => exact h (m.parse s) .confirmSMCR toConfirm
  | confirmSMCD m => exact h (m.parse s) .confirmSMCD toConfirm
  | confirmSMCDv2 m => exact h (m.parse s) .confirmSMCDv2 toConfirm
  | proposal m => exact h (m.parse s) .proposal toConfirm
  | proposalV2 m => exact h (m.parse s) .proposalV2 toConfirm
  | decline m => exact h (m.parse s) .decline toConfirm
  | declineV2 m => exact h (m.parse s) .declineV2 toConfirm

/-- the message without its raw bytes, trailer and type -/
def exceptType : Message → Message := fun m =>
  withRawHdr (core m) ⟨[], []⟩ { m.hdr with Typ := 0 }

/-- the buffer with another type in the header of the message -/
def retyped (s : Slice) (t : UInt8) : Slice := ⟨s.vis.set 4 t, s.extra⟩

theorem declared_set (v : Bytes) (hv : 8 ≤ v.length) (t : UInt8) : declared (v.set 4 t) = declared v := by
  rw [← declared_eq _ (by simpa using hv), ← declared_eq v hv]
  simp [hdrOf]

theorem hdrOf_set (v : Bytes) (hv : 8 ≤ v.length) (t : UInt8) :
    hdrOf (v.set 4 t) (by simpa using hv) = { hdrOf v hv with Typ := t } := by
  unfold hdrOf
  simp [List.take_set_of_le]

theorem drop_set (v : Bytes) (t : UInt8) (k : Nat) (hk : 4 < k) : (v.set 4 t).drop k = v.drop k := by
  rw [List.drop_set_of_lt hk]

theorem last4_set (v : Bytes) (t : UInt8) (hv : 9 ≤ v.length) : last4 (v.set 4 t) = last4 v := by
  unfold last4; rw [List.length_set, drop_set _ _ _ (by omega)]

/-- C47: the type in the header has no influence on how Accepts and Confirms are decoded. Only
the text of the error message for a message that is too short depends on it. -/
theorem C47_type_irrelevant (m : Message) (hm : Sized m)
    (hk : clcKind m ∈ [CLCKind.acceptSMCR, .acceptSMCD, .acceptSMCDv2, .confirmSMCR, .confirmSMCD, .confirmSMCDv2])
    (s : Slice) (hs : 8 ≤ s.len) (t : UInt8) :
    ((m.parse (retyped s t)).Panics ↔ (m.parse s).Panics) ∧
    ∀ l x l' x', m.parse s = .ret l x → m.parse (retyped s t) = .ret l' x' →
      exceptType x' = exceptType x ∧ x'.trailer = x.trailer ∧ x'.hdr.Typ = t ∧
      (minLen (clcKind m) ≤ declared s.vis → minLen (clcKind m) ≤ s.len → l' = l) := by
  have h1 : clcKind m ≠ .proposal := by rintro h; rw [h] at hk; exact absurd hk (by decide)
  have h2 : clcKind m ≠ .proposalV2 := by rintro h; rw [h] at hk; exact absurd hk (by decide)
  obtain ⟨v, e⟩ := s
  have hset := declared_set v hs t
  have hs' : 8 ≤ (v.set 4 t).length := by simpa using hs
  constructor
  · rw [C45_panics_iff m hm h1 h2 _ (by simpa [retyped] using hs), C45_panics_iff m hm h1 h2 _ hs]
    simp only [retyped, Slice.len_mk, Slice.cap_mk, List.length_set, hset]
  · intro l x l' x' hx hx'
    simp only [retyped, Slice.len_mk] at *
    have hd := declared_eq v hs
    have hd' := declared_eq _ hs'
    rw [hset] at hd'
    have hh := hdrOf_set v hs t
    by_cases hsh : declared v < minLen (clcKind m)
    · rw [message_short m hm v e hs hsh] at hx
      rw [message_short m hm _ e hs' (by omega)] at hx'
      unfold reject at hx hx'
      split at hx
      · split at hx'
        · cases hx; cases hx'
          refine ⟨?_, ?_, ?_, fun h => by omega⟩
          · rw [hh]; cases m <;> rfl
          · cases m <;> rfl
          · rw [hh]; cases m <;> rfl
        · cases hx'
      · cases hx
    · have hlen : (v.set 4 t).length = v.length := by simp
      cases m with
      | acceptSMCR m | confirmSMCR m =>
        simp only [clcKind, minLen, Message.parse] at *
        by_cases hl : v.length < 68
        · obtain ⟨_, c⟩ := panics_of_needs _ (smcr_needs v e hs m hm.1 (by omega)) hl
          rw [c] at hx; cases hx
        · rw [smcr_parse v e hs m hm.1 hm.2.1 hm.2.2 (by omega) (by omega), map_ret] at hx
          rw [smcr_parse _ e hs' m hm.1 hm.2.1 hm.2.2 (by omega) (by omega), map_ret] at hx'
          cases hx; cases hx'
          refine ⟨?_, last4_set v t (by omega), by rw [hh]; rfl, fun _ _ => by rw [last4_set v t (by omega)]⟩
          simp (disch := omega) only [exceptType, withRawHdr, core, Message.hdr, hh, drop_set, List.getElem_set_ne]
      | acceptSMCD m | confirmSMCD m =>
        simp only [clcKind, minLen, Message.parse] at *
        by_cases hl : v.length < 48
        · obtain ⟨_, c⟩ := panics_of_needs _ (smcd_needs v e hs m hm.1 (by omega)) hl
          rw [c] at hx; cases hx
        · rw [smcd_parse v e hs m hm.1 hm.2.1 hm.2.2.1 hm.2.2.2 (by omega) (by omega), map_ret] at hx
          rw [smcd_parse _ e hs' m hm.1 hm.2.1 hm.2.2.1 hm.2.2.2 (by omega) (by omega), map_ret] at hx'
          cases hx; cases hx'
          refine ⟨?_, last4_set v t (by omega), by rw [hh]; rfl, fun _ _ => by rw [last4_set v t (by omega)]⟩
          simp (disch := omega) only [exceptType, withRawHdr, core, Message.hdr, hh, drop_set, List.getElem_set_ne]
      | acceptSMCDv2 m | confirmSMCDv2 m =>
        simp only [clcKind, minLen, Message.parse] at *
        obtain ⟨g1, g2, g3, g4, g5, g6, g7⟩ := hm
        by_cases hl : v.length < 78
        · rw [smcdv2_short v e hs m g1 (.inr hl), map_reject] at hx
          rw [smcdv2_short _ e hs' m g1 (.inr (by omega)), map_reject] at hx'
          unfold reject at hx hx'
          split at hx
          · split at hx'
            · cases hx; cases hx'
              exact ⟨by rw [hh]; rfl, rfl, by rw [hh]; rfl, fun _ h => by omega⟩
            · cases hx'
          · cases hx
        · by_cases hc : declared v = 114
          · by_cases hl2 : v.length < 114
            · obtain ⟨_, c⟩ := panics_of_needs _ (smcdv2_needs v e hs m g1 (by omega) (by omega)) hl2
              rw [c] at hx; cases hx
            · rw [smcdv2_parse_fce v e hs m g1 g2 g3 g4 g7 g5 g6 (by omega) (by omega), map_ret] at hx
              rw [smcdv2_parse_fce _ e hs' m g1 g2 g3 g4 g7 g5 g6 (by omega) (by omega), map_ret] at hx'
              cases hx; cases hx'
              refine ⟨?_, last4_set v t (by omega), by unfold smcdv2Of; rw [hh]; rfl,
                fun _ _ => by rw [last4_set v t (by omega)]⟩
              simp (disch := omega) only [exceptType, withRawHdr, core, Message.hdr, smcdv2Of, hh, drop_set,
                List.getElem_set_ne]
          · rw [smcdv2_parse v e hs m g1 g2 g3 g4 g7 (by omega) (by omega) (by omega), map_ret] at hx
            rw [smcdv2_parse _ e hs' m g1 g2 g3 g4 g7 (by omega) (by omega) (by omega), map_ret] at hx'
            cases hx; cases hx'
            refine ⟨?_, last4_set v t (by omega), by unfold smcdv2Of; rw [hh]; rfl,
              fun _ _ => by rw [last4_set v t (by omega)]⟩
            simp (disch := omega) only [exceptType, withRawHdr, core, Message.hdr, smcdv2Of, hh, drop_set,
              List.getElem_set_ne]
      | proposal m => exact absurd rfl h1
      | proposalV2 m => exact absurd rfl h2
      | decline m => exact absurd hk (by simp [clcKind])
      | declineV2 m => exact absurd hk (by simp [clcKind])

example : clcKind (.confirmSMCDv2 {}) ∈
    [CLCKind.acceptSMCR, .acceptSMCD, .acceptSMCDv2, .confirmSMCR, .confirmSMCD, .confirmSMCDv2] ∧
    minLen (clcKind (.confirmSMCDv2 {})) ≤ declared (retyped ⟨withFCE, []⟩ 3).vis := by decide +kernel

end SMC.Props
