import Verif.Lemmas.Entries
/-!
# C38, C41: fields of Proposal messages (version 1)

All statements are about complete messages: the declared length is at least 52 and the buffer
holds at least that many bytes.
-/

namespace SMC.Props

open SMC Spec CLC

section
variable (v e : Bytes) (hv : 8 ≤ v.length)

/-- The whole parser on a complete message. -/
def propResult (p : Proposal) (h : 52 ≤ v.length) : Go Proposal :=
  if num v 38 0 16 = 40 ∧ v.length + e.length < 80 then .panic []
  else if declared v < ipAreaAt v + 12 then
    .ret (errLog (go! "Error parsing CLC Proposal: IP Area Offset too big") v (declared v)) (propFixed v e hv p h)
  else
    .ret (pfxLog pfxText v (declared v) (ipAreaAt v + 8) 17 (num v (ipAreaAt v + 7) 0 8) ++ trailerLog (last4 v))
      (propFull v (propFixed v e hv p h) (ipAreaAt v))

theorem propFixed_hdr (p : Proposal) (h : 52 ≤ v.length) : (propFixed v e hv p h).hdr = hdrOf v hv := by
  unfold propFixed; split <;> rfl
theorem propFixed_rsv2 (p : Proposal) (h : 52 ≤ v.length) : (propFixed v e hv p h).rsv2 = p.rsv2 := by
  unfold propFixed; split <;> rfl
theorem propFixed_trailer (p : Proposal) (h : 52 ≤ v.length) : (propFixed v e hv p h).trailer = p.trailer := by
  unfold propFixed; split <;> rfl
theorem propFixed_prefixes (p : Proposal) (h : 52 ≤ v.length) : (propFixed v e hv p h).IPv6Prefixes = p.IPv6Prefixes := by
  unfold propFixed; split <;> rfl

theorem proposal_result (p : Proposal) (hp : SizedProposal p) (h : 52 ≤ v.length) (hl : 52 ≤ declared v)
    (hL : declared v ≤ v.length) : p.parse ⟨v, e⟩ = propResult v e hv p h := by
  obtain ⟨g1, g2, g3, g4, g5⟩ := hp
  have ho : (u16 v[38] v[39]).toNat = num v 38 0 16 := by rw [num_16 v 38 (by omega), u16_toNat]
  rw [proposal_step v e hv p g1 g2 (by rwa [declared_eq]) h]
  unfold propResult
  by_cases hc : num v 38 0 16 = 40 ∧ v.length + e.length < 80
  · rw [if_pos hc, parseSMCD_panic v e hv p h (by rw [ho]; exact hc.1) hc.2, Go.panic_bind]
  rw [if_neg hc, parseSMCD_eq v e hv p g3 h (fun c => by rw [ho] at c; omega), Go.ret_bind, ho]
  show propRest _ _ (ipAreaAt v) = _
  have hlen : (propFixed v e hv p h).hdr.Length.toNat = declared v := by rw [propFixed_hdr]; exact declared_eq v hv
  by_cases hb : declared v < ipAreaAt v + 12
  · rw [if_pos hb, propRest_big v e _ _ (by rwa [hlen]) (by rwa [hlen]), hlen]
  · rw [if_neg hb, propRest_full v e _ _ (by rw [propFixed_rsv2, g4]) (by rw [propFixed_trailer, g5]) (by rwa [hlen])
      (by rw [hlen]; omega), hlen, num_getD v _ (by omega)]

theorem propFixed_wire (p : Proposal) (h : 52 ≤ v.length) : WireProposal v (propFixed v e hv p h) := by
  have : WireProposal v (propBase v e hv p h) := by
    unfold propBase
    refine ⟨hdrOf_wire _ _, ?_, ?_, ?_, ?_, ?_⟩
    all_goals wire_field
  unfold propFixed
  split
  · exact ⟨this.hdr, this.rawBytes, this.peerID, this.gid, this.mac, this.offset⟩
  · exact this

theorem propFixed_smcd (p : Proposal) (h : 52 ≤ v.length) (h80 : 80 ≤ v.length) (ho : num v 38 0 16 = 40) :
    WireProposalSMCD v (propFixed v e hv p h) := by
  have hu : (u16 v[38] v[39]).toNat = 40 := by rw [← ho, num_16 v 38 (by omega), u16_toNat]
  unfold propFixed
  rw [if_pos hu]
  constructor
  · wire_field
  · show ((v ++ e).drop 48).take 32 = (v.drop 48).take 32
    rw [List.drop_append_of_le_length (by omega), List.take_append_of_le_length (by simp; omega)]

theorem propFixed_noSMCD (p : Proposal) (h : 52 ≤ v.length) (ho : num v 38 0 16 ≠ 40) :
    propFixed v e hv p h = propBase v e hv p h := by
  have hu : ¬ (u16 v[38] v[39]).toNat = 40 := by rwa [num_16 v 38 (by omega), ← u16_toNat] at ho
  unfold propFixed
  rw [if_neg hu]

end

/-- C38. In a complete Proposal whose IP area (eight bytes) lies between its offset and the
trailer, every field has its bits; the SMC-D info is decoded exactly if the offset is 40. -/
theorem C38_proposal_wire (p : Proposal) (hp : SizedProposal p) (s : Slice) (hl : 52 ≤ declared s.vis)
    (hL : declared s.vis ≤ s.len) (hin : ipAreaAt s.vis + 12 ≤ declared s.vis) :
    ∃ l m, p.parse s = .ret l m ∧ WireProposal s.vis m ∧ WireIPArea s.vis (ipAreaAt s.vis) m ∧
      (num s.vis 38 0 16 = 40 → WireProposalSMCD s.vis m) ∧
      (num s.vis 38 0 16 ≠ 40 → m.SMCDGID = p.SMCDGID ∧ m.rsv = p.rsv) := by
  obtain ⟨v, e⟩ := s
  simp only [Slice.len_mk] at *
  have h40 : num v 38 0 16 = 40 → 92 ≤ v.length := fun h => by unfold ipAreaAt at hin; omega
  rw [proposal_result v e (by omega) p hp (by omega) hl hL]
  unfold propResult
  rw [if_neg (by omega), if_neg (by omega)]
  refine ⟨_, _, rfl, ?_, ?_, ?_, ?_⟩
  · have := propFixed_wire v e (by omega) p (by omega)
    exact ⟨this.hdr, this.rawBytes, this.peerID, this.gid, this.mac, this.offset⟩
  · constructor
    · rfl
    · rw [num_getD v _ (by omega)]; rfl
    · rfl
    · rw [num_getD v _ (by omega)]; rfl
  · intro ho
    have := propFixed_smcd v e (by omega) p (by omega) (by have := h40 ho; omega) ho
    exact ⟨this.gid, this.rsv⟩
  · intro ho
    rw [propFixed_noSMCD v e (by omega) p (by omega) ho]
    exact ⟨rfl, rfl⟩

/-- C38: a message whose IP area does not lie inside is reported, and none of the fields
after the SMC-D info is touched (unless `Parse` panics, see C33). -/
theorem C38_proposal_outside (p : Proposal) (hp : SizedProposal p) (s : Slice) (hl : 52 ≤ declared s.vis)
    (hL : declared s.vis ≤ s.len) (hout : declared s.vis < ipAreaAt s.vis + 12)
    (hcap : num s.vis 38 0 16 = 40 → 80 ≤ s.cap) :
    ∃ l m, p.parse s = .ret l m ∧ WireProposal s.vis m ∧
      (go! "Error parsing CLC Proposal: IP Area Offset too big") ∈ l ∧
      m.Prefix = p.Prefix ∧ m.PrefixLen = p.PrefixLen ∧ m.rsv2 = p.rsv2 ∧ m.IPv6PrefixesCnt = p.IPv6PrefixesCnt ∧
      m.IPv6Prefixes = p.IPv6Prefixes ∧ m.trailer = p.trailer := by
  obtain ⟨v, e⟩ := s
  simp only [Slice.len_mk, Slice.cap_mk] at *
  rw [proposal_result v e (by omega) p hp (by omega) hl hL]
  unfold propResult
  rw [if_neg (by omega), if_pos (by omega)]
  refine ⟨_, _, rfl, propFixed_wire v e (by omega) p (by omega), List.mem_cons_self, ?_⟩
  unfold propFixed
  split <;> exact ⟨rfl, rfl, rfl, rfl, rfl, rfl⟩

/-- the unit test with SMC-D info: its offset is 40 and the IP area is at 80 -/
example :
    let v := hex! "e2d4c3d901006d13394498039babcdeffe800000000000009a039bfffeabcdef98039babcdef00280123456789abcdef000000000000000000000000000000000000000000000000000000000000000000000000000000010000000000000000000000000000000180e2d4c3d9"
    SizedProposal {} ∧ declared v = 109 ∧ v.length = 109 ∧ ipAreaAt v = 80 ∧ num v 38 0 16 = 40 ∧
      num v 87 0 8 = 1 := by
  decide +kernel

/-- C41, version 1: the decoded prefixes are appended to those of the receiver (`NewMessage`
supplies receivers without any). -/
theorem C41_proposal_prefixes (p : Proposal) (hp : SizedProposal p) (s : Slice) (hl : 52 ≤ declared s.vis)
    (hL : declared s.vis ≤ s.len) (hin : ipAreaAt s.vis + 12 ≤ declared s.vis) :
    ∃ l m, p.parse s = .ret l m ∧
      Prefixes s.vis (ipAreaAt s.vis + 8)
        (entries (declared s.vis) (ipAreaAt s.vis + 8) 17 (num s.vis (ipAreaAt s.vis + 7) 0 8))
        p.IPv6Prefixes m.IPv6Prefixes ∧
      ((go! "Error parsing CLC Proposal: IPv6 prefix count too big") ∈ l ↔
        entries (declared s.vis) (ipAreaAt s.vis + 8) 17 (num s.vis (ipAreaAt s.vis + 7) 0 8)
          < num s.vis (ipAreaAt s.vis + 7) 0 8) := by
  obtain ⟨v, e⟩ := s
  simp only [Slice.len_mk] at *
  have h40 : num v 38 0 16 = 40 → 92 ≤ v.length := fun h => by unfold ipAreaAt at hin; omega
  rw [proposal_result v e (by omega) p hp (by omega) hl hL]
  unfold propResult
  rw [if_neg (by omega), if_neg (by omega)]
  refine ⟨_, _, rfl, ?_, ?_⟩
  · have := pfxs_spec v (declared v) (ipAreaAt v + 8) (num v (ipAreaAt v + 7) 0 8) hL p.IPv6Prefixes
    unfold propFull
    simp only [propFixed_prefixes, propFixed_hdr, declared_eq, ← num_getD v _ (show ipAreaAt v + 7 < v.length by omega)]
    exact this
  · have hE : IsErr (go! "Error parsing CLC Proposal: IPv6 prefix count too big") := rfl
    rw [List.mem_append, mem_pfxLog hE, mem_trailerLog hE]
    constructor
    · rintro (h | h)
      · exact h.2
      · exact absurd h.1 (by decide)
    · exact fun h => .inl ⟨rfl, h⟩

/-- two prefixes announced, one in the message -/
example :
    let v := hex! "e2d4c3d901004510394498039babcdeffe800000000000009a039bfffeabcdef98039babcdef000000000000000000020000000000000000000000000000000180e2d4c3d9"
    declared v = 69 ∧ v.length = 69 ∧ ipAreaAt v = 40 ∧ num v 47 0 8 = 2 ∧ entries 69 48 17 2 = 1 := by
  decide +kernel

end SMC.Props
