import Verif.Lemmas.Entries
/-!
# C39, C41, C42, C56: fields of Proposal messages of version 2

All statements are about complete messages: the declared length is at least 84 and the buffer
holds at least that many bytes. When `Parse` panics on one is the subject of
`C33_proposalV2_panics_iff`.
-/

namespace SMC.Props

open SMC Spec CLC

section
variable (v e : Bytes) (hv : 8 ≤ v.length)

theorem v2Fixed_wire (p : ProposalV2) (h : 84 ≤ v.length) : WireV2 v (v2Fixed v e hv p h) := by
  unfold v2Fixed
  refine ⟨hdrOf_wire _ _, ?_, ?_, ?_, ?_, ?_, ?_, ?_, ?_, ?_⟩
  all_goals wire_field

theorem v2P_wire (p : ProposalV2) (h : 84 ≤ v.length) : WireV2 v (v2P v e hv p h) := by
  have := v2Fixed_wire v e hv p h
  unfold v2P; split
  · exact this
  · exact ⟨this.hdr, this.rawBytes, this.peerID, this.gid, this.mac, this.offset, this.smcdGID, this.vchid, this.v2Offset,
      this.rsv⟩

theorem v2P_ip (p : ProposalV2) (h : 84 ≤ v.length) (h1 : HasIP v) (h2 : 92 ≤ v.length) :
    WireV2IP v 80 (v2P v e hv p h) := by
  unfold v2P; rw [if_neg h1]
  refine ⟨rfl, ?_, rfl, ?_⟩
  · rw [num_getD v _ (by omega)]; rfl
  · rw [num_getD v _ (by omega)]; rfl

theorem v2P_sameIP (p : ProposalV2) (h : 84 ≤ v.length) (h1 : ¬ HasIP v) : SameIP (v2P v e hv p h) p := by
  unfold v2P; rw [if_pos (Decidable.not_not.1 h1)]
  exact ⟨rfl, rfl, rfl, rfl, rfl⟩

theorem v2P_sameExt (p : ProposalV2) (h : 84 ≤ v.length) : SameExt (v2P v e hv p h) p := by
  unfold v2P; split <;> exact ⟨rfl, rfl, rfl, rfl, rfl, rfl, rfl, rfl, rfl, rfl⟩
theorem v2P_sameSMCD (p : ProposalV2) (h : 84 ≤ v.length) : SameSMCD (v2P v e hv p h) p := by
  unfold v2P; split <;> exact ⟨rfl, rfl, rfl⟩

theorem v2Q_wire (p : ProposalV2) (h : 84 ≤ v.length) : WireV2 v (v2Q v e hv p h) := by
  have := v2P_wire v e hv p h
  unfold v2Q; split
  · exact this
  · exact ⟨this.hdr, this.rawBytes, this.peerID, this.gid, this.mac, this.offset, this.smcdGID, this.vchid, this.v2Offset,
      this.rsv⟩

theorem v2Q_sameIP (p : ProposalV2) (h : 84 ≤ v.length) : SameIP (v2Q v e hv p h) (v2P v e hv p h) := by
  unfold v2Q; split <;> exact ⟨rfl, rfl, rfl, rfl, rfl⟩

theorem v2Ext_wire (p : ProposalV2) (k : Nat) (hk : k + 44 ≤ v.length) : WireV2Ext v k (v2Ext v p k) := by
  unfold v2Ext
  rw [getD_lt (show k < v.length by omega), getD_lt (show k + 1 < v.length by omega), getD_lt (show k + 2 < v.length by omega),
    getD_lt (show k + 3 < v.length by omega), getD_lt (show k + 6 < v.length by omega),
    getD_lt (show k + 7 < v.length by omega)]
  refine ⟨?_, ?_, ?_, ?_, ?_, ?_, rfl, ?_, rfl⟩
  all_goals wire_field

theorem v2Q_ext (p : ProposalV2) (h : 84 ≤ v.length) (h1 : HasExt v) (h2 : extAt v + 44 ≤ v.length) :
    WireV2Ext v (extAt v) (v2Q v e hv p h) := by
  unfold v2Q; rw [if_neg h1]
  exact v2Ext_wire v _ _ h2

theorem v2Q_sameExt (p : ProposalV2) (h : 84 ≤ v.length) (h1 : ¬ HasExt v) : SameExt (v2Q v e hv p h) p := by
  unfold v2Q; rw [if_pos (Decidable.not_not.1 h1)]
  exact v2P_sameExt v e hv p h
theorem v2Q_sameSMCD (p : ProposalV2) (h : 84 ≤ v.length) : SameSMCD (v2Q v e hv p h) p := by
  have := v2P_sameSMCD v e hv p h
  unfold v2Q; split <;> exact this

theorem v2R_wire (p : ProposalV2) (h : 84 ≤ v.length) : WireV2 v (v2R v e hv p h) := by
  have := v2Q_wire v e hv p h
  unfold v2R; split
  · exact ⟨this.hdr, this.rawBytes, this.peerID, this.gid, this.mac, this.offset, this.smcdGID, this.vchid, this.v2Offset,
      this.rsv⟩
  · exact this
theorem v2R_sameIP (p : ProposalV2) (h : 84 ≤ v.length) : SameIP (v2R v e hv p h) (v2P v e hv p h) := by
  have := v2Q_sameIP v e hv p h
  unfold v2R; split <;> exact this
theorem v2R_sameExt (p : ProposalV2) (h : 84 ≤ v.length) : SameExt (v2R v e hv p h) (v2Q v e hv p h) := by
  unfold v2R; split <;> exact ⟨rfl, rfl, rfl, rfl, rfl, rfl, rfl, rfl, rfl, rfl⟩
theorem v2R_smcd (p : ProposalV2) (h : 84 ≤ v.length) (h1 : HasSMCD v) : WireV2SMCD v (smcdAt v) (v2R v e hv p h) := by
  unfold v2R; rw [if_pos h1]; exact ⟨rfl, rfl⟩
theorem v2R_sameSMCD (p : ProposalV2) (h : 84 ≤ v.length) (h1 : ¬ HasSMCD v) : SameSMCD (v2R v e hv p h) p := by
  unfold v2R; rw [if_neg h1]; exact v2Q_sameSMCD v e hv p h

end

theorem sameIP_trans {a b c : ProposalV2} (h : SameIP a b) (h' : SameIP b c) : SameIP a c := by
  obtain ⟨h1, h2, h3, h4, h5⟩ := h; obtain ⟨g1, g2, g3, g4, g5⟩ := h'
  exact ⟨h1.trans g1, h2.trans g2, h3.trans g3, h4.trans g4, h5.trans g5⟩
theorem sameExt_trans {a b c : ProposalV2} (h : SameExt a b) (h' : SameExt b c) : SameExt a c := by
  obtain ⟨h1, h2, h3, h4, h5, h6, h7, h8, h9, h10⟩ := h; obtain ⟨g1, g2, g3, g4, g5, g6, g7, g8, g9, g10⟩ := h'
  exact ⟨h1.trans g1, h2.trans g2, h3.trans g3, h4.trans g4, h5.trans g5, h6.trans g6, h7.trans g7, h8.trans g8,
    h9.trans g9, h10.trans g10⟩
theorem wireIP_of_same {v : Bytes} {k : Nat} {a b : ProposalV2} (h : SameIP a b) (w : WireV2IP v k b) : WireV2IP v k a := by
  obtain ⟨h1, h2, h3, h4, -⟩ := h
  exact ⟨h1.trans w.pfx, by rw [h2]; exact w.pfxLen, h3.trans w.rsv2, by rw [h4]; exact w.count⟩
theorem wireExt_of_same {v : Bytes} {k : Nat} {a b : ProposalV2} (h : SameExt a b) (w : WireV2Ext v k b) :
    WireV2Ext v k a := by
  obtain ⟨h1, h2, h3, h4, h5, h6, h7, h8, h9, -⟩ := h
  exact ⟨by rw [h1]; exact w.eidNumber, by rw [h2]; exact w.gidNumber, by rw [h3]; exact w.rsv3, by rw [h4]; exact w.release,
    by rw [h5]; exact w.rsv4, by rw [h6]; exact w.seidInd, h7.trans w.rsv5, by rw [h8]; exact w.smcdOffset, h9.trans w.rsv6⟩

/-- the four ways in which `Parse` returns -/
theorem v2_returns {p : ProposalV2} (hp : SizedProposalV2 p) {v e : Bytes} (hv : 8 ≤ v.length) (h : 84 ≤ v.length)
    (hl : 84 ≤ declared v) (hL : declared v ≤ v.length) {l : List Bytes} {m : ProposalV2}
    (hm : p.parse ⟨v, e⟩ = .ret l m) :
    (¬ RoomIP v ∧ l = errLog ipText v (declared v) ∧ m = v2Fixed v e hv p h) ∨
    (RoomIP v ∧ ¬ RoomExt v ∧ l = v2LogP v ++ errLog extText v (declared v) ∧ m = v2P v e hv p h) ∨
    (RoomIP v ∧ RoomExt v ∧ (HasExt v → eidCount v ≤ 8) ∧ ¬ RoomSMCD v ∧
      l = v2LogP v ++ v2LogQ v ++ errLog smcdText v (declared v) ∧ m = v2Q v e hv p h) ∨
    (RoomIP v ∧ RoomExt v ∧ (HasExt v → eidCount v ≤ 8) ∧ RoomSMCD v ∧ (HasSMCD v → gidCount v ≤ 8) ∧
      l = v2LogP v ++ v2LogQ v ++ v2LogR v ++ trailerLog (last4 v) ∧
      m = { v2R v e hv p h with trailer := last4 v }) := by
  rw [proposalV2_result v e hv p hp h hl hL] at hm
  unfold v2Result at hm
  by_cases c1 : RoomIP v
  case neg =>
    rw [if_pos c1] at hm; cases hm
    exact .inl ⟨c1, rfl, rfl⟩
  have n1 : ¬¬ RoomIP v := fun c => c c1
  rw [if_neg n1] at hm
  by_cases c2 : RoomExt v
  case neg =>
    rw [if_pos c2] at hm; cases hm
    exact .inr (.inl ⟨c1, c2, rfl, rfl⟩)
  have n2 : ¬¬ RoomExt v := fun c => c c2
  rw [if_neg n2] at hm
  by_cases c3 : HasExt v ∧ 8 < eidCount v
  · rw [if_pos c3] at hm; cases hm
  rw [if_neg c3] at hm
  have c3' : HasExt v → eidCount v ≤ 8 := fun hx => by
    have : ¬ 8 < eidCount v := fun y => c3 ⟨hx, y⟩
    omega
  by_cases c4 : RoomSMCD v
  case neg =>
    rw [if_pos c4] at hm; cases hm
    exact .inr (.inr (.inl ⟨c1, c2, c3', c4, rfl, rfl⟩))
  have n4 : ¬¬ RoomSMCD v := fun c => c c4
  rw [if_neg n4] at hm
  by_cases c5 : HasSMCD v ∧ 8 < gidCount v
  · rw [if_pos c5] at hm; cases hm
  rw [if_neg c5] at hm; cases hm
  have c5' : HasSMCD v → gidCount v ≤ 8 := fun hx => by
    have : ¬ 8 < gidCount v := fun y => c5 ⟨hx, y⟩
    omega
  exact .inr (.inr (.inr ⟨c1, c2, c3', c4, c5', rfl, rfl⟩))

/-- C39: every field has its bits. The IP area is decoded exactly if the path is not N, the v2
extension exactly if the v2 path is not N and the SMC-D v2 extension exactly if it is D or B,
each directly behind the one before and provided that it and everything before has room;
otherwise the fields keep their values. -/
theorem C39_proposalV2_wire (p : ProposalV2) (hp : SizedProposalV2 p) (s : Slice) (hl : 84 ≤ declared s.vis)
    (hL : declared s.vis ≤ s.len) {l : List Bytes} {m : ProposalV2} (hm : p.parse s = .ret l m) :
    WireV2 s.vis m ∧
    (HasIP s.vis ∧ RoomIP s.vis → WireV2IP s.vis 80 m) ∧
    (¬ (HasIP s.vis ∧ RoomIP s.vis) → SameIP m p) ∧
    (RoomIP s.vis ∧ HasExt s.vis ∧ RoomExt s.vis → WireV2Ext s.vis (extAt s.vis) m) ∧
    (¬ (RoomIP s.vis ∧ HasExt s.vis ∧ RoomExt s.vis) → SameExt m p) ∧
    (RoomIP s.vis ∧ RoomExt s.vis ∧ HasSMCD s.vis ∧ RoomSMCD s.vis → WireV2SMCD s.vis (smcdAt s.vis) m) ∧
    (¬ (RoomIP s.vis ∧ RoomExt s.vis ∧ HasSMCD s.vis ∧ RoomSMCD s.vis) → SameSMCD m p) := by
  obtain ⟨v, e⟩ := s
  simp only [Slice.len_mk] at *
  have hv : 8 ≤ v.length := by omega
  have h : 84 ≤ v.length := by omega
  rcases v2_returns hp hv h hl hL hm with ⟨c1, -, rfl⟩ | ⟨c1, c2, -, rfl⟩ | ⟨c1, c2, -, c4, -, rfl⟩ | ⟨c1, c2, -, c4, -, -, rfl⟩
  · exact ⟨v2Fixed_wire v e hv p h, fun c => absurd c.2 c1, fun _ => ⟨rfl, rfl, rfl, rfl, rfl⟩, fun c => absurd c.1 c1,
      fun _ => ⟨rfl, rfl, rfl, rfl, rfl, rfl, rfl, rfl, rfl, rfl⟩, fun c => absurd c.1 c1, fun _ => ⟨rfl, rfl, rfl⟩⟩
  · exact ⟨v2P_wire v e hv p h, fun c => v2P_ip v e hv p h c.1 (by have := c.2 c.1; omega),
      fun c => v2P_sameIP v e hv p h (fun x => c ⟨x, c1⟩), fun c => absurd c.2.2 c2, fun _ => v2P_sameExt v e hv p h,
      fun c => absurd c.2.1 c2, fun _ => v2P_sameSMCD v e hv p h⟩
  · exact ⟨v2Q_wire v e hv p h,
      fun c => wireIP_of_same (v2Q_sameIP v e hv p h) (v2P_ip v e hv p h c.1 (by have := c.2 c.1; omega)),
      fun c => sameIP_trans (v2Q_sameIP v e hv p h) (v2P_sameIP v e hv p h (fun x => c ⟨x, c1⟩)),
      fun c => v2Q_ext v e hv p h c.2.1 (by have := c.2.2 c.2.1; omega),
      fun c => v2Q_sameExt v e hv p h (fun x => c ⟨c1, x, c2⟩),
      fun c => absurd c.2.2.2 c4, fun _ => v2Q_sameSMCD v e hv p h⟩
  · have w := v2R_wire v e hv p h
    refine ⟨⟨w.hdr, w.rawBytes, w.peerID, w.gid, w.mac, w.offset, w.smcdGID, w.vchid, w.v2Offset, w.rsv⟩, ?_, ?_, ?_, ?_, ?_, ?_⟩
    · intro c
      have := wireIP_of_same (v2R_sameIP v e hv p h) (v2P_ip v e hv p h c.1 (by have := c.2 c.1; omega))
      exact ⟨this.pfx, this.pfxLen, this.rsv2, this.count⟩
    · intro c
      exact sameIP_trans (v2R_sameIP v e hv p h) (v2P_sameIP v e hv p h (fun x => c ⟨x, c1⟩))
    · intro c
      have w := wireExt_of_same (v2R_sameExt v e hv p h) (v2Q_ext v e hv p h c.2.1 (by have := c.2.2 c.2.1; omega))
      exact ⟨w.eidNumber, w.gidNumber, w.rsv3, w.release, w.rsv4, w.seidInd, w.rsv5, w.smcdOffset, w.rsv6⟩
    · intro c
      exact sameExt_trans (v2R_sameExt v e hv p h) (v2Q_sameExt v e hv p h (fun x => c ⟨c1, x, c2⟩))
    · intro c
      have w := v2R_smcd v e hv p h c.2.2.1
      exact ⟨w.seid, w.rsv7⟩
    · intro c
      exact v2R_sameSMCD v e hv p h (fun x => c ⟨c1, c2, x, c4⟩)

/-- the unit test message with all areas: a prefix, an EID and a GID -/
def v2Example : Bytes :=
  hex! "e2d4c3d90100ef2f394498039babcdeffe800000000000009a039bfffeabcdef98039babcdef00280123456789abcdef12340019000000000000000000000000000000000000000000000000000000000000000000000001000000000000000000000000000000018001010001000000400000000000000000000000000000000000000000000000000000000000000000546869734973534d437632454944303100000000000000000000000000000000546869734973534d43763245494430320000000000000000000000000000000000000000000000000000000000000000abcdef01234567890123e2d4c3d9"

/-- every area of it is there and has room -/
example : SizedProposalV2 {} ∧ declared v2Example = v2Example.length ∧ 84 ≤ v2Example.length ∧
    (HasIP v2Example ∧ RoomIP v2Example ∧ HasExt v2Example ∧ RoomExt v2Example ∧ HasSMCD v2Example ∧ RoomSMCD v2Example) ∧
    extAt v2Example = 105 ∧ smcdAt v2Example = 177 ∧ pfxCount v2Example = 1 ∧ eidCount v2Example = 1 ∧
    gidCount v2Example = 1 ∧ (ProposalV2.parse {} ⟨v2Example, []⟩).val?.isSome = true := by
  decide +kernel

/-! ## Log lines -/

theorem mem_v2LogP {t : Bytes} (h : IsErr t) (v : Bytes) :
    t ∈ v2LogP v ↔ HasIP v ∧ t = pfxTextV2 ∧ pfxCount v < num v 87 0 8 := by
  unfold v2LogP
  split
  · simp_all
  · rw [mem_pfxLog h]; simp_all [pfxCount]
theorem mem_v2LogQ {t : Bytes} (h : IsErr t) (v : Bytes) :
    t ∈ v2LogQ v ↔ HasExt v ∧ t = eidText ∧ eidCount v < num v (extAt v) 0 8 := by
  unfold v2LogQ
  split
  · simp_all
  · rw [mem_pfxLog h]; simp_all [eidCount]
theorem mem_v2LogR {t : Bytes} (h : IsErr t) (v : Bytes) :
    t ∈ v2LogR v ↔ HasSMCD v ∧ t = gidText ∧ gidCount v < num v (extAt v + 1) 0 8 := by
  unfold v2LogR
  split
  · rw [mem_pfxLog h]; simp_all [gidCount]
  · rename_i hn
    simp only [List.not_mem_nil, false_iff]
    exact fun c => hn c.1

/-! ## C41, C42 -/

/-- C41, version 2: the decoded prefixes are appended to those of the receiver. -/
theorem C41_proposalV2_prefixes (p : ProposalV2) (hp : SizedProposalV2 p) (s : Slice) (hl : 84 ≤ declared s.vis)
    (hL : declared s.vis ≤ s.len) {l : List Bytes} {m : ProposalV2} (hm : p.parse s = .ret l m)
    (h1 : HasIP s.vis) (h2 : RoomIP s.vis) :
    Prefixes s.vis 88 (pfxCount s.vis) p.IPv6Prefixes m.IPv6Prefixes ∧
      ((go! "Error parsing CLC Proposal v2: IPv6 prefix count too big") ∈ l ↔ pfxCount s.vis < num s.vis 87 0 8) := by
  obtain ⟨v, e⟩ := s
  simp only [Slice.len_mk] at *
  have hv : 8 ≤ v.length := by omega
  have h : 84 ≤ v.length := by omega
  have hE : IsErr (go! "Error parsing CLC Proposal v2: IPv6 prefix count too big") := rfl
  have hP : Prefixes v 88 (pfxCount v) p.IPv6Prefixes (v2P v e hv p h).IPv6Prefixes := by
    have := pfxs_spec v (declared v) 88 (num v 87 0 8) hL p.IPv6Prefixes
    unfold v2P; rw [if_neg h1]
    unfold v2IP
    simp only [show (v2Fixed v e hv p h).hdr = hdrOf v hv from rfl, declared_eq,
      ← num_getD v _ (show 87 < v.length by have := h2 h1; omega)]
    exact this
  rcases v2_returns hp hv h hl hL hm with ⟨c1, rfl, rfl⟩ | ⟨c1, c2, rfl, rfl⟩ | ⟨c1, c2, -, c4, rfl, rfl⟩ |
    ⟨c1, c2, -, c4, -, rfl, rfl⟩
  · exact absurd h2 c1
  · refine ⟨hP, ?_⟩
    rw [List.mem_append, mem_errLog hE, mem_v2LogP hE]
    constructor
    · rintro (c | c)
      · exact c.2.2
      · exact absurd c (by decide)
    · exact fun c => .inl ⟨h1, rfl, c⟩
  · refine ⟨by rw [(v2Q_sameIP v e hv p h).2.2.2.2]; exact hP, ?_⟩
    rw [List.mem_append, List.mem_append, mem_errLog hE, mem_v2LogP hE, mem_v2LogQ hE]
    constructor
    · rintro ((c | c) | c)
      · exact c.2.2
      · exact absurd c.2.1 (by decide)
      · exact absurd c (by decide)
    · exact fun c => .inl (.inl ⟨h1, rfl, c⟩)
  · refine ⟨?_, ?_⟩
    · show Prefixes v 88 _ _ (v2R v e hv p h).IPv6Prefixes
      rw [(v2R_sameIP v e hv p h).2.2.2.2]; exact hP
    · rw [List.mem_append, List.mem_append, List.mem_append, mem_v2LogP hE, mem_v2LogQ hE, mem_v2LogR hE, mem_trailerLog hE]
      constructor
      · rintro (((c | c) | c) | c)
        · exact c.2.2
        · exact absurd c.2.1 (by decide)
        · exact absurd c.2.1 (by decide)
        · exact absurd c.1 (by decide)
      · exact fun c => .inl (.inl (.inl ⟨h1, rfl, c⟩))

/-- C42, EIDs: if `Parse` returns then at most eight were decoded. -/
theorem C42_eids (p : ProposalV2) (hp : SizedProposalV2 p) (s : Slice) (hl : 84 ≤ declared s.vis)
    (hL : declared s.vis ≤ s.len) {l : List Bytes} {m : ProposalV2} (hm : p.parse s = .ret l m)
    (h1 : RoomIP s.vis) (h2 : HasExt s.vis) (h3 : RoomExt s.vis) :
    eidCount s.vis ≤ 8 ∧ EIDs s.vis (extAt s.vis + 40) (eidCount s.vis) p.EIDArea m.EIDArea ∧
      ((go! "Error parsing CLC Proposal v2: EID number too big") ∈ l ↔
        eidCount s.vis < num s.vis (extAt s.vis) 0 8) := by
  obtain ⟨v, e⟩ := s
  simp only [Slice.len_mk] at *
  have hv : 8 ≤ v.length := by omega
  have h : 84 ≤ v.length := by omega
  have hE : IsErr (go! "Error parsing CLC Proposal v2: EID number too big") := rfl
  have hx := h3 h2
  have hQ : eidCount v ≤ 8 → EIDs v (extAt v + 40) (eidCount v) p.EIDArea (v2Q v e hv p h).EIDArea := by
    intro h8
    have := eids_spec v (extAt v + 40) (eidCount v) p.EIDArea (by rw [hp.2.2.2.2.2.2.1]; exact h8)
    unfold v2Q; rw [if_neg h2]
    unfold v2Ext
    simp only [v2P_hdr, declared_eq, ← num_getD v _ (show extAt v < v.length by omega), ← entries_eq,
      (v2P_sameExt v e hv p h).2.2.2.2.2.2.2.2.2]
    exact this
  rcases v2_returns hp hv h hl hL hm with ⟨c1, rfl, rfl⟩ | ⟨c1, c2, rfl, rfl⟩ | ⟨c1, c2, c3, c4, rfl, rfl⟩ |
    ⟨c1, c2, c3, c4, -, rfl, rfl⟩
  · exact absurd h1 c1
  · exact absurd h3 c2
  · refine ⟨c3 h2, hQ (c3 h2), ?_⟩
    rw [List.mem_append, List.mem_append, mem_errLog hE, mem_v2LogP hE, mem_v2LogQ hE]
    constructor
    · rintro ((c | c) | c)
      · exact absurd c.2.1 (by decide)
      · exact c.2.2
      · exact absurd c (by decide)
    · exact fun c => .inl (.inr ⟨h2, rfl, c⟩)
  · refine ⟨c3 h2, ?_, ?_⟩
    · show EIDs v _ _ _ (v2R v e hv p h).EIDArea
      rw [(v2R_sameExt v e hv p h).2.2.2.2.2.2.2.2.2]; exact hQ (c3 h2)
    · rw [List.mem_append, List.mem_append, List.mem_append, mem_v2LogP hE, mem_v2LogQ hE, mem_v2LogR hE, mem_trailerLog hE]
      constructor
      · rintro (((c | c) | c) | c)
        · exact absurd c.2.1 (by decide)
        · exact c.2.2
        · exact absurd c.2.1 (by decide)
        · exact absurd c.1 (by decide)
      · exact fun c => .inl (.inl (.inr ⟨h2, rfl, c⟩))

/-- C42, GIDs: if `Parse` returns then at most eight were decoded. -/
theorem C42_gids (p : ProposalV2) (hp : SizedProposalV2 p) (s : Slice) (hl : 84 ≤ declared s.vis)
    (hL : declared s.vis ≤ s.len) {l : List Bytes} {m : ProposalV2} (hm : p.parse s = .ret l m)
    (h1 : RoomIP s.vis) (h2 : RoomExt s.vis) (h3 : HasSMCD s.vis) (h4 : RoomSMCD s.vis) :
    gidCount s.vis ≤ 8 ∧ GIDs s.vis (smcdAt s.vis + 48) (gidCount s.vis) p.GIDArea m.GIDArea ∧
      ((go! "Error parsing CLC Proposal v2: GID number too big") ∈ l ↔
        gidCount s.vis < num s.vis (extAt s.vis + 1) 0 8) := by
  obtain ⟨v, e⟩ := s
  simp only [Slice.len_mk] at *
  have hv : 8 ≤ v.length := by omega
  have h : 84 ≤ v.length := by omega
  have hE : IsErr (go! "Error parsing CLC Proposal v2: GID number too big") := rfl
  have hx : HasExt v := by rcases h3 with h3 | h3 <;> (unfold HasExt; omega)
  have hx' := h2 hx
  rcases v2_returns hp hv h hl hL hm with ⟨c1, rfl, rfl⟩ | ⟨c1, c2, rfl, rfl⟩ | ⟨c1, c2, c3, c4, rfl, rfl⟩ |
    ⟨c1, c2, c3, c4, c5, rfl, rfl⟩
  · exact absurd h1 c1
  · exact absurd h2 c2
  · exact absurd h4 c4
  · refine ⟨c5 h3, ?_, ?_⟩
    · show GIDs v _ _ _ (v2R v e hv p h).GIDArea
      have := gids_spec v (declared v) (smcdAt v + 48) (num v (extAt v + 1) 0 8) hL p.GIDArea
        (by rw [hp.2.2.2.2.2.2.2.2.2.2.1]; exact c5 h3)
      have hg : (v2Q v e hv p h).GIDNumber.toNat = num v (extAt v + 1) 0 8 :=
        (v2Q_ext v e hv p h hx (by omega)).gidNumber
      unfold v2R; rw [if_pos h3]
      unfold v2SMCD
      simp only [hg, v2Q_hdr, declared_eq, ← entries_eq, (v2Q_sameSMCD v e hv p h).2.2]
      exact this
    · rw [List.mem_append, List.mem_append, List.mem_append, mem_v2LogP hE, mem_v2LogQ hE, mem_v2LogR hE, mem_trailerLog hE]
      constructor
      · rintro (((c | c) | c) | c)
        · exact absurd c.2.1 (by decide)
        · exact absurd c.2.1 (by decide)
        · exact c.2.2
        · exact absurd c.1 (by decide)
      · exact fun c => .inl (.inr ⟨h3, rfl, c⟩)

/-- C33 for version 2, exactly: `Parse` panics on a complete message if and only if more than
eight EIDs or more than eight GIDs are announced and have room. -/
theorem C33_proposalV2_panics_iff (p : ProposalV2) (hp : SizedProposalV2 p) (s : Slice) (hl : 84 ≤ declared s.vis)
    (hL : declared s.vis ≤ s.len) :
    (p.parse s).Panics ↔ RoomIP s.vis ∧ HasExt s.vis ∧ RoomExt s.vis ∧
      (8 < eidCount s.vis ∨ (HasSMCD s.vis ∧ RoomSMCD s.vis ∧ 8 < gidCount s.vis)) := by
  obtain ⟨v, e⟩ := s
  simp only [Slice.len_mk] at *
  have hx : HasSMCD v → HasExt v := by rintro (h3 | h3) <;> (unfold HasExt; omega)
  rw [proposalV2_result v e (by omega) p hp (by omega) hl hL]
  unfold v2Result Go.Panics
  by_cases c1 : RoomIP v
  case neg =>
    rw [if_pos c1]
    exact ⟨fun h => (by obtain ⟨_, c⟩ := h; cases c), fun c => absurd c.1 c1⟩
  have n1 : ¬¬ RoomIP v := fun c => c c1
  rw [if_neg n1]
  by_cases c2 : RoomExt v
  case neg =>
    rw [if_pos c2]
    exact ⟨fun h => (by obtain ⟨_, c⟩ := h; cases c), fun c => absurd c.2.2.1 c2⟩
  have n2 : ¬¬ RoomExt v := fun c => c c2
  rw [if_neg n2]
  by_cases c3 : HasExt v ∧ 8 < eidCount v
  · rw [if_pos c3]
    exact ⟨fun _ => ⟨c1, c3.1, c2, .inl c3.2⟩, fun _ => ⟨_, rfl⟩⟩
  rw [if_neg c3]
  by_cases c4 : RoomSMCD v
  case neg =>
    rw [if_pos c4]
    exact ⟨fun h => (by obtain ⟨_, c⟩ := h; cases c), fun c => c.2.2.2.elim (fun c' => absurd ⟨c.2.1, c'⟩ c3) (fun c' => absurd c'.2.1 c4)⟩
  have n4 : ¬¬ RoomSMCD v := fun c => c c4
  rw [if_neg n4]
  by_cases c5 : HasSMCD v ∧ 8 < gidCount v
  · rw [if_pos c5]
    exact ⟨fun _ => ⟨c1, hx c5.1, c2, .inr ⟨c5.1, c4, c5.2⟩⟩, fun _ => ⟨_, rfl⟩⟩
  rw [if_neg c5]
  exact ⟨fun h => (by obtain ⟨_, c⟩ := h; cases c),
    fun c => c.2.2.2.elim (fun c' => absurd ⟨c.2.1, c'⟩ c3) (fun c' => absurd ⟨c'.1, c'.2.2⟩ c5)⟩

/-- a complete message (version 2, v2 path R) announcing nine EIDs, with room for them -/
def nineEIDs : Bytes :=
  hex! "e2d4c3d901019c22" ++ zeros 72 ++ [9] ++ zeros 39 ++ List.replicate 288 0x41 ++ hex! "e2d4c3d9"
/-- a complete message (version 2, v2 path D) announcing nine GIDs, with room for them -/
def nineGIDs : Bytes :=
  hex! "e2d4c3c401010626" ++ zeros 72 ++ [0, 9] ++ zeros 38 ++ zeros 48 ++ List.replicate 90 0x41 ++ hex! "e2d4c3c4"

/-- C33 is false for version 2: these two complete messages make `Parse` panic. -/
theorem C33_proposalV2_false :
    (declared nineEIDs = nineEIDs.length ∧ classify nineEIDs = some .proposalV2 ∧
      (ProposalV2.parse {} ⟨nineEIDs, []⟩) = .panic []) ∧
    (declared nineGIDs = nineGIDs.length ∧ classify nineGIDs = some .proposalV2 ∧
      (ProposalV2.parse {} ⟨nineGIDs, []⟩) = .panic []) := by
  decide +kernel

/-- C42: counts of at most eight never make `Parse` panic. -/
theorem C42_no_panic (p : ProposalV2) (hp : SizedProposalV2 p) (s : Slice) (hl : 84 ≤ declared s.vis)
    (hL : declared s.vis ≤ s.len) (he : num s.vis (extAt s.vis) 0 8 ≤ 8) (hg : num s.vis (extAt s.vis + 1) 0 8 ≤ 8) :
    ∃ l m, p.parse s = .ret l m := by
  have : ¬ (p.parse s).Panics := by
    rw [C33_proposalV2_panics_iff p hp s hl hL]
    rintro ⟨-, -, -, c | ⟨-, -, c⟩⟩
    · unfold eidCount entries at c; omega
    · unfold gidCount entries at c; omega
  cases h : p.parse s with
  | ret l m => exact ⟨l, m, rfl⟩
  | panic l => exact absurd ⟨l, h⟩ this

example : num v2Example (extAt v2Example) 0 8 ≤ 8 ∧ num v2Example (extAt v2Example + 1) 0 8 ≤ 8 := by decide +kernel

/-! ## C56 -/

/-- where the offsets of the message say the areas are: each counts from behind its field -/
structure OffsetsMatch (v : Bytes) : Prop where
  ip : HasIP v → 40 + num v 38 0 16 = 80
  ext : HasExt v → 52 + num v 50 0 16 = extAt v
  smcd : HasSMCD v → extAt v + 8 + num v (extAt v + 6) 0 16 = smcdAt v

/-- C56, as far as it holds: if the offsets point to where the areas follow one another then
the areas are read at their offsets. -/
theorem C56_offsets_partial (p : ProposalV2) (hp : SizedProposalV2 p) (s : Slice) (hl : 84 ≤ declared s.vis)
    (hL : declared s.vis ≤ s.len) {l : List Bytes} {m : ProposalV2} (hm : p.parse s = .ret l m)
    (ho : OffsetsMatch s.vis) :
    (HasIP s.vis ∧ RoomIP s.vis → WireV2IP s.vis (40 + num s.vis 38 0 16) m) ∧
    (RoomIP s.vis ∧ HasExt s.vis ∧ RoomExt s.vis → WireV2Ext s.vis (52 + num s.vis 50 0 16) m) ∧
    (RoomIP s.vis ∧ RoomExt s.vis ∧ HasSMCD s.vis ∧ RoomSMCD s.vis →
      WireV2SMCD s.vis (52 + num s.vis 50 0 16 + 8 + num s.vis (52 + num s.vis 50 0 16 + 6) 0 16) m) := by
  obtain ⟨-, h1, -, h2, -, h3, -⟩ := C39_proposalV2_wire p hp s hl hL hm
  refine ⟨fun c => ?_, fun c => ?_, fun c => ?_⟩
  · rw [ho.ip c.1]; exact h1 c
  · rw [ho.ext c.2.1]; exact h2 c
  · have hx : HasExt s.vis := by rcases c.2.2.1 with h3 | h3 <;> (unfold HasExt; omega)
    rw [ho.ext hx, ho.smcd c.2.2.1]; exact h3 c

/-- a message whose offsets match: path N, an EID and a GID -/
def v2Matching : Bytes :=
  hex! "e2d4c3d90100d62e394498039babcdeffe800000000000009a039bfffeabcdef98039babcdef00280123456789abcdef1234001c00000000000000000000000000000000000000000000000000000000" ++
  hex! "01010001000000400000000000000000000000000000000000000000000000000000000000000000546869734973534d437632454944303100000000000000000000000000000000" ++
  hex! "546869734973534d43763245494430320000000000000000000000000000000000000000000000000000000000000000abcdef01234567890123e2d4c3d9"

example : declared v2Matching = v2Matching.length ∧ OffsetsMatch v2Matching ∧ HasExt v2Matching ∧ RoomExt v2Matching ∧
    HasSMCD v2Matching ∧ RoomSMCD v2Matching :=
  ⟨by decide +kernel, ⟨by decide +kernel, by decide +kernel, by decide +kernel⟩, by decide +kernel, by decide +kernel,
    by decide +kernel, by decide +kernel⟩

/-- a message whose SMCv2 offset is 32: four bytes of padding, then the v2 extension with no
EIDs but release 1 -/
def v2Padded : Bytes :=
  hex! "e2d4c3d901008022" ++ zeros 42 ++ hex! "0020" ++ zeros 28 ++ zeros 4 ++ hex! "00000010" ++ zeros 36 ++ hex! "e2d4c3d9"

/-- C56 is false: the offsets are ignored. The v2 extension of this message is at 52 + 32 =
84, where the release is 1, but 0 is read from four bytes before. -/
theorem C56_offsets_false :
    declared v2Padded = v2Padded.length ∧ 52 + num v2Padded 50 0 16 = 84 ∧ num v2Padded (84 + 3) 0 4 = 1 ∧
    ((ProposalV2.parse {} ⟨v2Padded, []⟩).val?.map (·.Release)) = some 0 ∧
    ((ProposalV2.parse {} ⟨v2Padded, []⟩).val?.map (fun m => decide (m.rsv6 = raw v2Padded (84 + 8) 32))) = some true := by
  decide +kernel

end SMC.Props
