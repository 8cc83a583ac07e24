import Verif.Props.ProposalV2
import Verif.Lemmas.Bits
/-!
# C56: exactly when the areas of a Proposal of version 2 are read at their offsets
-/

namespace SMC.Spec

theorem seg_seg {l : List Bool} {a n b w : Nat} (h : b + w ≤ n) : seg (seg l a n) b w = seg l (a + b) w := by
  simp only [seg]
  rw [List.drop_take, List.take_take, List.drop_drop, Nat.min_eq_left (by omega)]

/-- the same bytes have the same bits in them -/
theorem num_same {v : Bytes} {k k' n : Nat} (h : raw v k' n = raw v k n) (j i w : Nat) (hj : 8 * j + i + w ≤ 8 * n) :
    num v (k' + j) i w = num v (k + j) i w := by
  have e : seg (toBits v) (8 * k') (8 * n) = seg (toBits v) (8 * k) (8 * n) := by rw [← raw_seg, ← raw_seg, h]
  rw [num_seg, num_seg]
  have := congrArg (fun l => ofBits (seg l (8 * j + i) w)) e
  simp only [seg_seg hj] at this
  rw [show 8 * (k' + j) + i = 8 * k' + (8 * j + i) by omega, show 8 * (k + j) + i = 8 * k + (8 * j + i) by omega]
  exact this

theorem raw_same {v : Bytes} {k k' n : Nat} (h : raw v k' n = raw v k n) (j w : Nat) (hj : j + w ≤ n) :
    raw v (k' + j) w = raw v (k + j) w := by
  have := congrArg (fun l => (l.drop j).take w) h
  simp only [raw, List.drop_take, List.take_take, List.drop_drop, Nat.min_eq_left (show w ≤ n - j by omega)] at this
  exact this

theorem raw_fits {v : Bytes} {k k' n : Nat} (hk : k + n ≤ v.length) (hn : 0 < n) (h : raw v k' n = raw v k n) :
    k' + n ≤ v.length := by
  have := congrArg List.length h
  simp only [raw, List.length_take, List.length_drop] at this
  omega

theorem ip_iff {v : Bytes} {k k' : Nat} {m : CLC.ProposalV2} (hk : k + 8 ≤ v.length) (hk' : k' + 8 ≤ v.length)
    (h : WireV2IP v k m) : WireV2IP v k' m ↔ raw v k' 8 = raw v k 8 := by
  constructor
  · intro h'
    have e : ∀ {k}, k + 8 ≤ v.length → WireV2IP v k m →
        toBits m.Prefix ++ natBits 8 m.PrefixLen.toNat ++ toBits m.rsv2 ++ natBits 8 m.IPv6PrefixesCnt.toNat =
          toBits (raw v k 8) := by
      intro k hk h
      rw [h.pfx, h.pfxLen, h.rsv2, h.count, natBits_num (by omega), natBits_num (by omega), raw_seg, raw_seg, raw_seg,
        seg_append (by omega), seg_append (by omega), seg_append (by omega)]
    exact toBits_inj ((e hk' h').symm.trans (e hk h))
  · intro e
    exact ⟨h.pfx.trans (raw_same e 0 4 (by omega)).symm, h.pfxLen.trans (num_same e 4 0 8 (by omega)).symm,
      h.rsv2.trans (raw_same e 5 2 (by omega)).symm, h.count.trans (num_same e 7 0 8 (by omega)).symm⟩

theorem ext_iff {v : Bytes} {k k' : Nat} {m : CLC.ProposalV2} (hk : k + 40 ≤ v.length) (h : WireV2Ext v k m) :
    WireV2Ext v k' m ↔ raw v k' 40 = raw v k 40 := by
  constructor
  · intro h'
    have hk' : k' + 8 + 32 ≤ v.length := raw_fits (k := k + 8) (by omega) (by omega) (h'.rsv6.symm.trans h.rsv6)
    have e : ∀ {k}, k + 40 ≤ v.length → WireV2Ext v k m →
        natBits 8 m.EIDNumber.toNat ++ natBits 8 m.GIDNumber.toNat ++ natBits 8 m.rsv3.toNat ++ natBits 4 m.Release.toNat ++
          natBits 3 m.rsv4.toNat ++ natBits 1 m.SEIDInd.toNat ++ toBits m.rsv5 ++ natBits 16 m.SMCDv2Off.toNat ++
          toBits m.rsv6 = toBits (raw v k 40) := by
      intro k hk h
      rw [h.eidNumber, h.gidNumber, h.rsv3, h.release, h.rsv4, h.seidInd, h.rsv5, h.smcdOffset, h.rsv6]
      repeat rw [natBits_num (by omega)]
      repeat rw [raw_seg]
      repeat rw [seg_append (by omega)]
      rfl
    exact toBits_inj ((e (by omega) h').symm.trans (e hk h))
  · intro e
    exact ⟨h.eidNumber.trans (num_same e 0 0 8 (by omega)).symm, h.gidNumber.trans (num_same e 1 0 8 (by omega)).symm,
      h.rsv3.trans (num_same e 2 0 8 (by omega)).symm, h.release.trans (num_same e 3 0 4 (by omega)).symm,
      h.rsv4.trans (num_same e 3 4 3 (by omega)).symm, h.seidInd.trans (num_same e 3 7 1 (by omega)).symm,
      h.rsv5.trans (raw_same e 4 2 (by omega)).symm, h.smcdOffset.trans (num_same e 6 0 16 (by omega)).symm,
      h.rsv6.trans (raw_same e 8 32 (by omega)).symm⟩

theorem smcd_iff {v : Bytes} {k k' : Nat} {m : CLC.ProposalV2} (h : WireV2SMCD v k m) :
    WireV2SMCD v k' m ↔ raw v k' 48 = raw v k 48 := by
  have split : ∀ k, raw v k 48 = raw v k 32 ++ raw v (k + 32) 16 := by
    intro k
    simp only [raw]
    rw [show 48 = 32 + 16 from rfl, List.take_add, List.drop_drop]
  constructor
  · intro h'
    rw [split, split, ← h'.seid, ← h'.rsv7, ← h.seid, ← h.rsv7]
  · intro e
    exact ⟨h.seid.trans (raw_same e 0 32 (by omega)).symm, h.rsv7.trans (raw_same e 32 16 (by omega)).symm⟩

end SMC.Spec

namespace SMC.Props
open SMC.CLC SMC.Spec

/-- **C56** Exactly when the areas that `Parse` reads are those at their offsets: if the bytes there are the
same as those directly behind the part before, where it reads them. The SMC-D extension is compared with any place
`k`. -/
theorem C56_exact (p : ProposalV2) (hp : SizedProposalV2 p) (s : Slice) (hl : 84 ≤ declared s.vis)
    (hL : declared s.vis ≤ s.len) {l : List Bytes} {m : ProposalV2} (hm : p.parse s = .ret l m) :
    (HasIP s.vis ∧ RoomIP s.vis → 40 + num s.vis 38 0 16 + 8 ≤ s.len →
      (WireV2IP s.vis (40 + num s.vis 38 0 16) m ↔ raw s.vis (40 + num s.vis 38 0 16) 8 = raw s.vis 80 8)) ∧
    (RoomIP s.vis ∧ HasExt s.vis ∧ RoomExt s.vis →
      (WireV2Ext s.vis (52 + num s.vis 50 0 16) m ↔
        raw s.vis (52 + num s.vis 50 0 16) 40 = raw s.vis (extAt s.vis) 40)) ∧
    (RoomIP s.vis ∧ RoomExt s.vis ∧ HasSMCD s.vis ∧ RoomSMCD s.vis → ∀ k,
      (WireV2SMCD s.vis k m ↔ raw s.vis k 48 = raw s.vis (smcdAt s.vis) 48)) := by
  obtain ⟨-, h1, -, h2, -, h3, -⟩ := C39_proposalV2_wire p hp s hl hL hm
  have hL' : declared s.vis ≤ s.vis.length := hL
  refine ⟨fun c hk => ?_, fun c => ?_, fun c k => ?_⟩
  · have := c.2 c.1
    exact ip_iff (by omega) hk (h1 c)
  · have := c.2.2 c.2.1
    exact ext_iff (by omega) (h2 c)
  · exact smcd_iff (h3 c)

/-- like `v2Padded`, but with zeros only: its v2 offset is not that of the v2 extension, but the bytes there are the same -/
def v2Zeros : Bytes :=
  hex! "e2d4c3d901008022" ++ zeros 42 ++ hex! "0020" ++ zeros 28 ++ zeros 4 ++ zeros 40 ++ hex! "e2d4c3d9"

example : (ProposalV2.parse {} ⟨v2Padded, []⟩).val?.isSome ∧ (ProposalV2.parse {} ⟨v2Zeros, []⟩).val?.isSome ∧
    84 ≤ declared v2Padded ∧ declared v2Padded ≤ v2Padded.length ∧ HasExt v2Padded ∧ RoomExt v2Padded ∧ RoomIP v2Padded ∧
    84 ≤ declared v2Zeros ∧ declared v2Zeros ≤ v2Zeros.length ∧ HasExt v2Zeros ∧ RoomExt v2Zeros ∧ RoomIP v2Zeros ∧
    52 + num v2Zeros 50 0 16 ≠ extAt v2Zeros ∧
    raw v2Padded (52 + num v2Padded 50 0 16) 40 ≠ raw v2Padded (extAt v2Padded) 40 ∧
    raw v2Zeros (52 + num v2Zeros 50 0 16) 40 = raw v2Zeros (extAt v2Zeros) 40 := by
  refine ⟨?_, ?_, ?_, ?_, ?_, ?_, ?_, ?_, ?_, ?_, ?_, ?_, ?_, ?_, ?_⟩ <;> decide +kernel

end SMC.Props
