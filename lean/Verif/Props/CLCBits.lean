import Verif.Spec.CLCBits
import Verif.Lemmas.Bits
import Verif.Props.CLCParse
/-!
# C81: decoding of CLC messages is lossless
-/

namespace SMC.Props

open SMC Spec CLC

theorem wireHeader_bits {bs : Bytes} {h : Header} (w : WireHeader bs h) (hl : 8 ≤ bs.length) :
    bitsHeader h = seg (toBits bs) 0 64 := by
  unfold bitsHeader
  rw [w.eyecatcher, w.typ, w.length, w.version, w.flag, w.rsv, w.path]
  bit_join

theorem decline_bits {v : Bytes} {m : Decline} (w : WireDecline v m) (ht : m.trailer = raw v 24 4) (hl : v.length = 28) :
    bitsDecline m = seg (toBits v) 0 224 := by
  unfold bitsDecline
  rw [wireHeader_bits w.hdr (by omega), w.peerID, w.diagnosis, w.rsv, ht]
  bit_join

theorem declineV2_bits {v : Bytes} {m : DeclineV2} (w : WireDeclineV2 v m) (ht : m.trailer = raw v 24 4) (hl : v.length = 28) :
    bitsDeclineV2 m = seg (toBits v) 0 224 := by
  unfold bitsDeclineV2
  obtain ⟨h1, h2, h3, h4⟩ := w.rsv
  have h5 : (m.rsv.headD 0).toNat = num v 20 4 4 := by
    rw [← h3]
    cases hr : m.rsv with
    | nil => rw [hr] at h1; cases h1
    | cons x r =>
      rw [hr] at h2 h3
      rw [num_byte _ _ _ _ (by simp) (by omega)] at h2 ⊢
      simp only [List.getElem_cons_zero, List.headD_cons] at h2 ⊢
      generalize x = b at h2 ⊢
      revert b h2
      byte_decide
  rw [wireHeader_bits w.hdr (by omega), w.peerID, w.diagnosis, w.osType, h5, h4, ht]
  bit_join

theorem smcr_bits {v : Bytes} {m : AcceptSMCR} (w : WireSMCR v m) (ht : m.trailer = raw v 64 4) (hl : v.length = 68) :
    bitsSMCR m = seg (toBits v) 0 544 := by
  unfold bitsSMCR
  rw [wireHeader_bits w.hdr (by omega), w.peerID, w.gid, w.mac, w.qpn, w.rkey, w.rmbeIdx, w.alert, w.rmbeSize, w.mtu, w.rsv,
    w.vaddr, w.rsv2, w.psn, ht]
  bit_join

theorem smcd_bits {v : Bytes} {m : AcceptSMCD} (w : WireSMCD v m) (ht : m.trailer = raw v 44 4) (hl : v.length = 48) :
    bitsSMCD m = seg (toBits v) 0 384 := by
  unfold bitsSMCD
  rw [wireHeader_bits w.hdr (by omega), w.gid, w.token, w.dmbeIdx, w.dmbeSize, w.rsv, w.rsv2, w.linkID, w.rsv3, ht]
  bit_join

theorem smcdv2_bits {v : Bytes} {m : AcceptSMCDv2} (w : WireSMCDv2 v m) (wf : declared v = 114 → WireFCE v m)
    (ht : m.trailer = raw v (declared v - 4) 4) (hl : v.length = declared v) (h : declared v = 78 ∨ declared v = 114) :
    bitsSMCDv2 m = toBits v := by
  unfold bitsSMCDv2
  have hL : m.hdr.Length.toNat = declared v := w.hdr.length
  rw [wireHeader_bits w.hdr (by omega), w.gid, w.token, w.dmbeIdx, w.dmbeSize, w.rsv, w.rsv2, w.linkID, w.vchid, w.eid, w.rsv3, ht, hL]
  rcases h with h | h
  · rw [if_neg (by omega), h, List.append_nil]
    bit_join
    exact seg_all (by rw [toBits_length]; omega)
  · have wf := wf h
    unfold bitsFCE
    rw [if_pos h, h, wf.rsv4, wf.osType, wf.release, wf.rsv5, wf.hostname]
    bit_join
    exact seg_all (by rw [toBits_length]; omega)

/-- entries that follow one another -/
theorem flatMap_seg {α : Type} (f : α → List Bool) (B : List Bool) (w : Nat) (xs : List α) (a : Nat)
    (h : ∀ i x, xs[i]? = some x → f x = seg B (a + w * i) w) : xs.flatMap f = seg B a (w * xs.length) := by
  induction xs generalizing a with
  | nil => simp [seg]
  | cons x xs ih =>
    rw [List.flatMap_cons, h 0 x rfl, ih (a + w), Nat.mul_zero, Nat.add_zero, seg_append rfl, List.length_cons, Nat.mul_succ,
      Nat.add_comm]
    intro i y hy
    rw [h (i + 1) y (by simpa using hy), Nat.mul_succ]
    congr 1
    omega

theorem prefixes_bits {v : Bytes} {k n : Nat} {new : List IPv6Prefix} (h : Prefixes v k n [] new) (hl : k + 17 * n ≤ v.length) :
    new.flatMap bitsPrefix = seg (toBits v) (8 * k) (136 * n) := by
  have hn : new.length = n := by rw [h.length, List.length_nil, Nat.zero_add]
  rw [flatMap_seg bitsPrefix (toBits v) 136 new (8 * k), hn]
  intro i q hq
  have hi : i < n := by rw [← hn]; exact (List.getElem?_eq_some_iff.1 hq).1
  obtain ⟨q', h1, w⟩ := h.entry i hi
  rw [List.length_nil, Nat.zero_add, hq] at h1
  cases h1
  unfold bitsPrefix
  rw [w.pfx, w.len, raw_seg, natBits_num (by omega), seg_append (by omega)]
  congr 1
  omega

theorem eids_bits {v : Bytes} {k n : Nat} {old new : List Bytes} (h : EIDs v k n old new) :
    (new.take n).flatMap toBits = seg (toBits v) (8 * k) (256 * (new.take n).length) := by
  refine flatMap_seg toBits (toBits v) 256 _ (8 * k) ?_
  intro i q hq
  obtain ⟨hi, h1⟩ := List.getElem?_eq_some_iff.1 hq
  have hi' : i < n := by simp at hi; omega
  rw [List.getElem?_take, if_pos hi', h.entry i hi'] at hq
  cases hq
  rw [raw_seg]
  congr 1
  omega

theorem gids_bits {v : Bytes} {k n : Nat} {old new : List GIDEntry} (h : GIDs v k n old new) (hl : k + 10 * n ≤ v.length) :
    (new.take n).flatMap bitsGID = seg (toBits v) (8 * k) (80 * (new.take n).length) := by
  refine flatMap_seg bitsGID (toBits v) 80 _ (8 * k) ?_
  intro i q hq
  obtain ⟨hi, h1⟩ := List.getElem?_eq_some_iff.1 hq
  have hi' : i < n := by simp at hi; omega
  obtain ⟨q', h2, w⟩ := h.entry i hi'
  rw [List.getElem?_take, if_pos hi', h2] at hq
  cases hq
  unfold bitsGID
  rw [w.gid, w.vchid, natBits_num (by omega), natBits_num (by omega), seg_append (by omega)]
  congr 1
  omega

theorem proposal_bits {v : Bytes} {m : Proposal} (w : WireProposal v m) (wi : WireIPArea v (ipAreaAt v) m)
    (ws : num v 38 0 16 = 40 → WireProposalSMCD v m)
    (wp : Prefixes v (ipAreaAt v + 8) (num v (ipAreaAt v + 7) 0 8) [] m.IPv6Prefixes)
    (ht : m.trailer = raw v (declared v - 4) 4) (hl : v.length = declared v) (hs : Snug .proposal v) :
    bitsProposal m = toBits v := by
  obtain ⟨ho, hd⟩ := hs
  have h40 : m.IPAreaOffset = 40 ↔ num v 38 0 16 = 40 := by
    rw [← w.offset, ← UInt16.toNat_inj]; rfl
  unfold bitsProposal
  rw [wireHeader_bits w.hdr (by omega), w.peerID, w.gid, w.mac, w.offset, wi.pfx, wi.pfxLen, wi.rsv2, wi.count,
    prefixes_bits wp (by omega), ht]
  simp only [h40]
  rcases ho with ho | ho
  · have ha : ipAreaAt v = 40 := by unfold ipAreaAt; omega
    rw [ha] at hd ⊢
    simp only [Nat.reduceAdd] at hd ⊢
    rw [if_neg (by omega), List.append_nil]
    bit_join
    exact seg_all (by rw [toBits_length]; omega)
  · have ha : ipAreaAt v = 80 := by unfold ipAreaAt; omega
    have ws := ws ho
    rw [ha] at hd ⊢
    simp only [Nat.reduceAdd] at hd ⊢
    rw [if_pos ho, ws.gid, ws.rsv]
    bit_join
    exact seg_all (by rw [toBits_length]; omega)

theorem v2IP_bits {v : Bytes} {m : ProposalV2} (w : WireV2IP v 80 m) (wp : Prefixes v 88 (num v 87 0 8) [] m.IPv6Prefixes)
    (hl : 88 + 17 * num v 87 0 8 ≤ v.length) : bitsV2IP m = seg (toBits v) 640 (64 + 136 * num v 87 0 8) := by
  unfold bitsV2IP
  rw [w.pfx, w.pfxLen, w.rsv2, w.count, prefixes_bits wp hl]
  bit_join

theorem v2Ext_bits {v : Bytes} {m : ProposalV2} {k : Nat} {old : List Bytes} (w : WireV2Ext v k m)
    (we : EIDs v (k + 40) (num v k 0 8) old m.EIDArea) (hn : num v k 0 8 ≤ 8) (ho : old.length = 8)
    (hl : k + 40 + 32 * num v k 0 8 ≤ v.length) : bitsV2Ext m = seg (toBits v) (8 * k) (320 + 256 * num v k 0 8) := by
  have hlen : (m.EIDArea.take (num v k 0 8)).length = num v k 0 8 := by
    rw [List.length_take, we.length, ho]; omega
  unfold bitsV2Ext
  rw [w.eidNumber, w.gidNumber, w.rsv3, w.release, w.rsv4, w.seidInd, w.rsv5, w.smcdOffset, w.rsv6, eids_bits we, hlen]
  bit_join

theorem v2SMCD_bits {v : Bytes} {m : ProposalV2} {k n : Nat} {old : List GIDEntry} (w : WireV2SMCD v k m)
    (hm : m.GIDNumber.toNat = n) (wg : GIDs v (k + 48) n old m.GIDArea) (hn : n ≤ 8) (ho : old.length = 8)
    (hl : k + 48 + 10 * n ≤ v.length) : bitsV2SMCD m = seg (toBits v) (8 * k) (384 + 80 * n) := by
  have hlen : (m.GIDArea.take n).length = n := by
    rw [List.length_take, wg.length, ho]; omega
  unfold bitsV2SMCD
  rw [w.seid, w.rsv7, hm, gids_bits wg hl, hlen]
  bit_join

theorem snug_parts {v : Bytes} (hs : Snug .proposalV2 v) :
    (HasIP v → pfxCount v = num v 87 0 8) ∧ extAt v = ipEnd v ∧ RoomIP v ∧
    (HasExt v → eidCount v = num v (ipEnd v) 0 8) ∧ smcdAt v = extEnd v ∧ RoomExt v ∧
    (HasSMCD v → gidCount v = num v (ipEnd v + 1) 0 8) ∧ RoomSMCD v := by
  have hd : declared v = smcdEnd v + 4 := hs
  have hxe : HasSMCD v → HasExt v := by rintro (h3 | h3) <;> (unfold HasExt; omega)
  have hent : ∀ L k w n, 0 < w → k + w * n + 4 ≤ L → entries L k w n = n := by
    intro L k w n hw h
    unfold entries
    refine Nat.min_eq_left ((Nat.le_div_iff_mul_le hw).2 ?_)
    rw [Nat.mul_comm]; omega
  have e1 : smcdEnd v = if HasSMCD v then extEnd v + 48 + 10 * num v (ipEnd v + 1) 0 8 else extEnd v := rfl
  have e2 : extEnd v = if HasExt v then ipEnd v + 40 + 32 * num v (ipEnd v) 0 8 else ipEnd v := rfl
  have e3 : ipEnd v = if HasIP v then 88 + 17 * num v 87 0 8 else 80 := rfl
  have l1 : extEnd v ≤ smcdEnd v := by rw [e1]; split <;> omega
  have l2 : ipEnd v ≤ extEnd v := by rw [e2]; split <;> omega
  have a1 : HasIP v → pfxCount v = num v 87 0 8 := fun c => by
    rw [if_pos c] at e3
    exact hent _ _ _ _ (by omega) (by omega)
  have a2 : extAt v = ipEnd v := by
    unfold extAt
    rw [e3]
    by_cases c : HasIP v
    · rw [if_neg c, if_pos c, a1 c]
    · rw [if_pos (Decidable.not_not.1 c), if_neg c]
  have a3 : HasExt v → eidCount v = num v (ipEnd v) 0 8 := fun c => by
    rw [if_pos c] at e2
    unfold eidCount
    rw [a2]
    exact hent _ _ _ _ (by omega) (by omega)
  have a4 : smcdAt v = extEnd v := by
    unfold smcdAt
    rw [e2, a2]
    by_cases c : HasExt v
    · rw [if_neg c, if_pos c, a3 c]
    · rw [if_pos (Decidable.not_not.1 c), if_neg c]
  refine ⟨a1, a2, ?_, a3, a4, ?_, ?_, ?_⟩
  · intro c; rw [if_pos c] at e3; omega
  · intro c; rw [if_pos c] at e2; omega
  · intro c
    rw [if_pos c] at e1
    unfold gidCount
    rw [a2, a4]
    exact hent _ _ _ _ (by omega) (by omega)
  · intro c; rw [if_pos c] at e1; omega

theorem proposalV2_bits {v : Bytes} {m : ProposalV2} (w : WireV2 v m)
    (wi : HasIP v → bitsV2IP m = seg (toBits v) 640 (64 + 136 * num v 87 0 8))
    (we : HasExt v → bitsV2Ext m = seg (toBits v) (8 * ipEnd v) (320 + 256 * num v (ipEnd v) 0 8))
    (ws : HasSMCD v → bitsV2SMCD m = seg (toBits v) (8 * extEnd v) (384 + 80 * num v (ipEnd v + 1) 0 8))
    (ht : m.trailer = raw v (declared v - 4) 4) (hl : v.length = declared v) (hs : Snug .proposalV2 v) :
    bitsProposalV2 m = toBits v := by
  have hd : declared v = smcdEnd v + 4 := hs
  have e1 : smcdEnd v = if HasSMCD v then extEnd v + 48 + 10 * num v (ipEnd v + 1) 0 8 else extEnd v := rfl
  have e2 : extEnd v = if HasExt v then ipEnd v + 40 + 32 * num v (ipEnd v) 0 8 else ipEnd v := rfl
  have e3 : ipEnd v = if HasIP v then 88 + 17 * num v 87 0 8 else 80 := rfl
  have l1 : extEnd v ≤ smcdEnd v := by rw [e1]; split <;> omega
  have l2 : ipEnd v ≤ extEnd v := by rw [e2]; split <;> omega
  have l3 : 80 ≤ ipEnd v := by rw [e3]; split <;> omega
  have p1 : m.hdr.Path = 2 ↔ ¬ HasIP v := by
    rw [← UInt8.toNat_inj, w.hdr.path]; exact Decidable.not_not.symm
  have p2 : m.hdr.Pathv2 = 2 ↔ ¬ HasExt v := by
    rw [← UInt8.toNat_inj, w.hdr.pathv2]; exact Decidable.not_not.symm
  have p3 : (m.hdr.Pathv2 = 1 ∨ m.hdr.Pathv2 = 3) ↔ HasSMCD v := by
    have := @UInt8.toNat_inj m.hdr.Pathv2
    rw [← @this 1, ← @this 3, w.hdr.pathv2]; exact Iff.rfl
  have q1 : (if ¬ HasIP v then [] else bitsV2IP m) = seg (toBits v) 640 (8 * ipEnd v - 640) := by
    rw [ite_not]
    split
    · next c =>
      rw [if_pos c] at e3
      rw [wi c, show 8 * ipEnd v - 640 = 64 + 136 * num v 87 0 8 by omega]
    · next c =>
      rw [if_neg c] at e3
      rw [e3]; simp [seg]
  have q2 : (if ¬ HasExt v then [] else bitsV2Ext m) = seg (toBits v) (8 * ipEnd v) (8 * extEnd v - 8 * ipEnd v) := by
    rw [ite_not]
    split
    · next c =>
      rw [if_pos c] at e2; rw [we c]; congr 1; omega
    · next c =>
      rw [if_neg c] at e2
      rw [e2]; simp [seg]
  have q3 : (if HasSMCD v then bitsV2SMCD m else []) = seg (toBits v) (8 * extEnd v) (8 * smcdEnd v - 8 * extEnd v) := by
    split
    · next c =>
      rw [if_pos c] at e1; rw [ws c]; congr 1; omega
    · next c =>
      rw [if_neg c] at e1
      rw [e1]; simp [seg]
  unfold bitsProposalV2
  simp only [p1, p2, p3]
  rw [q1, q2, q3, wireHeader_bits w.hdr (by omega), w.peerID, w.gid, w.mac, w.offset, w.smcdGID, w.vchid, w.v2Offset, w.rsv, ht]
  bit_join
  exact seg_all (by rw [toBits_length]; omega)

theorem snug_accepted {k : CLCKind} {v : Bytes} (hs : Snug k v) : Accepted k v := by
  have hmin : minLen k ≤ declared v := by
    cases k <;> simp only [Snug, minLen] at hs ⊢ <;> first | omega | skip
    · have := hs.2; unfold ipAreaAt at this; omega
    · have l1 : extEnd v ≤ smcdEnd v := by unfold smcdEnd; split <;> omega
      have l2 : ipEnd v ≤ extEnd v := by unfold extEnd; split <;> omega
      have l3 : 80 ≤ ipEnd v := by unfold ipEnd; split <;> omega
      omega
  refine ⟨hmin, ?_⟩
  cases k <;> simp only
  · have := hs.2; omega
  · have := snug_parts hs; exact ⟨this.2.2.1, this.2.2.2.2.2.1, this.2.2.2.2.2.2.2⟩

/-- C81: the decoded fields in wire order are the bits of the message, so that it can be written
again from them, for messages that consist of the parts of their kind and nothing else. -/
theorem C81_lossless (k : CLCKind) (s : Slice) (hL : declared s.vis = s.len) (hs : Snug k s.vis) (l : List Bytes)
    (m : Message) (h : (freshCLC k).parse s = .ret l m) : bitsCLC m = toBits s.vis ∧ pack (bitsCLC m) = s.vis := by
  suffices key : bitsCLC m = toBits s.vis from ⟨key, by rw [key, pack_toBits]⟩
  have hl : s.vis.length = declared s.vis := hL.symm
  have hsz := sized_fresh k
  have hacc := snug_accepted hs
  have hmin := hacc.1
  have h8 : 8 ≤ s.len := by rw [← hL]; cases k <;> simp only [minLen] at hmin <;> omega
  have ht : m.trailer = raw s.vis (declared s.vis - 4) 4 :=
    (C44_trailer_partial (freshCLC k) hsz s h8 hL (by rw [kind_fresh]; exact hacc) l m h).1
  have ha : ∀ n, declared s.vis = 8 * n → seg (toBits s.vis) 0 (8 * (8 * n)) = toBits s.vis := fun n hn =>
    seg_all (by rw [toBits_length, hl, hn])
  have hall : seg (toBits s.vis) 0 (8 * declared s.vis) = toBits s.vis := seg_all (by rw [toBits_length, hl])
  cases k <;> simp only [minLen] at hmin <;> simp only [Snug, minLen] at hs
  case decline =>
    obtain ⟨l0, m0, h0, w, -⟩ := C34_decline_wire {} hsz s (by omega) hmin
    simp only [freshCLC, Message.parse, h0, map_ret] at h
    cases h
    rw [← hall, hs]; rw [hs] at ht
    exact decline_bits w ht (by omega)
  case declineV2 =>
    obtain ⟨l0, m0, h0, w⟩ := C34_declineV2_wire {} hsz s (by omega) hmin
    simp only [freshCLC, Message.parse, h0, map_ret] at h
    cases h
    rw [← hall, hs]; rw [hs] at ht
    exact declineV2_bits w ht (by omega)
  case acceptSMCR | confirmSMCR =>
    obtain ⟨l0, m0, h0, w⟩ := C35_smcr_wire {} hsz s (by omega) hmin
    simp only [freshCLC, Message.parse, h0, map_ret] at h
    cases h
    rw [← hall, hs]; rw [hs] at ht
    exact smcr_bits w ht (by omega)
  case acceptSMCD | confirmSMCD =>
    obtain ⟨l0, m0, h0, w⟩ := C36_smcd_wire {} hsz s (by omega) hmin
    simp only [freshCLC, Message.parse, h0, map_ret] at h
    cases h
    rw [← hall, hs]; rw [hs] at ht
    exact smcd_bits w ht (by omega)
  case acceptSMCDv2 | confirmSMCDv2 =>
    obtain ⟨l0, m0, h0, w, wf, -⟩ := C37_smcdv2_wire {} hsz s (by omega) hmin (by omega)
    simp only [freshCLC, Message.parse, h0, map_ret] at h
    cases h
    exact smcdv2_bits w wf ht hl hs
  case proposal =>
    have hin : ipAreaAt s.vis + 12 ≤ declared s.vis := hacc.2
    obtain ⟨l0, m0, h0, w, wi, ws, -⟩ := C38_proposal_wire {} hsz s hmin (by omega) hin
    obtain ⟨l1, m1, h1, wp, -⟩ := C41_proposal_prefixes {} hsz s hmin (by omega) hin
    rw [h0] at h1; cases h1
    simp only [freshCLC, Message.parse, h0, map_ret] at h
    cases h
    have : entries (declared s.vis) (ipAreaAt s.vis + 8) 17 (num s.vis (ipAreaAt s.vis + 7) 0 8)
        = num s.vis (ipAreaAt s.vis + 7) 0 8 := by
      unfold entries; omega
    rw [this] at wp
    exact proposal_bits w wi ws wp ht hl hs
  case proposalV2 =>
    obtain ⟨a1, a2, r1, a3, a4, r2, a5, r3⟩ := snug_parts hs
    cases h0 : ProposalV2.parse {} s with
    | panic l => simp only [freshCLC, Message.parse, h0] at h; cases h
    | ret l0 m0 =>
      simp only [freshCLC, Message.parse, h0, map_ret] at h
      cases h
      have hxe : HasSMCD s.vis → HasExt s.vis := by rintro (h3 | h3) <;> (unfold HasExt; omega)
      obtain ⟨w, wi, -, we, -, wg, -⟩ := C39_proposalV2_wire {} hsz s hmin (by omega) h0
      have hd : declared s.vis = smcdEnd s.vis + 4 := hs
      have e1 : smcdEnd s.vis = if HasSMCD s.vis then extEnd s.vis + 48 + 10 * num s.vis (ipEnd s.vis + 1) 0 8 else extEnd s.vis := rfl
      have e2 : extEnd s.vis = if HasExt s.vis then ipEnd s.vis + 40 + 32 * num s.vis (ipEnd s.vis) 0 8 else ipEnd s.vis := rfl
      have e3 : ipEnd s.vis = if HasIP s.vis then 88 + 17 * num s.vis 87 0 8 else 80 := rfl
      have l1 : extEnd s.vis ≤ smcdEnd s.vis := by rw [e1]; split <;> omega
      have l2 : ipEnd s.vis ≤ extEnd s.vis := by rw [e2]; split <;> omega
      refine proposalV2_bits w (fun c => ?_) (fun c => ?_) (fun c => ?_) ht hl hs
      · have := (C41_proposalV2_prefixes {} hsz s hmin (by omega) h0 c r1).1
        rw [a1 c] at this
        rw [if_pos c] at e3
        exact v2IP_bits (wi ⟨c, r1⟩) this (by omega)
      · obtain ⟨h8, we', -⟩ := C42_eids {} hsz s hmin (by omega) h0 r1 c r2
        rw [a3 c] at h8
        rw [a3 c, a2] at we'
        have we := we ⟨r1, c, r2⟩
        rw [a2] at we
        rw [if_pos c] at e2
        exact v2Ext_bits we we' h8 rfl (by omega)
      · obtain ⟨h8, wg', -⟩ := C42_gids {} hsz s hmin (by omega) h0 r1 r2 c r3
        rw [a5 c] at h8
        rw [a5 c, a4] at wg'
        have we := we ⟨r1, hxe c, r2⟩
        have wg := wg ⟨r1, r2, c, r3⟩
        rw [a2] at we
        rw [a4] at wg
        rw [if_pos c] at e1
        exact v2SMCD_bits wg we.gidNumber wg' h8 rfl (by omega)

example : declared v2Example = (⟨v2Example, []⟩ : Slice).len ∧ Snug .proposalV2 v2Example ∧
    ((freshCLC .proposalV2).parse ⟨v2Example, []⟩).val?.isSome = true :=
  ⟨by decide +kernel, (by decide +kernel : declared v2Example = smcdEnd v2Example + 4), by decide +kernel⟩

end SMC.Props
