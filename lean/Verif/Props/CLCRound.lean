import Verif.Props.CLCBits
import Verif.Props.CLCReport
/-!
# C81: round trips of CLC messages
-/

namespace SMC.Props

open SMC Spec CLC

/-! ## Injectivity of encodings -/

theorem header_inj {a b : Header} {n n' : Nat} (ha : FitsHeader a n) (hb : FitsHeader b n')
    (h : bitsHeader a = bitsHeader b) : a = b := by
  obtain ⟨a1, a2, a3, a4, a5, a6, a7⟩ := ha
  obtain ⟨b1, b2, b3, b4, b5, b6, b7⟩ := hb
  have h' : toBits [] ++ bitsHeader a = toBits [] ++ bitsHeader b := by rw [h]
  simp only [bitsHeader, ← List.append_assoc] at h'
  have e : a.Eyecatcher.length = b.Eyecatcher.length := by omega
  bit_fields [] at h'
  obtain ⟨⟨⟨⟨⟨⟨⟨-, h1⟩, h2⟩, h3⟩, h4⟩, h5⟩, h6⟩, h7⟩ := h'
  have h8 : a.Pathv2 = b.Pathv2 := by
    rw [← UInt8.toNat_inj, a6, b6, h5, h6]
  cases a; cases b; simp_all

theorem header_append {a b : Header} {n n' : Nat} {r r' : List Bool} (ha : FitsHeader a n) (hb : FitsHeader b n') :
    bitsHeader a ++ r = bitsHeader b ++ r' ↔ a = b ∧ r = r' := by
  have hl : ∀ {h n}, FitsHeader h n → (bitsHeader h).length = 64 := by
    intro h n hf
    simp [bitsHeader, hf.1]
  constructor
  · intro h
    obtain ⟨h1, h2⟩ := List.append_inj h (by rw [hl ha, hl hb])
    exact ⟨header_inj ha hb h1, h2⟩
  · rintro ⟨rfl, rfl⟩; rfl

theorem natBits_append {w x y : Nat} {r r' : List Bool} :
    natBits w x ++ r = natBits w y ++ r' ↔ natBits w x = natBits w y ∧ r = r' :=
  ⟨fun h => List.append_inj h (by simp), fun h => by rw [h.1, h.2]⟩

theorem toBits_append {x y : Bytes} {r r' : List Bool} (hx : x.length = y.length) :
    toBits x ++ r = toBits y ++ r' ↔ x = y ∧ r = r' := by
  constructor
  · intro h
    obtain ⟨h1, h2⟩ := List.append_inj h (by simp [hx])
    exact ⟨toBits_inj h1, h2⟩
  · rintro ⟨rfl, rfl⟩; rfl

theorem toBits_iff {x y : Bytes} : toBits x = toBits y ↔ x = y := ⟨toBits_inj, fun h => h ▸ rfl⟩

theorem flatMap_append_inj {α : Type} (f : α → List Bool) (w : Nat) {xs ys : List α} {r r' : List Bool}
    (hl : xs.length = ys.length) (hx : ∀ x ∈ xs, (f x).length = w) (hy : ∀ y ∈ ys, (f y).length = w)
    (hi : ∀ x ∈ xs, ∀ y ∈ ys, f x = f y → x = y) (h : xs.flatMap f ++ r = ys.flatMap f ++ r') : xs = ys ∧ r = r' := by
  induction xs generalizing ys with
  | nil =>
    cases ys with
    | nil => exact ⟨rfl, h⟩
    | cons => cases hl
  | cons x xs ih =>
    cases ys with
    | nil => cases hl
    | cons y ys =>
      simp only [List.flatMap_cons, List.append_assoc] at h
      obtain ⟨h1, h2⟩ := List.append_inj h (by rw [hx x (by simp), hy y (by simp)])
      obtain ⟨h3, h4⟩ := ih (by simpa using hl) (fun x h => hx x (by simp [h])) (fun y h => hy y (by simp [h]))
        (fun x h y h' => hi x (by simp [h]) y (by simp [h'])) h2
      exact ⟨by rw [hi x (by simp) y (by simp) h1, h3], h4⟩

/-- compares encodings from the left -/
syntax "bit_split" "[" Lean.Parser.Tactic.simpLemma,* "]" " at " ident : tactic
macro_rules
  | `(tactic| bit_split [$ls,*] at $h) => `(tactic|
    simp (disch := first | assumption | omega) only [List.append_assoc, natBits_append, toBits_append, toBits_iff, natBits_u8, natBits_u16,
      natBits_u32, natBits_u64, natBits_inj, UInt8.toNat_inj, UInt16.toNat_inj, UInt32.toNat_inj, $ls,*] at $h:ident)

theorem prefixes_inj {c : UInt8} {xs ys : List IPv6Prefix} {r r' : List Bool} (hx : FitsPrefixes c xs) (hy : FitsPrefixes c ys)
    (h : xs.flatMap bitsPrefix ++ r = ys.flatMap bitsPrefix ++ r') : xs = ys ∧ r = r' := by
  refine flatMap_append_inj bitsPrefix 136 (by rw [hx.1, hy.1]) ?_ ?_ ?_ h
  · intro x h; simp [bitsPrefix, hx.2 x h]
  · intro x h; simp [bitsPrefix, hy.2 x h]
  · intro x h1 y h2 h
    have := hx.2 x h1; have := hy.2 y h2
    unfold bitsPrefix at h
    bit_split [] at h
    cases x; cases y; simp_all

theorem gids_inj {n : Nat} {xs ys : List GIDEntry} {r r' : List Bool} (hx : xs.length = 8) (hy : ys.length = 8)
    (h : (xs.take n).flatMap bitsGID ++ r = (ys.take n).flatMap bitsGID ++ r') : xs.take n = ys.take n ∧ r = r' := by
  refine flatMap_append_inj bitsGID 80 (by simp [hx, hy]) ?_ ?_ ?_ h
  · intro x h; simp [bitsGID]
  · intro x h; simp [bitsGID]
  · intro x h1 y h2 h
    unfold bitsGID at h
    bit_split [] at h
    cases x; cases y; simp_all

theorem eids_inj {n : Nat} {xs ys : List Bytes} {r r' : List Bool} (hx : xs.length = 8) (hy : ys.length = 8)
    (hx' : ∀ x ∈ xs, x.length = 32) (hy' : ∀ x ∈ ys, x.length = 32)
    (h : (xs.take n).flatMap toBits ++ r = (ys.take n).flatMap toBits ++ r') : xs.take n = ys.take n ∧ r = r' := by
  refine flatMap_append_inj toBits 256 (by simp [hx, hy]) ?_ ?_ ?_ h
  · intro x h; simp [hx' x (List.mem_of_mem_take h)]
  · intro x h; simp [hy' x (List.mem_of_mem_take h)]
  · intro x h1 y h2 h
    exact toBits_inj h

theorem v2IP_inj {a b : ProposalV2} {r r' : List Bool} (ha : FitsV2IP a) (hb : FitsV2IP b) (ha2 : a.rsv2.length = 2)
    (hb2 : b.rsv2.length = 2) (h : bitsV2IP a ++ r = bitsV2IP b ++ r') : SameIP a b ∧ r = r' := by
  obtain ⟨a1, a3⟩ := ha
  obtain ⟨b1, b3⟩ := hb
  unfold bitsV2IP at h
  have e1 : a.Prefix.length = b.Prefix.length := by omega
  have e2 : a.rsv2.length = b.rsv2.length := by omega
  bit_split [] at h
  obtain ⟨h1, h2, h3, h4, h5⟩ := h
  rw [h4] at a3
  obtain ⟨h6, h7⟩ := prefixes_inj a3 b3 h5
  exact ⟨⟨h1, h2, h3, h4, h6⟩, h7⟩

theorem v2Ext_inj {a b : ProposalV2} {r r' : List Bool} (ha : FitsV2Ext a) (hb : FitsV2Ext b) (sa : SizedProposalV2 a)
    (sb : SizedProposalV2 b) (h : bitsV2Ext a ++ r = bitsV2Ext b ++ r') : SameExt a b ∧ r = r' := by
  obtain ⟨a1, a2, a3, a4, a5⟩ := ha
  obtain ⟨b1, b2, b3, b4, b5⟩ := hb
  obtain ⟨-, -, -, -, c1, c2, c3, c4, -⟩ := sa
  obtain ⟨-, -, -, -, d1, d2, d3, d4, -⟩ := sb
  unfold bitsV2Ext at h
  have e1 : a.rsv5.length = b.rsv5.length := by omega
  have e2 : a.rsv6.length = b.rsv6.length := by omega
  bit_split [] at h
  obtain ⟨h1, h2, h3, h4, h5, h6, h7, h8, h9, h10⟩ := h
  rw [h1] at h10 a5
  obtain ⟨h11, h12⟩ := eids_inj c3 d3 c4 d4 h10
  refine ⟨⟨h1, h2, h3, h4, h5, h6, h7, h8, h9, ?_⟩, h12⟩
  rw [← List.take_append_drop b.EIDNumber.toNat a.EIDArea, ← List.take_append_drop b.EIDNumber.toNat b.EIDArea, h11, a5, b5]

theorem v2SMCD_inj {a b : ProposalV2} {r r' : List Bool} (ha : FitsV2SMCD a) (hb : FitsV2SMCD b) (sa : SizedProposalV2 a)
    (sb : SizedProposalV2 b) (hg : a.GIDNumber = b.GIDNumber) (h : bitsV2SMCD a ++ r = bitsV2SMCD b ++ r') :
    SameSMCD a b ∧ r = r' := by
  obtain ⟨a1, a5⟩ := ha
  obtain ⟨b1, b5⟩ := hb
  obtain ⟨-, -, -, -, -, -, -, -, c1, c2, c3, -⟩ := sa
  obtain ⟨-, -, -, -, -, -, -, -, d1, d2, d3, -⟩ := sb
  unfold bitsV2SMCD at h
  have e1 : a.SEID.length = b.SEID.length := by omega
  have e2 : a.rsv7.length = b.rsv7.length := by omega
  bit_split [] at h
  obtain ⟨h1, h2, h10⟩ := h
  rw [hg] at h10 a5
  obtain ⟨h11, h12⟩ := gids_inj c3 d3 h10
  refine ⟨⟨h1, h2, ?_⟩, h12⟩
  rw [← List.take_append_drop b.GIDNumber.toNat a.GIDArea, ← List.take_append_drop b.GIDNumber.toNat b.GIDArea, h11, a5, b5]

theorem proposal_inj {a b : Proposal} (ha : FitsProposal a) (hb : FitsProposal b) (h : bitsProposal a = bitsProposal b) :
    core (.proposal a) = core (.proposal b) ∧ a.trailer = b.trailer := by
  obtain ⟨a1, ⟨-, a2, a3, a4, a5⟩, a6, a7, a8, a9, a10⟩ := ha
  obtain ⟨b1, ⟨-, b2, b3, b4, b5⟩, b6, b7, b8, b9, b10⟩ := hb
  unfold bitsProposal at h
  have e1 : a.SenderPeerID.length = b.SenderPeerID.length := by omega
  have e2 : a.IBGID.length = b.IBGID.length := by omega
  have e3 : a.IBMAC.length = b.IBMAC.length := by omega
  have e4 : a.rsv.length = b.rsv.length := by omega
  have e5 : a.Prefix.length = b.Prefix.length := by omega
  have e6 : a.rsv2.length = b.rsv2.length := by omega
  simp only [List.append_assoc] at h
  rw [header_append a1 b1] at h
  bit_split [] at h
  obtain ⟨h1, h2, h3, h4, h5, h6⟩ := h
  have key : (a.SMCDGID = b.SMCDGID ∧ a.rsv = b.rsv) ∧ a.Prefix = b.Prefix ∧ a.PrefixLen = b.PrefixLen ∧ a.rsv2 = b.rsv2 ∧
      a.IPv6PrefixesCnt = b.IPv6PrefixesCnt ∧
      a.IPv6Prefixes.flatMap bitsPrefix ++ toBits a.trailer = b.IPv6Prefixes.flatMap bitsPrefix ++ toBits b.trailer := by
    by_cases c : b.IPAreaOffset = 40
    · rw [if_pos (h5.trans c), if_pos c] at h6
      bit_split [] at h6
      exact ⟨⟨h6.1, h6.2.1⟩, h6.2.2⟩
    · have ca : ¬ a.IPAreaOffset = 40 := fun x => c (h5 ▸ x)
      rw [if_neg ca, if_neg c, List.nil_append, List.nil_append] at h6
      bit_split [] at h6
      rcases a8 with ⟨-, a8, a8'⟩ | a8
      · rcases b8 with ⟨-, b8, b8'⟩ | b8
        · exact ⟨⟨a8.trans b8.symm, a8'.trans b8'.symm⟩, h6⟩
        · exact absurd b8 c
      · exact absurd a8 ca
  obtain ⟨⟨k1, k2⟩, k3, k4, k5, k6, k7⟩ := key
  rw [k6] at a10
  obtain ⟨k8, k9⟩ := prefixes_inj a10 b10 k7
  refine ⟨?_, toBits_inj k9⟩
  cases a; cases b
  simp_all [core]

theorem proposalV2_inj {a b : ProposalV2} (ha : FitsProposalV2 a) (hb : FitsProposalV2 b) (h : bitsProposalV2 a = bitsProposalV2 b) :
    core (.proposalV2 a) = core (.proposalV2 b) ∧ a.trailer = b.trailer := by
  obtain ⟨a1, sa, a2, a3, a4, a5, a6⟩ := ha
  obtain ⟨b1, sb, b2, b3, b4, b5, b6⟩ := hb
  have e1 : a.SenderPeerID.length = b.SenderPeerID.length := by rw [sa.2.1, sb.2.1]
  have e2 : a.IBGID.length = b.IBGID.length := by omega
  have e3 : a.IBMAC.length = b.IBMAC.length := by omega
  have e4 : a.rsv.length = b.rsv.length := by rw [sa.2.2.1, sb.2.2.1]
  unfold bitsProposalV2 at h
  simp only [List.append_assoc] at h
  rw [header_append a1 b1] at h
  bit_split [] at h
  obtain ⟨h1, h2, h3, h4, h5, h6, h7, h8, h9, h10⟩ := h
  rw [h1] at h10 a4 a5 a6
  have ip : SameIP a b ∧ (if b.hdr.Pathv2 = 2 then [] else bitsV2Ext a) ++
      ((if b.hdr.Pathv2 = 1 ∨ b.hdr.Pathv2 = 3 then bitsV2SMCD a else []) ++ toBits a.trailer) =
      (if b.hdr.Pathv2 = 2 then [] else bitsV2Ext b) ++
      ((if b.hdr.Pathv2 = 1 ∨ b.hdr.Pathv2 = 3 then bitsV2SMCD b else []) ++ toBits b.trailer) := by
    by_cases c : b.hdr.Path = 2
    · simp only [c, if_true, List.nil_append] at h10 a4 b4
      obtain ⟨q1, q2, q3, q4, q5⟩ := a4
      obtain ⟨r1, r2, r3, r4, r5⟩ := b4
      exact ⟨⟨q1.trans r1.symm, q2.trans r2.symm, q3.trans r3.symm, q4.trans r4.symm, q5.trans r5.symm⟩, h10⟩
    · simp only [c, if_false] at h10 a4 b4
      exact v2IP_inj a4 b4 sa.2.2.2.1 sb.2.2.2.1 h10
  have ext : SameExt a b ∧ (if b.hdr.Pathv2 = 1 ∨ b.hdr.Pathv2 = 3 then bitsV2SMCD a else []) ++ toBits a.trailer =
      (if b.hdr.Pathv2 = 1 ∨ b.hdr.Pathv2 = 3 then bitsV2SMCD b else []) ++ toBits b.trailer := by
    have h10 := ip.2
    by_cases c : b.hdr.Pathv2 = 2
    · rw [if_pos c] at h10 a5 b5
      rw [if_pos c, List.nil_append, List.nil_append] at h10
      obtain ⟨q1, q2, q3, q4, q5, q6, q7, q8, q9, q10⟩ := a5
      obtain ⟨r1, r2, r3, r4, r5, r6, r7, r8, r9, r10⟩ := b5
      exact ⟨⟨q1.trans r1.symm, q2.trans r2.symm, q3.trans r3.symm, q4.trans r4.symm, q5.trans r5.symm, q6.trans r6.symm,
        q7.trans r7.symm, q8.trans r8.symm, q9.trans r9.symm, q10.trans r10.symm⟩, h10⟩
    · rw [if_neg c] at h10 a5 b5
      rw [if_neg c] at h10
      exact v2Ext_inj a5 b5 sa sb h10
  have smcd : SameSMCD a b ∧ toBits a.trailer = toBits b.trailer := by
    have h10 := ext.2
    by_cases c : b.hdr.Pathv2 = 1 ∨ b.hdr.Pathv2 = 3
    · rw [if_pos c] at h10 a6 b6
      rw [if_pos c] at h10
      exact v2SMCD_inj a6 b6 sa sb ext.1.2.1 h10
    · rw [if_neg c] at h10 a6 b6
      rw [if_neg c, List.nil_append, List.nil_append] at h10
      obtain ⟨q1, q2, q3⟩ := a6
      obtain ⟨r1, r2, r3⟩ := b6
      exact ⟨⟨q1.trans r1.symm, q2.trans r2.symm, q3.trans r3.symm⟩, h10⟩
  refine ⟨?_, toBits_inj smcd.2⟩
  obtain ⟨i1, i2, i3, i4, i5⟩ := ip.1
  obtain ⟨x1, x2, x3, x4, x5, x6, x7, x8, x9, x10⟩ := ext.1
  obtain ⟨s1, s2, s3⟩ := smcd.1
  clear h10 ip ext smcd a4 a5 a6 b4 b5 b6 a1 b1 sa sb
  cases a; cases b
  simp_all [core]

theorem decline_inj {a b : Decline} (ha : FitsCLC (.decline a)) (hb : FitsCLC (.decline b)) (h : bitsDecline a = bitsDecline b) :
    core (.decline a) = core (.decline b) ∧ a.trailer = b.trailer := by
  obtain ⟨a1, ⟨-, a2, a3, a4⟩, a5⟩ := ha
  obtain ⟨b1, ⟨-, b2, b3, b4⟩, b5⟩ := hb
  unfold bitsDecline at h
  have e1 : a.SenderPeerID.length = b.SenderPeerID.length := by omega
  have e2 : a.rsv.length = b.rsv.length := by omega
  simp only [List.append_assoc] at h
  rw [header_append a1 b1] at h
  bit_split [] at h
  cases a; cases b
  simp_all [core]

theorem rsv_inj {a b : Bytes} (ha : a.length = 4) (hb : b.length = 4) (h : a.headD 0 = b.headD 0) (h' : a.drop 1 = b.drop 1) : a = b := by
  match a, b, ha, hb with
  | _ :: _, _ :: _, _, _ => simp_all

theorem declineV2_inj {a b : DeclineV2} (ha : FitsCLC (.declineV2 a)) (hb : FitsCLC (.declineV2 b)) (h : bitsDeclineV2 a = bitsDeclineV2 b) :
    core (.declineV2 a) = core (.declineV2 b) ∧ a.trailer = b.trailer := by
  obtain ⟨a1, ⟨-, a2, a3, a4⟩, a5, a6⟩ := ha
  obtain ⟨b1, ⟨-, b2, b3, b4⟩, b5, b6⟩ := hb
  unfold bitsDeclineV2 at h
  have e1 : a.SenderPeerID.length = b.SenderPeerID.length := by omega
  have e2 : (a.rsv.drop 1).length = (b.rsv.drop 1).length := by simp only [List.length_drop]; omega
  simp only [List.append_assoc] at h
  rw [header_append a1 b1] at h
  bit_split [] at h
  obtain ⟨h1, h2, h3, h4, h5, h6, h7⟩ := h
  have := rsv_inj a3 b3 h5 h6
  clear a6 b6 h5 h6 e2
  cases a; cases b
  simp_all [core]

theorem smcr_inj {a b : AcceptSMCR} (ha : FitsCLC (.acceptSMCR a)) (hb : FitsCLC (.acceptSMCR b)) (h : bitsSMCR a = bitsSMCR b) :
    core (.acceptSMCR a) = core (.acceptSMCR b) ∧ a.trailer = b.trailer := by
  obtain ⟨a1, ⟨-, a2, a3⟩, a4, a5, a6, a7, a8, a9⟩ := ha
  obtain ⟨b1, ⟨-, b2, b3⟩, b4, b5, b6, b7, b8, b9⟩ := hb
  unfold bitsSMCR at h
  have e1 : a.SenderPeerID.length = b.SenderPeerID.length := by omega
  have e2 : a.IBGID.length = b.IBGID.length := by omega
  have e3 : a.IBMAC.length = b.IBMAC.length := by omega
  simp only [List.append_assoc] at h
  rw [header_append a1 b1] at h
  bit_split [] at h
  cases a; cases b
  simp_all [core]

theorem smcd_inj {a b : AcceptSMCD} (ha : FitsCLC (.acceptSMCD a)) (hb : FitsCLC (.acceptSMCD b)) (h : bitsSMCD a = bitsSMCD b) :
    core (.acceptSMCD a) = core (.acceptSMCD b) ∧ a.trailer = b.trailer := by
  obtain ⟨a1, ⟨-, a2, a3, a4⟩, a5, a6⟩ := ha
  obtain ⟨b1, ⟨-, b2, b3, b4⟩, b5, b6⟩ := hb
  unfold bitsSMCD at h
  have e1 : a.rsv2.length = b.rsv2.length := by omega
  have e2 : a.rsv3.length = b.rsv3.length := by omega
  simp only [List.append_assoc] at h
  rw [header_append a1 b1] at h
  bit_split [] at h
  cases a; cases b
  simp_all [core]

theorem smcdv2_hdr {a : AcceptSMCDv2} (ha : FitsCLC (.acceptSMCDv2 a)) : FitsHeader a.hdr a.hdr.Length.toNat := by
  rcases ha.1 with h | h <;> (have := h.1.2.1; rw [this]; exact h.1)

theorem smcdv2_inj {a b : AcceptSMCDv2} (ha : FitsCLC (.acceptSMCDv2 a)) (hb : FitsCLC (.acceptSMCDv2 b)) (h : bitsSMCDv2 a = bitsSMCDv2 b) :
    core (.acceptSMCDv2 a) = core (.acceptSMCDv2 b) ∧ a.trailer = b.trailer := by
  have ah := smcdv2_hdr ha
  have bh := smcdv2_hdr hb
  obtain ⟨a1, ⟨-, a2, a3, a4, a5, a6, a7⟩, a8, a9⟩ := ha
  obtain ⟨b1, ⟨-, b2, b3, b4, b5, b6, b7⟩, b8, b9⟩ := hb
  unfold bitsSMCDv2 at h
  have e1 : a.rsv2.length = b.rsv2.length := by omega
  have e2 : a.rsv3.length = b.rsv3.length := by omega
  have e3 : a.EID.length = b.EID.length := by omega
  have e4 : a.rsv5.length = b.rsv5.length := by omega
  have e5 : a.Hostname.length = b.Hostname.length := by omega
  simp only [List.append_assoc] at h
  rw [header_append ah bh] at h
  bit_split [] at h
  obtain ⟨h1, h2, h3, h4, h5, h6, h7, h8, h9, h10, h11, h12⟩ := h
  rw [h1] at a1 h12
  have key : SameFCE a b ∧ toBits a.trailer = toBits b.trailer := by
    by_cases c : b.hdr.Length.toNat = 114
    · rw [if_pos c, if_pos c] at h12
      have fa : FitsFCE a := a1.elim (fun x => by have := x.1.2.1; omega) (·.2)
      have fb : FitsFCE b := b1.elim (fun x => by have := x.1.2.1; omega) (·.2)
      obtain ⟨f1, f2⟩ := fa
      obtain ⟨f3, f4⟩ := fb
      unfold bitsFCE at h12
      bit_split [] at h12
      obtain ⟨k1, k2, k3, k4, k5, k6⟩ := h12
      exact ⟨⟨k1, k2, k3, k4, k5⟩, by rw [k6]⟩
    · rw [if_neg c, if_neg c] at h12
      have fa : SameFCE a {} := a1.elim (·.2) (fun x => by have := x.1.2.1; omega)
      have fb : SameFCE b {} := b1.elim (·.2) (fun x => by have := x.1.2.1; omega)
      obtain ⟨q1, q2, q3, q4, q5⟩ := fa
      obtain ⟨r1, r2, r3, r4, r5⟩ := fb
      exact ⟨⟨q1.trans r1.symm, q2.trans r2.symm, q3.trans r3.symm, q4.trans r4.symm, q5.trans r5.symm⟩, h12⟩
  refine ⟨?_, toBits_inj key.2⟩
  obtain ⟨k1, k2, k3, k4, k5⟩ := key.1
  clear h12 key a1 b1 ah bh
  cases a; cases b
  simp_all [core]

/-- messages of the same kind with the same bits have the same fields -/
theorem bitsCLC_inj {a b : Message} (ha : FitsCLC a) (hb : FitsCLC b) (hk : clcKind a = clcKind b) (h : bitsCLC a = bitsCLC b) :
    core a = core b ∧ a.trailer = b.trailer := by
  cases a <;> cases b <;> first | (cases hk; done) | skip
  · exact proposal_inj ha hb h
  · exact proposalV2_inj ha hb h
  · exact smcr_inj ha hb h
  · exact smcd_inj ha hb h
  · exact smcdv2_inj ha hb h
  · have := smcr_inj ha hb h
    exact ⟨congrArg (fun m => match m with | .acceptSMCR x => Message.confirmSMCR x | m => m) this.1, this.2⟩
  · have := smcd_inj ha hb h
    exact ⟨congrArg (fun m => match m with | .acceptSMCD x => Message.confirmSMCD x | m => m) this.1, this.2⟩
  · have := smcdv2_inj ha hb h
    exact ⟨congrArg (fun m => match m with | .acceptSMCDv2 x => Message.confirmSMCDv2 x | m => m) this.1, this.2⟩
  · exact decline_inj ha hb h
  · exact declineV2_inj ha hb h

/-! ## Reading values from their encodings -/

theorem header_length {h : Header} {n : Nat} (f : FitsHeader h n) : (bitsHeader h).length = 64 := by
  simp [bitsHeader, f.1]


theorem drop_next {l A B : List Bool} {p n : Nat} (h : l.drop p = A ++ B) (hA : A.length = n) : l.drop (p + n) = B := by
  rw [← List.drop_drop, h, ← hA, List.drop_left]

theorem num_drop {v : Bytes} {Y : List Bool} {k i w x : Nat} (h : (toBits v).drop (8 * k + i) = natBits w x ++ Y)
    (hx : x < 2 ^ w) : num v k i w = x := by
  rw [num_seg]
  unfold seg
  rw [h, List.take_append_of_le_length (by simp), List.take_of_length_le (by simp), ofBits_natBits, Nat.mod_eq_of_lt hx]

/-- what a header says, from its encoding -/
theorem header_read {v : Bytes} {h : Header} {n : Nat} {r : List Bool} (f : FitsHeader h n) (hv : toBits v = bitsHeader h ++ r) :
    declared v = n ∧ pathOf v = h.Path.toNat ∧ pathv2Of v = h.Pathv2.toNat := by
  obtain ⟨f1, f2, f3, f4, f5, f6, f7⟩ := f
  unfold bitsHeader at hv
  simp only [List.append_assoc] at hv
  have d0 : (toBits v).drop 0 = _ := hv
  have d1 := drop_next d0 (n := 32) (by simp [f1])
  have d2 := drop_next d1 (n := 8) (by simp)
  have d3 := drop_next d2 (n := 16) (by simp)
  have d4 := drop_next d3 (n := 4) (by simp)
  have d5 := drop_next d4 (n := 1) (by simp)
  have d6 := drop_next d5 (n := 1) (by simp)
  refine ⟨?_, ?_, ?_⟩
  · rw [← f2]; exact num_drop d2 h.Length.toNat_lt
  · exact num_drop d6 f7
  · unfold pathv2Of
    rw [num_seg, f6]
    unfold seg
    rw [show 8 * 7 + 4 = 0 + 32 + 8 + 16 + 4 from rfl, d4, ← List.append_assoc,
      List.take_append_of_le_length (by simp), List.take_of_length_le (by simp), ofBits_append, ofBits_natBits, ofBits_natBits,
      Nat.mod_eq_of_lt f4, Nat.mod_eq_of_lt f5, natBits_length, Nat.mul_comm]

theorem flatMap_length {α : Type} (f : α → List Bool) (w : Nat) (xs : List α) (hx : ∀ x ∈ xs, (f x).length = w) :
    (xs.flatMap f).length = w * xs.length := by
  induction xs with
  | nil => rfl
  | cons x xs ih =>
    rw [List.flatMap_cons, List.length_append, hx x (by simp), ih (fun y h => hx y (by simp [h])), List.length_cons, Nat.mul_succ]
    omega

theorem prefixes_length {c : UInt8} {ps : List IPv6Prefix} (h : FitsPrefixes c ps) : (ps.flatMap bitsPrefix).length = 136 * c.toNat := by
  rw [flatMap_length bitsPrefix 136 ps (fun p hp => by simp [bitsPrefix, h.2 p hp]), h.1]

theorem gids_length {n : Nat} {gs : List GIDEntry} (h : gs.length = 8) (hn : n ≤ 8) : ((gs.take n).flatMap bitsGID).length = 80 * n := by
  rw [flatMap_length bitsGID 80 _ (fun p hp => by simp [bitsGID]), List.length_take, h, Nat.min_eq_left hn]

theorem eids_length {n : Nat} {gs : List Bytes} (h : gs.length = 8) (hn : n ≤ 8) (he : ∀ x ∈ gs, x.length = 32) :
    ((gs.take n).flatMap toBits).length = 256 * n := by
  rw [flatMap_length toBits 256 _ (fun p hp => by simp [he p (List.mem_of_mem_take hp)]), List.length_take, h, Nat.min_eq_left hn]

theorem v2IP_length {m : ProposalV2} (f : FitsV2IP m) (hr : m.rsv2.length = 2) :
    (bitsV2IP m).length = 8 * (8 + 17 * m.IPv6PrefixesCnt.toNat) := by
  simp only [bitsV2IP, List.length_append, toBits_length, natBits_length, prefixes_length f.2, f.1, hr]
  omega

theorem v2Ext_length {m : ProposalV2} (f : FitsV2Ext m) (s : SizedProposalV2 m) :
    (bitsV2Ext m).length = 8 * (40 + 32 * m.EIDNumber.toNat) := by
  obtain ⟨-, -, -, -, c1, c2, c3, c4, -⟩ := s
  simp only [bitsV2Ext, List.length_append, toBits_length, natBits_length, eids_length c3 f.2.2.2.1 c4, c1, c2]
  omega

theorem v2SMCD_length {m : ProposalV2} (f : FitsV2SMCD m) (s : SizedProposalV2 m) :
    (bitsV2SMCD m).length = 8 * (48 + 10 * m.GIDNumber.toNat) := by
  obtain ⟨-, -, -, -, -, -, -, -, c1, c2, c3, -⟩ := s
  simp only [bitsV2SMCD, List.length_append, toBits_length, gids_length c3 f.1, c1, c2]
  omega

/-- every encoding starts with a header that tells its size -/
theorem fits_shape {m : Message} (f : FitsCLC m) :
    ∃ n r, FitsHeader m.hdr n ∧ bitsCLC m = bitsHeader m.hdr ++ r ∧ (bitsCLC m).length = 8 * n := by
  cases m
  case proposal m =>
    obtain ⟨a1, ⟨-, a2, a3, a4, a5⟩, a6, a7, a8, a9, a10⟩ := f
    refine ⟨_, _, a1, by simp only [bitsCLC, bitsProposal, List.append_assoc]; rfl, ?_⟩
    simp only [bitsCLC, bitsProposal, List.length_append, toBits_length, natBits_length, prefixes_length a10, header_length a1, a2, a4,
      a5, a6, a7, a9]
    rcases a8 with ⟨b1, -⟩ | b1
    · rw [b1, if_neg (by decide)]
      simp only [List.length_nil, show (0 : UInt16).toNat = 0 from rfl]
      omega
    · rw [b1, if_pos rfl]
      simp only [List.length_append, toBits_length, natBits_length, a3, show (40 : UInt16).toNat = 40 from rfl]
      omega
  case proposalV2 m =>
    obtain ⟨a1, sa, a2, a3, a4, a5, a6⟩ := f
    refine ⟨_, _, a1, by simp only [bitsCLC, bitsProposalV2, List.append_assoc]; rfl, ?_⟩
    have i1 : (if m.hdr.Path = 2 then [] else bitsV2IP m).length =
        8 * (if m.hdr.Path = 2 then 0 else 8 + 17 * m.IPv6PrefixesCnt.toNat) := by
      split
      · rfl
      · next c => rw [if_neg c] at a4; exact v2IP_length a4 sa.2.2.2.1
    have i2 : (if m.hdr.Pathv2 = 2 then [] else bitsV2Ext m).length =
        8 * (if m.hdr.Pathv2 = 2 then 0 else 40 + 32 * m.EIDNumber.toNat) := by
      split
      · rfl
      · next c => rw [if_neg c] at a5; exact v2Ext_length a5 sa
    have i3 : (if m.hdr.Pathv2 = 1 ∨ m.hdr.Pathv2 = 3 then bitsV2SMCD m else []).length =
        8 * (if m.hdr.Pathv2 = 1 ∨ m.hdr.Pathv2 = 3 then 48 + 10 * m.GIDNumber.toNat else 0) := by
      split
      · next c => rw [if_pos c] at a6; exact v2SMCD_length a6 sa
      · rfl
    obtain ⟨-, b1, b2, -, -, -, -, -, -, -, -, b3⟩ := sa
    simp only [bitsCLC, bitsProposalV2, List.length_append, toBits_length, natBits_length, header_length a1, i1, i2, i3, a2, a3, b1, b2,
      b3, sizeV2]
    omega
  case acceptSMCR m | confirmSMCR m =>
    obtain ⟨a1, ⟨-, a2, a3⟩, a4, a5, -⟩ := f
    refine ⟨_, _, a1, by simp only [bitsCLC, bitsSMCR, List.append_assoc]; rfl, ?_⟩
    simp only [bitsCLC, bitsSMCR, List.length_append, toBits_length, natBits_length, header_length a1, a2, a3, a4, a5]
  case acceptSMCD m | confirmSMCD m =>
    obtain ⟨a1, ⟨-, a2, a3, a4⟩, -⟩ := f
    refine ⟨_, _, a1, by simp only [bitsCLC, bitsSMCD, List.append_assoc]; rfl, ?_⟩
    simp only [bitsCLC, bitsSMCD, List.length_append, toBits_length, natBits_length, header_length a1, a2, a3, a4]
  case acceptSMCDv2 m | confirmSMCDv2 m =>
    have ah := smcdv2_hdr f
    obtain ⟨a1, ⟨-, a2, a3, a4, a5, a6, a7⟩, -⟩ := f
    refine ⟨_, _, ah, by simp only [bitsCLC, bitsSMCDv2, List.append_assoc]; rfl, ?_⟩
    simp only [bitsCLC, bitsSMCDv2, List.length_append, toBits_length, natBits_length, header_length ah, a2, a3, a4, a7]
    rcases a1 with ⟨a1, -⟩ | ⟨a1, -⟩
    · rw [a1.2.1, if_neg (by omega)]; rfl
    · rw [a1.2.1, if_pos rfl]
      simp only [bitsFCE, List.length_append, toBits_length, natBits_length, a5, a6]
  case decline m =>
    obtain ⟨a1, ⟨-, a2, a3, a4⟩, -⟩ := f
    refine ⟨_, _, a1, by simp only [bitsCLC, bitsDecline, List.append_assoc]; rfl, ?_⟩
    simp only [bitsCLC, bitsDecline, List.length_append, toBits_length, natBits_length, header_length a1, a2, a3, a4]
  case declineV2 m =>
    obtain ⟨a1, ⟨-, a2, a3, a4⟩, -⟩ := f
    refine ⟨_, _, a1, by simp only [bitsCLC, bitsDeclineV2, List.append_assoc]; rfl, ?_⟩
    simp only [bitsCLC, bitsDeclineV2, List.length_append, toBits_length, natBits_length, header_length a1, a2, a3, a4, List.length_drop]

/-- the positions and counts of a Proposal of version 2, from its encoding -/
theorem v2_read {v : Bytes} {m : ProposalV2} (f : FitsProposalV2 m) (hv : toBits v = bitsProposalV2 m) :
    (HasIP v ↔ m.hdr.Path ≠ 2) ∧ (HasExt v ↔ m.hdr.Pathv2 ≠ 2) ∧ (HasSMCD v ↔ m.hdr.Pathv2 = 1 ∨ m.hdr.Pathv2 = 3) ∧
    (HasIP v → num v 87 0 8 = m.IPv6PrefixesCnt.toNat) ∧
    (HasExt v → num v (ipEnd v) 0 8 = m.EIDNumber.toNat ∧ num v (ipEnd v + 1) 0 8 = m.GIDNumber.toNat) := by
  obtain ⟨a1, sa, a2, a3, a4, a5, a6⟩ := f
  unfold bitsProposalV2 at hv
  simp only [List.append_assoc] at hv
  obtain ⟨-, r2, r3⟩ := header_read a1 hv
  have p1 : HasIP v ↔ m.hdr.Path ≠ 2 := by
    unfold HasIP; rw [r2, Ne, Ne, ← UInt8.toNat_inj]; rfl
  have p2 : HasExt v ↔ m.hdr.Pathv2 ≠ 2 := by
    unfold HasExt; rw [r3, Ne, Ne, ← UInt8.toNat_inj]; rfl
  have p3 : HasSMCD v ↔ m.hdr.Pathv2 = 1 ∨ m.hdr.Pathv2 = 3 := by
    have := @UInt8.toNat_inj m.hdr.Pathv2
    rw [← @this 1, ← @this 3, ← r3]; exact Iff.rfl
  have d0 : (toBits v).drop 0 = _ := hv
  have d1 := drop_next d0 (n := 64) (header_length a1)
  have d2 := drop_next d1 (n := 64) (by simp [sa.2.1])
  have d3 := drop_next d2 (n := 128) (by simp [a2])
  have d4 := drop_next d3 (n := 48) (by simp [a3])
  have d5 := drop_next d4 (n := 16) (by simp)
  have d6 := drop_next d5 (n := 64) (by simp)
  have d7 := drop_next d6 (n := 16) (by simp)
  have d8 := drop_next d7 (n := 16) (by simp)
  have d9 := drop_next d8 (n := 224) (by simp [sa.2.2.1])
  simp only [Nat.reduceAdd, Nat.zero_add] at d9
  have n1 : HasIP v → num v 87 0 8 = m.IPv6PrefixesCnt.toNat := fun c => by
    have c' := p1.1 c
    rw [if_neg c'] at d9 a4
    unfold bitsV2IP at d9
    simp only [List.append_assoc] at d9
    have e1 := drop_next d9 (n := 32) (by simp [a4.1])
    have e2 := drop_next e1 (n := 8) (by simp)
    have e3 := drop_next e2 (n := 16) (by simp [sa.2.2.2.1])
    exact num_drop e3 m.IPv6PrefixesCnt.toNat_lt
  refine ⟨p1, p2, p3, n1, fun c => ?_⟩
  have i1 : (if m.hdr.Path = 2 then [] else bitsV2IP m).length = 8 * ipEnd v - 640 ∧ 80 ≤ ipEnd v := by
    unfold ipEnd
    by_cases x : m.hdr.Path = 2
    · rw [if_pos x, if_neg (fun y => p1.1 y x)]; exact ⟨rfl, by omega⟩
    · rw [if_neg x, if_pos (p1.2 x), n1 (p1.2 x)]
      rw [if_neg x] at a4
      rw [v2IP_length a4 sa.2.2.2.1]
      omega
  have e1 := drop_next d9 i1.1
  rw [show 640 + (8 * ipEnd v - 640) = 8 * ipEnd v + 0 by omega, if_neg (p2.1 c)] at e1
  unfold bitsV2Ext at e1
  simp only [List.append_assoc] at e1
  have e2 := drop_next e1 (n := 8) (by simp)
  rw [show 8 * ipEnd v + 0 + 8 = 8 * (ipEnd v + 1) + 0 by omega] at e2
  exact ⟨num_drop e1 m.EIDNumber.toNat_lt, num_drop e2 m.GIDNumber.toNat_lt⟩

/-- encodings consist of the parts of their kind -/
theorem fits_snug {m : Message} (f : FitsCLC m) {v : Bytes} (hv : toBits v = bitsCLC m) :
    Snug (clcKind m) v ∧ ∀ c, v.length ≤ c → ¬ Crashes (clcKind m) v c := by
  have hlen : ∀ n, (bitsCLC m).length = 8 * n → v.length = n := fun n h => by
    have := congrArg List.length hv
    rw [toBits_length, h] at this; omega
  obtain ⟨n, r, f1, f2, f3⟩ := fits_shape f
  have hd := (header_read f1 (hv.trans f2)).1
  have hl := hlen n f3
  cases m
  case proposal m =>
    obtain ⟨a1, ⟨-, a2, a3, a4, a5⟩, a6, a7, a8, a9, a10⟩ := f
    have hv' : toBits v = bitsProposal m := hv
    unfold bitsProposal at hv'
    simp only [List.append_assoc] at hv'
    have d0 : (toBits v).drop 0 = _ := hv'
    have d1 := drop_next d0 (n := 64) (header_length a1)
    have d2 := drop_next d1 (n := 64) (by simp [a2])
    have d3 := drop_next d2 (n := 128) (by simp [a6])
    have d4 := drop_next d3 (n := 48) (by simp [a7])
    have d5 := drop_next d4 (n := 16) (by simp)
    simp only [Nat.reduceAdd, Nat.zero_add] at d5
    have n1 : num v 38 0 16 = m.IPAreaOffset.toNat := num_drop d4 m.IPAreaOffset.toNat_lt
    have hd' := (header_read a1 hv').1
    have i1 : (if m.IPAreaOffset = 40 then natBits 64 m.SMCDGID.toNat ++ toBits m.rsv else []).length = 8 * m.IPAreaOffset.toNat := by
      rcases a8 with ⟨b1, -⟩ | b1
      · rw [b1]; rfl
      · rw [b1, if_pos rfl]; simp [a3]
    have e1 := drop_next d5 i1
    have e2 := drop_next e1 (n := 32) (by simp [a9])
    have e3 := drop_next e2 (n := 8) (by simp)
    have e4 := drop_next e3 (n := 16) (by simp [a4])
    rw [show 320 + 8 * m.IPAreaOffset.toNat + 32 + 8 + 16 = 8 * (40 + m.IPAreaOffset.toNat + 7) + 0 by omega] at e4
    have n2 := num_drop e4 m.IPv6PrefixesCnt.toNat_lt
    constructor
    · show (num v 38 0 16 = 0 ∨ num v 38 0 16 = 40) ∧ declared v = ipAreaAt v + 12 + 17 * num v (ipAreaAt v + 7) 0 8
      unfold ipAreaAt
      rw [n1, n2, hd']
      refine ⟨?_, rfl⟩
      rcases a8 with ⟨b1, -⟩ | b1
      · rw [b1]; exact .inl rfl
      · rw [b1]; exact .inr rfl
    · rintro c hc ⟨-, c2, c3⟩
      rw [n1] at c2
      omega
  case proposalV2 m =>
    obtain ⟨p1, p2, p3, n1, n2⟩ := v2_read f hv
    have f' := f
    obtain ⟨a1, sa, a2, a3, a4, a5, a6⟩ := f'
    have hv' : toBits v = bitsProposalV2 m := hv
    unfold bitsProposalV2 at hv'
    simp only [List.append_assoc] at hv'
    have hd' := (header_read a1 hv').1
    have hxe : HasSMCD v → HasExt v := by rintro (h3 | h3) <;> (unfold HasExt; omega)
    have q1 : m.hdr.Path = 2 ↔ ¬ HasIP v := by rw [p1]; exact Decidable.not_not.symm
    have q2 : m.hdr.Pathv2 = 2 ↔ ¬ HasExt v := by rw [p2]; exact Decidable.not_not.symm
    have hs : Snug .proposalV2 v := by
      show declared v = smcdEnd v + 4
      rw [hd']
      have s1 : 80 + (if m.hdr.Path = 2 then 0 else 8 + 17 * m.IPv6PrefixesCnt.toNat) = ipEnd v := by
        unfold ipEnd
        by_cases c : HasIP v
        · rw [if_pos c, if_neg (p1.1 c), n1 c]; omega
        · rw [if_neg c, if_pos (q1.2 c)]
      have s2 : ipEnd v + (if m.hdr.Pathv2 = 2 then 0 else 40 + 32 * m.EIDNumber.toNat) = extEnd v := by
        unfold extEnd
        by_cases c : HasExt v
        · rw [if_pos c, if_neg (p2.1 c), (n2 c).1]; omega
        · rw [if_neg c, if_pos (q2.2 c)]; omega
      have s3 : extEnd v + (if m.hdr.Pathv2 = 1 ∨ m.hdr.Pathv2 = 3 then 48 + 10 * m.GIDNumber.toNat else 0) = smcdEnd v := by
        unfold smcdEnd
        by_cases c : HasSMCD v
        · rw [if_pos c, if_pos (p3.1 c), (n2 (hxe c)).2]; omega
        · rw [if_neg c, if_neg (fun x => c (p3.2 x))]; omega
      unfold sizeV2
      omega
    refine ⟨hs, ?_⟩
    rintro c - ⟨-, -, c1, -, c2⟩
    obtain ⟨-, b2, -, b4, b5, -, b7, -⟩ := snug_parts hs
    obtain ⟨k1, k2⟩ := n2 c1
    rcases c2 with c2 | ⟨c2, -, c3⟩
    · rw [b4 c1, k1] at c2
      rw [if_neg (p2.1 c1)] at a5
      have := a5.2.2.2.1
      omega
    · rw [b7 c2, k2] at c3
      rw [if_pos (p3.1 c2)] at a6
      have := a6.1
      omega
  case acceptSMCDv2 m | confirmSMCDv2 m =>
    have ah := smcdv2_hdr f
    have hv' : toBits v = bitsSMCDv2 m := hv
    unfold bitsSMCDv2 at hv'
    simp only [List.append_assoc] at hv'
    have hd' := (header_read ah hv').1
    refine ⟨?_, fun _ _ h => h⟩
    show declared v = 78 ∨ declared v = 114
    rw [hd']
    exact f.1.elim (fun x => .inl x.1.2.1) (fun x => .inr x.1.2.1)
  all_goals
    refine ⟨?_, fun _ _ h => h⟩
    have hv' := hv
    simp only [bitsCLC, bitsSMCR, bitsSMCD, bitsDecline, bitsDeclineV2, List.append_assoc] at hv'
    exact (header_read f.1 hv').1

/-! ## Decoded values fit -/

theorem raw_length {v : Bytes} {k n : Nat} (h : k + n ≤ v.length) : (raw v k n).length = n := by
  simp [raw]; omega

theorem wireHeader_fits {v : Bytes} {h : Header} (w : WireHeader v h) (hl : 8 ≤ v.length) : FitsHeader h (declared v) := by
  refine ⟨by rw [w.eyecatcher, raw_length (by omega)], w.length, by rw [w.version]; exact num_lt, by rw [w.flag]; exact num_lt,
    by rw [w.rsv]; exact num_lt, ?_, by rw [w.path]; exact num_lt⟩
  rw [w.pathv2, w.flag, w.rsv, num_seg, num_seg, num_seg, ← seg_append (w := 1) (w' := 1) (b := 8 * 7 + 5) (by omega), ofBits_append,
    seg_length (by rw [toBits_length]; omega), Nat.mul_comm]

theorem prefixes_fits {v : Bytes} {k n : Nat} {ps : List IPv6Prefix} {c : UInt8} (h : Prefixes v k n [] ps) (hc : c.toNat = n)
    (hl : k + 17 * n ≤ v.length) : FitsPrefixes c ps := by
  have hlen : ps.length = n := by have := h.length; simpa using this
  refine ⟨by rw [hlen, hc], fun p hp => ?_⟩
  obtain ⟨i, hi, rfl⟩ := List.mem_iff_getElem.1 hp
  obtain ⟨q, hq, w⟩ := h.entry i (by omega)
  simp only [List.length_nil, Nat.zero_add, List.getElem?_eq_getElem hi, Option.some.injEq] at hq
  rw [hq, w.pfx, raw_length (by omega)]

theorem eids_fits {v : Bytes} {k n : Nat} {es : List Bytes} (h : EIDs v k n (List.replicate 8 (zeros 32)) es) (hn : n ≤ 8)
    (hl : k + 32 * n ≤ v.length) :
    es.length = 8 ∧ (∀ x ∈ es, x.length = 32) ∧ es.drop n = List.replicate (8 - n) (zeros 32) := by
  have hlen : es.length = 8 := by rw [h.length]; rfl
  refine ⟨hlen, fun x hx => ?_, ?_⟩
  · obtain ⟨i, hi, rfl⟩ := List.mem_iff_getElem.1 hx
    by_cases c : i < n
    · have := h.entry i c
      rw [List.getElem?_eq_getElem hi, Option.some.injEq] at this
      rw [this, raw_length (by omega)]
    · have := h.kept i (by omega)
      rw [List.getElem?_eq_getElem hi, List.getElem?_replicate_of_lt (by omega), Option.some.injEq] at this
      rw [this]; rfl
  · apply List.ext_getElem?
    intro i
    rw [List.getElem?_drop, h.kept (n + i) (by omega)]
    by_cases c : n + i < 8
    · rw [List.getElem?_replicate_of_lt c, List.getElem?_replicate_of_lt (by omega)]
    · rw [List.getElem?_eq_none (by simp; omega), List.getElem?_eq_none (by simp; omega)]

theorem gids_fits {v : Bytes} {k n : Nat} {gs : List GIDEntry} (h : GIDs v k n (List.replicate 8 {}) gs) (hn : n ≤ 8) :
    gs.length = 8 ∧ gs.drop n = List.replicate (8 - n) {} := by
  have hlen : gs.length = 8 := by rw [h.length]; rfl
  refine ⟨hlen, ?_⟩
  apply List.ext_getElem?
  intro i
  rw [List.getElem?_drop, h.kept (n + i) (by omega)]
  by_cases c : n + i < 8
  · rw [List.getElem?_replicate_of_lt c, List.getElem?_replicate_of_lt (by omega)]
  · rw [List.getElem?_eq_none (by simp; omega), List.getElem?_eq_none (by simp; omega)]

/-- C81: decoded values fit into their fields. -/
theorem C81_fits (k : CLCKind) (s : Slice) (hL : declared s.vis = s.len) (hs : Snug k s.vis) (l : List Bytes)
    (m : Message) (h : (freshCLC k).parse s = .ret l m) : FitsCLC m ∧ clcKind m = k := by
  have hl : s.vis.length = declared s.vis := hL.symm
  have hsz := sized_fresh k
  have hacc := snug_accepted hs
  have hmin := hacc.1
  have h8 : 8 ≤ s.len := by rw [← hL]; cases k <;> simp only [minLen] at hmin <;> omega
  have ht : m.trailer = raw s.vis (declared s.vis - 4) 4 :=
    (C44_trailer_partial (freshCLC k) hsz s h8 hL (by rw [kind_fresh]; exact hacc) l m h).1
  have ht' : m.trailer.length = 4 := by rw [ht, raw_length]; have : s.vis.length = s.len := rfl; omega
  have h8' : 8 ≤ s.vis.length := h8
  cases k <;> simp only [minLen] at hmin <;> simp only [Snug, minLen] at hs
  case decline =>
    obtain ⟨l0, m0, h0, w, w'⟩ := C34_decline_wire {} hsz s (by omega) hmin
    simp only [freshCLC, Message.parse, h0, map_ret] at h
    cases h
    have hf := wireHeader_fits w.hdr h8'
    rw [hs] at hf
    refine ⟨⟨hf, ⟨hf.1, ?_, ?_, ht'⟩, w'⟩, rfl⟩
    · rw [w.peerID, raw_length (by omega)]
    · rw [w.rsv, raw_length (by omega)]
  case declineV2 =>
    obtain ⟨l0, m0, h0, w⟩ := C34_declineV2_wire {} hsz s (by omega) hmin
    simp only [freshCLC, Message.parse, h0, map_ret] at h
    cases h
    have hf := wireHeader_fits w.hdr h8'
    rw [hs] at hf
    refine ⟨⟨hf, ⟨hf.1, ?_, w.rsv.1, ht'⟩, by rw [w.osType]; exact num_lt, ?_⟩, rfl⟩
    · rw [w.peerID, raw_length (by omega)]
    · have h1 := w.rsv.1
      have h2 := w.rsv.2.1
      match hr : m0.rsv, h1 with
      | b :: _, _ =>
        rw [hr] at h2
        rw [num_byte _ _ _ _ (by simp) (by omega)] at h2
        simp only [List.getElem_cons_zero] at h2
        show b.toNat < 16
        have key : ∀ b : UInt8, ofBits (List.take 4 (List.drop 0 (byteBits b))) = 0 → b.toNat < 16 := by byte_decide
        exact key b h2
  case acceptSMCR | confirmSMCR =>
    obtain ⟨l0, m0, h0, w⟩ := C35_smcr_wire {} hsz s (by omega) hmin
    simp only [freshCLC, Message.parse, h0, map_ret] at h
    cases h
    have hf := wireHeader_fits w.hdr h8'
    rw [hs] at hf
    refine ⟨⟨hf, ⟨hf.1, ?_, ht'⟩, ?_, ?_, ?_, ?_, ?_, ?_⟩, rfl⟩
    · rw [w.peerID, raw_length (by omega)]
    · rw [w.gid, raw_length (by omega)]
    · rw [w.mac, raw_length (by omega)]
    · rw [w.qpn]; exact num_lt
    · rw [w.rmbeSize]; exact num_lt
    · rw [w.mtu]; exact num_lt
    · rw [w.psn]; exact num_lt
  case acceptSMCD | confirmSMCD =>
    obtain ⟨l0, m0, h0, w⟩ := C36_smcd_wire {} hsz s (by omega) hmin
    simp only [freshCLC, Message.parse, h0, map_ret] at h
    cases h
    have hf := wireHeader_fits w.hdr h8'
    rw [hs] at hf
    refine ⟨⟨hf, ⟨hf.1, ?_, ?_, ht'⟩, by rw [w.dmbeSize]; exact num_lt, by rw [w.rsv]; exact num_lt⟩, rfl⟩
    · rw [w.rsv2, raw_length (by omega)]
    · rw [w.rsv3, raw_length (by omega)]
  case acceptSMCDv2 | confirmSMCDv2 =>
    obtain ⟨l0, m0, h0, w, wf, wn⟩ := C37_smcdv2_wire {} hsz s (by omega) hmin (by omega)
    simp only [freshCLC, Message.parse, h0, map_ret] at h
    cases h
    have hf := wireHeader_fits w.hdr h8'
    have r2 : m0.rsv2.length = 2 := by rw [w.rsv2, raw_length (by omega)]
    have r3 : m0.EID.length = 32 := by rw [w.eid, raw_length (by omega)]
    have r4 : m0.rsv3.length = 8 := by rw [w.rsv3, raw_length (by omega)]
    rcases hs with hs | hs
    · have wn := wn (by omega)
      rw [hs] at hf
      refine ⟨⟨.inl ⟨hf, wn⟩, ⟨hf.1, r2, r3, r4, ?_, ?_, ht'⟩, by rw [w.dmbeSize]; exact num_lt, by rw [w.rsv]; exact num_lt⟩, rfl⟩
      · rw [wn.2.2.2.1]; rfl
      · rw [wn.2.2.2.2]; rfl
    · have wf := wf hs
      rw [hs] at hf
      refine ⟨⟨.inr ⟨hf, ?_, ?_⟩, ⟨hf.1, r2, r3, r4, ?_, ?_, ht'⟩, by rw [w.dmbeSize]; exact num_lt, by rw [w.rsv]; exact num_lt⟩, rfl⟩
      · rw [wf.osType]; exact num_lt
      · rw [wf.release]; exact num_lt
      · rw [wf.rsv5, raw_length (by omega)]
      · rw [wf.hostname, raw_length (by omega)]
  case proposal =>
    have hin : ipAreaAt s.vis + 12 ≤ declared s.vis := hacc.2
    obtain ⟨l0, m0, h0, w, wi, ws, wn⟩ := C38_proposal_wire {} hsz s hmin (by omega) hin
    obtain ⟨l1, m1, h1, wp, -⟩ := C41_proposal_prefixes {} hsz s hmin (by omega) hin
    rw [h0] at h1; cases h1
    simp only [freshCLC, Message.parse, h0, map_ret] at h
    cases h
    have : entries (declared s.vis) (ipAreaAt s.vis + 8) 17 (num s.vis (ipAreaAt s.vis + 7) 0 8)
        = num s.vis (ipAreaAt s.vis + 7) 0 8 := by
      unfold entries; omega
    rw [this] at wp
    have hroom := hs.2
    have hf := wireHeader_fits w.hdr h8'
    have ho : ipAreaAt s.vis = 40 + m0.IPAreaOffset.toNat := by unfold ipAreaAt; rw [w.offset]
    rw [hs.2, ho, ← ho, ← wi.count, ho] at hf
    have hrsv : m0.rsv.length = 32 := by
      by_cases c : num s.vis 38 0 16 = 40
      · rw [(ws c).rsv, raw_length (by unfold ipAreaAt at hroom; omega)]
      · rw [(wn c).2]; rfl
    refine ⟨⟨hf, ⟨hf.1, ?_, hrsv, ?_, ht'⟩, ?_, ?_, ?_, ?_, prefixes_fits wp wi.count (by omega)⟩, rfl⟩
    · rw [w.peerID, raw_length (by omega)]
    · rw [wi.rsv2, raw_length (by omega)]
    · rw [w.gid, raw_length (by omega)]
    · rw [w.mac, raw_length (by omega)]
    · rcases hs.1 with c | c
      · obtain ⟨n1, n2⟩ := wn (by omega)
        exact .inl ⟨by rw [← UInt16.toNat_inj, w.offset, c]; rfl, n1, n2⟩
      · exact .inr (by rw [← UInt16.toNat_inj, w.offset, c]; rfl)
    · rw [wi.pfx, raw_length (by omega)]
  case proposalV2 =>
    obtain ⟨a1, a2, r1, a3, a4, r2, a5, r3⟩ := snug_parts hs
    cases h0 : ProposalV2.parse {} s with
    | panic l => simp only [freshCLC, Message.parse, h0] at h; cases h
    | ret l0 m0 =>
      simp only [freshCLC, Message.parse, h0, map_ret] at h
      cases h
      have hxe : HasSMCD s.vis → HasExt s.vis := by rintro (h3 | h3) <;> (unfold HasExt; omega)
      obtain ⟨w, wi, wni, we, wne, wg, wng⟩ := C39_proposalV2_wire {} hsz s hmin (by omega) h0
      have hd : declared s.vis = smcdEnd s.vis + 4 := hs
      have e1 : smcdEnd s.vis = if HasSMCD s.vis then extEnd s.vis + 48 + 10 * num s.vis (ipEnd s.vis + 1) 0 8 else extEnd s.vis := rfl
      have e2 : extEnd s.vis = if HasExt s.vis then ipEnd s.vis + 40 + 32 * num s.vis (ipEnd s.vis) 0 8 else ipEnd s.vis := rfl
      have e3 : ipEnd s.vis = if HasIP s.vis then 88 + 17 * num s.vis 87 0 8 else 80 := rfl
      have l1 : extEnd s.vis ≤ smcdEnd s.vis := by rw [e1]; split <;> omega
      have l2 : ipEnd s.vis ≤ extEnd s.vis := by rw [e2]; split <;> omega
      have hf := wireHeader_fits w.hdr h8'
      have q1 : m0.hdr.Path = 2 ↔ ¬ HasIP s.vis := by
        rw [← UInt8.toNat_inj, w.hdr.path]; exact Decidable.not_not.symm
      have q2 : m0.hdr.Pathv2 = 2 ↔ ¬ HasExt s.vis := by
        rw [← UInt8.toNat_inj, w.hdr.pathv2]; exact Decidable.not_not.symm
      have q3 : (m0.hdr.Pathv2 = 1 ∨ m0.hdr.Pathv2 = 3) ↔ HasSMCD s.vis := by
        have := @UInt8.toNat_inj m0.hdr.Pathv2
        rw [← @this 1, ← @this 3, w.hdr.pathv2]; exact Iff.rfl
      have ip : (if m0.hdr.Path = 2 then SameIP m0 {} else FitsV2IP m0) ∧ m0.rsv2.length = 2 ∧
          80 + (if m0.hdr.Path = 2 then 0 else 8 + 17 * m0.IPv6PrefixesCnt.toNat) = ipEnd s.vis := by
        by_cases c : HasIP s.vis
        · have c' : ¬ m0.hdr.Path = 2 := fun x => q1.1 x c
          rw [if_pos c] at e3
          have wi := wi ⟨c, r1⟩
          have wp := (C41_proposalV2_prefixes {} hsz s hmin (by omega) h0 c r1).1
          rw [a1 c] at wp
          rw [if_neg c', if_neg c']
          refine ⟨⟨by rw [wi.pfx, raw_length (by omega)], prefixes_fits wp wi.count (by omega)⟩, by rw [wi.rsv2, raw_length (by omega)], ?_⟩
          have hcnt : m0.IPv6PrefixesCnt.toNat = num s.vis 87 0 8 := wi.count
          rw [hcnt]; omega
        · have c' := q1.2 c
          rw [if_neg c] at e3
          have wni := wni (fun x => c x.1)
          rw [if_pos c', if_pos c']
          exact ⟨wni, by rw [wni.2.2.1]; rfl, e3.symm⟩
      have ext : (if m0.hdr.Pathv2 = 2 then SameExt m0 {} else FitsV2Ext m0) ∧ (m0.rsv5.length = 2 ∧ m0.rsv6.length = 32 ∧
          m0.EIDArea.length = 8 ∧ ∀ x ∈ m0.EIDArea, x.length = 32) ∧
          ipEnd s.vis + (if m0.hdr.Pathv2 = 2 then 0 else 40 + 32 * m0.EIDNumber.toNat) = extEnd s.vis := by
        by_cases c : HasExt s.vis
        · have c' : ¬ m0.hdr.Pathv2 = 2 := fun x => q2.1 x c
          rw [if_pos c] at e2
          have we := we ⟨r1, c, r2⟩
          rw [a2] at we
          obtain ⟨h8, we', -⟩ := C42_eids {} hsz s hmin (by omega) h0 r1 c r2
          rw [a3 c] at h8
          rw [a3 c, a2] at we'
          obtain ⟨f1, f2, f3⟩ := eids_fits we' h8 (by omega)
          rw [if_neg c', if_neg c']
          refine ⟨⟨by rw [we.release]; exact num_lt, by rw [we.rsv4]; exact num_lt, by rw [we.seidInd]; exact num_lt,
            by rw [we.eidNumber]; exact h8, by rw [we.eidNumber]; exact f3⟩, ⟨by rw [we.rsv5, raw_length (by omega)],
            by rw [we.rsv6, raw_length (by omega)], f1, f2⟩, ?_⟩
          rw [we.eidNumber]; omega
        · have c' := q2.2 c
          rw [if_neg c] at e2
          have wne := wne (fun x => c x.2.1)
          rw [if_pos c', if_pos c']
          refine ⟨wne, ?_, e2.symm⟩
          obtain ⟨-, -, -, -, -, -, b1, -, b2, b3⟩ := wne
          rw [b1, b2, b3]
          decide
      have smcd : (if m0.hdr.Pathv2 = 1 ∨ m0.hdr.Pathv2 = 3 then FitsV2SMCD m0 else SameSMCD m0 {}) ∧ (m0.SEID.length = 32 ∧
          m0.rsv7.length = 16 ∧ m0.GIDArea.length = 8) ∧
          extEnd s.vis + (if m0.hdr.Pathv2 = 1 ∨ m0.hdr.Pathv2 = 3 then 48 + 10 * m0.GIDNumber.toNat else 0) = smcdEnd s.vis := by
        by_cases c : HasSMCD s.vis
        · have c' := q3.2 c
          rw [if_pos c] at e1
          have we := we ⟨r1, hxe c, r2⟩
          rw [a2] at we
          have wg := wg ⟨r1, r2, c, r3⟩
          rw [a4] at wg
          obtain ⟨h8, wg', -⟩ := C42_gids {} hsz s hmin (by omega) h0 r1 r2 c r3
          rw [a5 c] at h8
          rw [a5 c, a4] at wg'
          obtain ⟨f1, f2⟩ := gids_fits wg' h8
          rw [if_pos c', if_pos c']
          refine ⟨⟨by rw [we.gidNumber]; exact h8, by rw [we.gidNumber]; exact f2⟩, ⟨by rw [wg.seid, raw_length (by omega)],
            by rw [wg.rsv7, raw_length (by omega)], f1⟩, ?_⟩
          rw [we.gidNumber]; omega
        · have c' : ¬ (m0.hdr.Pathv2 = 1 ∨ m0.hdr.Pathv2 = 3) := fun x => c (q3.1 x)
          rw [if_neg c] at e1
          have wng := wng (fun x => c x.2.2.1)
          rw [if_neg c', if_neg c']
          refine ⟨wng, ?_, e1.symm⟩
          obtain ⟨b1, b2, b3⟩ := wng
          rw [b1, b2, b3]
          decide
      have hsize : sizeV2 m0 = declared s.vis := by
        have := ip.2.2; have := ext.2.2; have := smcd.2.2
        unfold sizeV2; omega
      refine ⟨⟨by rw [hsize]; exact hf, ⟨hf.1, ?_, ?_, ip.2.1, ext.2.1.1, ext.2.1.2.1, ext.2.1.2.2.1, ext.2.1.2.2.2, smcd.2.1.1,
        smcd.2.1.2.1, smcd.2.1.2.2, ht'⟩, ?_, ?_, ip.1, ext.1, smcd.1⟩, rfl⟩
      · rw [w.peerID, raw_length (by omega)]
      · rw [w.rsv, raw_length (by omega)]
      · rw [w.gid, raw_length (by omega)]
      · rw [w.mac, raw_length (by omega)]

/-- C81: writing a message and parsing the bytes gives the fields of the message again. The only report is on a
trailer that is no eyecatcher. -/
theorem C81_roundtrip (m : Message) (hf : FitsCLC m) (e : Bytes) :
    ∃ m', (freshCLC (clcKind m)).parse ⟨pack (bitsCLC m), e⟩ =
        .ret (if IsEye m.trailer then [] else report (go! "Error parsing CLC message: invalid trailer") m.trailer) m' ∧
      core m' = core m ∧ m'.trailer = m.trailer := by
  obtain ⟨n, r, f1, f2, f3⟩ := fits_shape hf
  have hv := toBits_pack n _ f3
  have hlen := pack_length n _ f3
  have hd := (header_read f1 (hv.trans f2)).1
  obtain ⟨hs, hc⟩ := fits_snug hf hv
  generalize pack (bitsCLC m) = v at hv hlen hd hs hc
  have hL : declared (⟨v, e⟩ : Slice).vis = (⟨v, e⟩ : Slice).len := by
    rw [Slice.len_mk]
    exact hd.trans hlen.symm
  have hacc := snug_accepted hs
  have h8 : 8 ≤ (⟨v, e⟩ : Slice).len := by
    rw [← hL]
    have hmin := hacc.1
    generalize clcKind m = k at *
    cases k <;> simp only [minLen] at hmin <;> (show 8 ≤ declared v; omega)
  have hsz := sized_fresh (clcKind m)
  have hk := kind_fresh (clcKind m)
  have hnp : ¬ ((freshCLC (clcKind m)).parse ⟨v, e⟩).Panics := by
    rw [C33_panics_iff _ hsz _ h8 (Nat.le_of_eq hL), hk]
    exact hc _ (by rw [Slice.cap_mk]; omega)
  cases hp : (freshCLC (clcKind m)).parse ⟨v, e⟩ with
  | panic l => exact absurd ⟨l, hp⟩ hnp
  | ret l m' =>
    have hb := (C81_lossless _ _ hL hs l m' hp).1
    obtain ⟨hf', hk'⟩ := C81_fits _ _ hL hs l m' hp
    obtain ⟨hcore, htr⟩ := bitsCLC_inj hf' hf hk' (hb.trans hv)
    refine ⟨m', ?_, hcore, htr⟩
    have hlog := C80_parse_log _ hsz _ h8 (Nat.le_of_eq hL) l m' hp
    have htr' := (C44_trailer _ hsz _ h8 (Nat.le_of_eq hL) (by rw [hk]; exact hacc) l m' hp).1
    rw [hlog, hk, ← htr, htr']
    have key : reports (clcKind m) v = trailerReport v := by
      unfold reports
      have hmin := hacc.1
      rw [if_neg (by omega)]
      generalize clcKind m = k at *
      cases k <;> first | rfl | skip
      · dsimp only
        have : entries (declared v) (ipAreaAt v + 8) 17 (num v (ipAreaAt v + 7) 0 8) = num v (ipAreaAt v + 7) 0 8 := by
          have := hs.2; unfold entries; omega
        rw [if_neg (by have : ipAreaAt v + 12 ≤ declared v := hacc.2; omega), this, countReport, if_pos rfl, List.nil_append]
      · dsimp only
        obtain ⟨a1, a2, r1, a3, a4, r2, a5, r3⟩ := snug_parts hs
        have g1 : (if HasIP v then countReport (go! "Error parsing CLC Proposal v2: IPv6 prefix count too big") v (num v 87 0 8)
            (pfxCount v) else []) = [] := by
          split
          · next c => rw [a1 c, countReport, if_pos rfl]
          · rfl
        have g2 : (if HasExt v then countReport (go! "Error parsing CLC Proposal v2: EID number too big") v (num v (extAt v) 0 8)
            (eidCount v) else []) = [] := by
          split
          · next c => rw [a3 c, a2, countReport, if_pos rfl]
          · rfl
        have g3 : (if HasSMCD v then countReport (go! "Error parsing CLC Proposal v2: GID number too big") v (num v (extAt v + 1) 0 8)
            (gidCount v) else []) = [] := by
          split
          · next c => rw [a5 c, a2, countReport, if_pos rfl]
          · rfl
        rw [if_neg (fun c => c r1), g1, if_neg (fun c => c r2), g2, if_neg (fun c => c r3), g3]
        rfl
    rw [key]
    rfl

/-- a Proposal with all parts: a prefix, an EID and a GID -/
def sampleProposal : ProposalV2 :=
  { hdr := { Eyecatcher := eyeR, Typ := 1, Length := 239, Version := 2, Flag := 1, rsv := 1, Pathv2 := 3, Path := 3 },
    SenderPeerID := [0, 1, 2, 3, 4, 5, 6, 7], IBGID := zeros 15 ++ [1], IBMAC := [2, 0, 0, 0, 0, 1], IPAreaOffset := 40,
    SMCDGID := 0x123456789, ISMv2VCHID := 7, SMCv2Offset := 25, Prefix := [10, 0, 0, 0], PrefixLen := 8, IPv6PrefixesCnt := 1,
    IPv6Prefixes := [{ pfx := [0xfd] ++ zeros 15, prefixLen := 64 }], EIDNumber := 1, GIDNumber := 1, Release := 1, rsv4 := 5,
    SEIDInd := 1, SMCDv2Off := 64, EIDArea := (go! "EID" ++ zeros 29) :: List.replicate 7 (zeros 32), SEID := go! "SEID" ++ zeros 28,
    GIDArea := { GID := 5, VCHID := 6 } :: List.replicate 7 {}, trailer := eyeR }

theorem sample_fits : FitsCLC (.proposalV2 sampleProposal) := by
  simp only [FitsCLC, FitsProposalV2, FitsHeader, SizedProposalV2, FitsV2IP, FitsV2Ext, FitsV2SMCD, FitsPrefixes, SameIP, SameExt, SameSMCD]
  decide +kernel

example : FitsCLC (.proposalV2 sampleProposal) ∧ (pack (bitsCLC (.proposalV2 sampleProposal))).length = 239 ∧
    IsEye sampleProposal.trailer := ⟨sample_fits, by decide +kernel, by decide⟩

end SMC.Props
