import Verif.Spec.Message
/-!
# CLC messages as bit strings

What an encoder would write: the fields in wire order, reserved ones included.
-/

namespace SMC.Spec

open CLC

def bitsDecline (m : Decline) : List Bool :=
  bitsHeader m.hdr ++ toBits m.SenderPeerID ++ natBits 32 m.PeerDiagnosis.toNat ++ toBits m.rsv ++ toBits m.trailer

/-- The first element of the reserved bytes stands for four bits. -/
def bitsDeclineV2 (m : DeclineV2) : List Bool :=
  bitsHeader m.hdr ++ toBits m.SenderPeerID ++ natBits 32 m.PeerDiagnosis.toNat ++ natBits 4 m.OSType.toNat ++
    natBits 4 (m.rsv.headD 0).toNat ++ toBits (m.rsv.drop 1) ++ toBits m.trailer

def bitsSMCR (m : AcceptSMCR) : List Bool :=
  bitsHeader m.hdr ++ toBits m.SenderPeerID ++ toBits m.IBGID ++ toBits m.IBMAC ++ natBits 24 m.QPN ++
    natBits 32 m.RMBRKey.toNat ++ natBits 8 m.RMBEIdx.toNat ++ natBits 32 m.RMBEAlertToken.toNat ++
    natBits 4 m.RMBESize.toNat ++ natBits 4 m.QPMTU.toNat ++ natBits 8 m.rsv.toNat ++ natBits 64 m.RMBDMAAddr.toNat ++
    natBits 8 m.rsv2.toNat ++ natBits 24 m.PSN ++ toBits m.trailer

def bitsSMCD (m : AcceptSMCD) : List Bool :=
  bitsHeader m.hdr ++ natBits 64 m.GID.toNat ++ natBits 64 m.Token.toNat ++ natBits 8 m.DMBEIdx.toNat ++
    natBits 4 m.DMBESize.toNat ++ natBits 4 m.rsv.toNat ++ toBits m.rsv2 ++ natBits 32 m.LinkID.toNat ++
    toBits m.rsv3 ++ toBits m.trailer

def bitsFCE (m : AcceptSMCDv2) : List Bool :=
  natBits 8 m.rsv4.toNat ++ natBits 4 m.OSType.toNat ++ natBits 4 m.Release.toNat ++ toBits m.rsv5 ++ toBits m.Hostname

/-- A message of 114 bytes has a first contact extension. -/
def bitsSMCDv2 (m : AcceptSMCDv2) : List Bool :=
  bitsHeader m.hdr ++ natBits 64 m.GID.toNat ++ natBits 64 m.Token.toNat ++ natBits 8 m.DMBEIdx.toNat ++
    natBits 4 m.DMBESize.toNat ++ natBits 4 m.rsv.toNat ++ toBits m.rsv2 ++ natBits 32 m.LinkID.toNat ++
    natBits 16 m.ISMv2VCHID.toNat ++ toBits m.EID ++ toBits m.rsv3 ++
    (if m.hdr.Length.toNat = 114 then bitsFCE m else []) ++ toBits m.trailer

def bitsPrefix (p : IPv6Prefix) : List Bool := toBits p.pfx ++ natBits 8 p.prefixLen.toNat

/-- The IP area starts directly behind its offset if that is 0, and behind the SMC-D info if it is 40. -/
def bitsProposal (m : Proposal) : List Bool :=
  bitsHeader m.hdr ++ toBits m.SenderPeerID ++ toBits m.IBGID ++ toBits m.IBMAC ++ natBits 16 m.IPAreaOffset.toNat ++
    (if m.IPAreaOffset = 40 then natBits 64 m.SMCDGID.toNat ++ toBits m.rsv else []) ++
    toBits m.Prefix ++ natBits 8 m.PrefixLen.toNat ++ toBits m.rsv2 ++ natBits 8 m.IPv6PrefixesCnt.toNat ++
    m.IPv6Prefixes.flatMap bitsPrefix ++ toBits m.trailer

def bitsGID (g : GIDEntry) : List Bool := natBits 64 g.GID.toNat ++ natBits 16 g.VCHID.toNat

def bitsV2IP (m : ProposalV2) : List Bool :=
  toBits m.Prefix ++ natBits 8 m.PrefixLen.toNat ++ toBits m.rsv2 ++ natBits 8 m.IPv6PrefixesCnt.toNat ++
    m.IPv6Prefixes.flatMap bitsPrefix

def bitsV2Ext (m : ProposalV2) : List Bool :=
  natBits 8 m.EIDNumber.toNat ++ natBits 8 m.GIDNumber.toNat ++ natBits 8 m.rsv3.toNat ++ natBits 4 m.Release.toNat ++
    natBits 3 m.rsv4.toNat ++ natBits 1 m.SEIDInd.toNat ++ toBits m.rsv5 ++ natBits 16 m.SMCDv2Off.toNat ++ toBits m.rsv6 ++
    (m.EIDArea.take m.EIDNumber.toNat).flatMap toBits

def bitsV2SMCD (m : ProposalV2) : List Bool :=
  toBits m.SEID ++ toBits m.rsv7 ++ (m.GIDArea.take m.GIDNumber.toNat).flatMap bitsGID

/-- The parts follow one another directly; which of them are there depends on the two paths. -/
def bitsProposalV2 (m : ProposalV2) : List Bool :=
  bitsHeader m.hdr ++ toBits m.SenderPeerID ++ toBits m.IBGID ++ toBits m.IBMAC ++ natBits 16 m.IPAreaOffset.toNat ++
    natBits 64 m.SMCDGID.toNat ++ natBits 16 m.ISMv2VCHID.toNat ++ natBits 16 m.SMCv2Offset.toNat ++ toBits m.rsv ++
    (if m.hdr.Path = 2 then [] else bitsV2IP m) ++ (if m.hdr.Pathv2 = 2 then [] else bitsV2Ext m) ++
    (if m.hdr.Pathv2 = 1 ∨ m.hdr.Pathv2 = 3 then bitsV2SMCD m else []) ++ toBits m.trailer

/-- The message as it is on the wire. -/
def bitsCLC : Message → List Bool
  | .proposal m => bitsProposal m
  | .proposalV2 m => bitsProposalV2 m
  | .acceptSMCR m | .confirmSMCR m => bitsSMCR m
  | .acceptSMCD m | .confirmSMCD m => bitsSMCD m
  | .acceptSMCDv2 m | .confirmSMCDv2 m => bitsSMCDv2 m
  | .decline m => bitsDecline m
  | .declineV2 m => bitsDeclineV2 m

/-- the end of the IP area of a Proposal of version 2 -/
def ipEnd (v : Bytes) : Nat := if HasIP v then 88 + 17 * num v 87 0 8 else 80
/-- the end of the v2 extension -/
def extEnd (v : Bytes) : Nat := if HasExt v then ipEnd v + 40 + 32 * num v (ipEnd v) 0 8 else ipEnd v
/-- the end of the SMC-D v2 extension -/
def smcdEnd (v : Bytes) : Nat := if HasSMCD v then extEnd v + 48 + 10 * num v (ipEnd v + 1) 0 8 else extEnd v

/-- The message consists of the parts of its kind, with the entries announced, and nothing else. -/
def Snug (k : CLCKind) (v : Bytes) : Prop :=
  match k with
  | .proposal => (num v 38 0 16 = 0 ∨ num v 38 0 16 = 40) ∧ declared v = ipAreaAt v + 12 + 17 * num v (ipAreaAt v + 7) 0 8
  | .proposalV2 => declared v = smcdEnd v + 4
  | .acceptSMCDv2 | .confirmSMCDv2 => declared v = 78 ∨ declared v = 114
  | k => declared v = minLen k

/-! Field values that fit into their bits: arrays have the sizes of their Go types, addresses 4, 6
and 16 bytes, numbers the bits of their fields; parts that are not in the message are zero. -/

/-- the header of a message of `n` bytes -/
def FitsHeader (h : Header) (n : Nat) : Prop :=
  h.Eyecatcher.length = 4 ∧ h.Length.toNat = n ∧ h.Version.toNat < 2 ^ 4 ∧ h.Flag.toNat < 2 ^ 1 ∧ h.rsv.toNat < 2 ^ 1 ∧
    h.Pathv2.toNat = 2 * h.Flag.toNat + h.rsv.toNat ∧ h.Path.toNat < 2 ^ 2

def FitsFCE (m : AcceptSMCDv2) : Prop := m.OSType.toNat < 2 ^ 4 ∧ m.Release.toNat < 2 ^ 4

def FitsPrefixes (cnt : UInt8) (ps : List IPv6Prefix) : Prop := ps.length = cnt.toNat ∧ ∀ p ∈ ps, p.pfx.length = 16

def FitsProposal (m : Proposal) : Prop :=
  FitsHeader m.hdr (40 + m.IPAreaOffset.toNat + 12 + 17 * m.IPv6PrefixesCnt.toNat) ∧ SizedProposal m ∧ m.IBGID.length = 16 ∧
    m.IBMAC.length = 6 ∧ (m.IPAreaOffset = 0 ∧ m.SMCDGID = 0 ∧ m.rsv = zeros 32 ∨ m.IPAreaOffset = 40) ∧ m.Prefix.length = 4 ∧
    FitsPrefixes m.IPv6PrefixesCnt m.IPv6Prefixes

def FitsV2IP (m : ProposalV2) : Prop := m.Prefix.length = 4 ∧ FitsPrefixes m.IPv6PrefixesCnt m.IPv6Prefixes

def FitsV2Ext (m : ProposalV2) : Prop :=
  m.Release.toNat < 2 ^ 4 ∧ m.rsv4.toNat < 2 ^ 3 ∧ m.SEIDInd.toNat < 2 ^ 1 ∧ m.EIDNumber.toNat ≤ 8 ∧
    m.EIDArea.drop m.EIDNumber.toNat = List.replicate (8 - m.EIDNumber.toNat) (zeros 32)

def FitsV2SMCD (m : ProposalV2) : Prop :=
  m.GIDNumber.toNat ≤ 8 ∧ m.GIDArea.drop m.GIDNumber.toNat = List.replicate (8 - m.GIDNumber.toNat) {}

/-- the size of a Proposal of version 2 -/
def sizeV2 (m : ProposalV2) : Nat :=
  80 + (if m.hdr.Path = 2 then 0 else 8 + 17 * m.IPv6PrefixesCnt.toNat) +
    (if m.hdr.Pathv2 = 2 then 0 else 40 + 32 * m.EIDNumber.toNat) +
    (if m.hdr.Pathv2 = 1 ∨ m.hdr.Pathv2 = 3 then 48 + 10 * m.GIDNumber.toNat else 0) + 4

def FitsProposalV2 (m : ProposalV2) : Prop :=
  FitsHeader m.hdr (sizeV2 m) ∧ SizedProposalV2 m ∧ m.IBGID.length = 16 ∧ m.IBMAC.length = 6 ∧
    (if m.hdr.Path = 2 then SameIP m {} else FitsV2IP m) ∧ (if m.hdr.Pathv2 = 2 then SameExt m {} else FitsV2Ext m) ∧
    (if m.hdr.Pathv2 = 1 ∨ m.hdr.Pathv2 = 3 then FitsV2SMCD m else SameSMCD m {})

def FitsCLC : Message → Prop
  | .proposal m => FitsProposal m
  | .proposalV2 m => FitsProposalV2 m
  | .acceptSMCR m | .confirmSMCR m => FitsHeader m.hdr 68 ∧ SizedSMCR m ∧ m.IBGID.length = 16 ∧ m.IBMAC.length = 6 ∧
      m.QPN < 2 ^ 24 ∧ m.RMBESize.toNat < 2 ^ 4 ∧ m.QPMTU.toNat < 2 ^ 4 ∧ m.PSN < 2 ^ 24
  | .acceptSMCD m | .confirmSMCD m => FitsHeader m.hdr 48 ∧ SizedSMCD m ∧ m.DMBESize.toNat < 2 ^ 4 ∧ m.rsv.toNat < 2 ^ 4
  | .acceptSMCDv2 m | .confirmSMCDv2 m => (FitsHeader m.hdr 78 ∧ SameFCE m {} ∨ FitsHeader m.hdr 114 ∧ FitsFCE m) ∧
      SizedSMCDv2 m ∧ m.DMBESize.toNat < 2 ^ 4 ∧ m.rsv.toNat < 2 ^ 4
  | .decline m => FitsHeader m.hdr 28 ∧ SizedDecline m ∧ m.OSType = 0
  | .declineV2 m => FitsHeader m.hdr 28 ∧ SizedDeclineV2 m ∧ m.OSType.toNat < 2 ^ 4 ∧ (m.rsv.headD 0).toNat < 2 ^ 4

end SMC.Spec
