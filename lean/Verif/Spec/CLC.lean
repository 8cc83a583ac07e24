import Verif.CLC.Message
import Verif.Spec.Wire
/-!
# Specification of CLC messages

Positions of the fields on the wire (RFC 7609, appendix A, and its successors for SMC-D and
SMCv2), written against the bytes of the message only.
-/

namespace SMC.Spec

open CLC

/-- "SMCR" in EBCDIC -/
def eyeR : Bytes := [0xE2, 0xD4, 0xC3, 0xD9]
/-- "SMCD" in EBCDIC -/
def eyeD : Bytes := [0xE2, 0xD4, 0xC3, 0xC4]

/-- a four byte string is one of the two eyecatchers -/
abbrev IsEye (t : Bytes) : Prop := t = eyeR ∨ t = eyeD

/-- the length declared in the header -/
def declared (v : Bytes) : Nat := num v 5 0 16
/-- the path of the header: 0 SMC-R, 1 SMC-D, 2 neither, 3 both -/
def pathOf (v : Bytes) : Nat := num v 7 6 2
/-- the SMCv2 path of the header of a Proposal, coded like the path -/
def pathv2Of (v : Bytes) : Nat := num v 7 4 2

/-- kinds of messages -/
inductive CLCKind where
  | proposal | proposalV2 | acceptSMCR | acceptSMCD | acceptSMCDv2
  | confirmSMCR | confirmSMCD | confirmSMCDv2 | decline | declineV2
deriving DecidableEq, Repr

/-- the kind of a message value -/
def clcKind : Message → CLCKind
  | .proposal _ => .proposal
  | .proposalV2 _ => .proposalV2
  | .acceptSMCR _ => .acceptSMCR
  | .acceptSMCD _ => .acceptSMCD
  | .acceptSMCDv2 _ => .acceptSMCDv2
  | .confirmSMCR _ => .confirmSMCR
  | .confirmSMCD _ => .confirmSMCD
  | .confirmSMCDv2 _ => .confirmSMCDv2
  | .decline _ => .decline
  | .declineV2 _ => .declineV2

/-- a zero message value of a kind -/
def freshCLC : CLCKind → Message
  | .proposal => .proposal {}
  | .proposalV2 => .proposalV2 {}
  | .acceptSMCR => .acceptSMCR {}
  | .acceptSMCD => .acceptSMCD {}
  | .acceptSMCDv2 => .acceptSMCDv2 {}
  | .confirmSMCR => .confirmSMCR {}
  | .confirmSMCD => .confirmSMCD {}
  | .confirmSMCDv2 => .confirmSMCDv2 {}
  | .decline => .decline {}
  | .declineV2 => .declineV2 {}

/-- the kind selected by type, version and path -/
def select (typ ver path : Nat) : Option CLCKind :=
  match typ, path with
  | 1, _ => some (if ver = 2 then .proposalV2 else .proposal)
  | 2, 0 => some .acceptSMCR
  | 2, 1 => some (if ver = 2 then .acceptSMCDv2 else .acceptSMCD)
  | 3, 0 => some .confirmSMCR
  | 3, 1 => some (if ver = 2 then .confirmSMCDv2 else .confirmSMCD)
  | 4, _ => some (if ver = 2 then .declineV2 else .decline)
  | _, _ => none

/-- the kind of message that starts with the eight bytes of `v` -/
def classify (v : Bytes) : Option CLCKind :=
  if IsEye (raw v 0 4) ∧ declared v ≤ 1024 then select (num v 4 0 8) (num v 7 0 4) (pathOf v) else none

/-- the least length of a message of a kind -/
def minLen : CLCKind → Nat
  | .proposal => 52
  | .proposalV2 => 84
  | .acceptSMCR | .confirmSMCR => 68
  | .acceptSMCD | .confirmSMCD => 48
  | .acceptSMCDv2 | .confirmSMCDv2 => 78
  | .decline | .declineV2 => 28

/-- the header fields -/
structure WireHeader (v : Bytes) (h : Header) : Prop where
  eyecatcher : h.Eyecatcher = raw v 0 4
  typ : h.Typ.toNat = num v 4 0 8
  length : h.Length.toNat = num v 5 0 16
  version : h.Version.toNat = num v 7 0 4
  flag : h.Flag.toNat = num v 7 4 1
  rsv : h.rsv.toNat = num v 7 5 1
  pathv2 : h.Pathv2.toNat = num v 7 4 2
  path : h.Path.toNat = num v 7 6 2

/-- the header fields in wire order; `Pathv2` is another view of the two bits flag and
reserved -/
def bitsHeader (h : Header) : List Bool :=
  toBits h.Eyecatcher ++ natBits 8 h.Typ.toNat ++ natBits 16 h.Length.toNat ++ natBits 4 h.Version.toNat ++
    natBits 1 h.Flag.toNat ++ natBits 1 h.rsv.toNat ++ natBits 2 h.Path.toNat

/-- fields of a Decline -/
structure WireDecline (v : Bytes) (m : Decline) : Prop where
  hdr : WireHeader v m.hdr
  rawBytes : m.raw.vis = v
  peerID : m.SenderPeerID = raw v 8 8
  diagnosis : m.PeerDiagnosis.toNat = num v 16 0 32
  rsv : m.rsv = raw v 20 4

/-- fields of a Decline of version 2; the reserved bytes lack the four bits of the OS type -/
structure WireDeclineV2 (v : Bytes) (m : DeclineV2) : Prop where
  hdr : WireHeader v m.hdr
  rawBytes : m.raw.vis = v
  peerID : m.SenderPeerID = raw v 8 8
  diagnosis : m.PeerDiagnosis.toNat = num v 16 0 32
  osType : m.OSType.toNat = num v 20 0 4
  rsv : m.rsv.length = 4 ∧ num m.rsv 0 0 4 = 0 ∧ num m.rsv 0 4 4 = num v 20 4 4 ∧ m.rsv.drop 1 = raw v 21 3

/-- fields of an SMC-R Accept or Confirm -/
structure WireSMCR (v : Bytes) (m : AcceptSMCR) : Prop where
  hdr : WireHeader v m.hdr
  rawBytes : m.raw.vis = v
  peerID : m.SenderPeerID = raw v 8 8
  gid : m.IBGID = raw v 16 16
  mac : m.IBMAC = raw v 32 6
  qpn : m.QPN = num v 38 0 24
  rkey : m.RMBRKey.toNat = num v 41 0 32
  rmbeIdx : m.RMBEIdx.toNat = num v 45 0 8
  alert : m.RMBEAlertToken.toNat = num v 46 0 32
  rmbeSize : m.RMBESize.toNat = num v 50 0 4
  mtu : m.QPMTU.toNat = num v 50 4 4
  rsv : m.rsv.toNat = num v 51 0 8
  vaddr : m.RMBDMAAddr.toNat = num v 52 0 64
  rsv2 : m.rsv2.toNat = num v 60 0 8
  psn : m.PSN = num v 61 0 24

/-- fields of an SMC-D Accept or Confirm -/
structure WireSMCD (v : Bytes) (m : AcceptSMCD) : Prop where
  hdr : WireHeader v m.hdr
  rawBytes : m.raw.vis = v
  gid : m.GID.toNat = num v 8 0 64
  token : m.Token.toNat = num v 16 0 64
  dmbeIdx : m.DMBEIdx.toNat = num v 24 0 8
  dmbeSize : m.DMBESize.toNat = num v 25 0 4
  rsv : m.rsv.toNat = num v 25 4 4
  rsv2 : m.rsv2 = raw v 26 2
  linkID : m.LinkID.toNat = num v 28 0 32
  rsv3 : m.rsv3 = raw v 32 12

/-- fields of an SMC-Dv2 Accept or Confirm without its first contact extension -/
structure WireSMCDv2 (v : Bytes) (m : AcceptSMCDv2) : Prop where
  hdr : WireHeader v m.hdr
  rawBytes : m.raw.vis = v
  gid : m.GID.toNat = num v 8 0 64
  token : m.Token.toNat = num v 16 0 64
  dmbeIdx : m.DMBEIdx.toNat = num v 24 0 8
  dmbeSize : m.DMBESize.toNat = num v 25 0 4
  rsv : m.rsv.toNat = num v 25 4 4
  rsv2 : m.rsv2 = raw v 26 2
  linkID : m.LinkID.toNat = num v 28 0 32
  vchid : m.ISMv2VCHID.toNat = num v 32 0 16
  eid : m.EID = raw v 34 32
  rsv3 : m.rsv3 = raw v 66 8

/-- the first contact extension -/
structure WireFCE (v : Bytes) (m : AcceptSMCDv2) : Prop where
  rsv4 : m.rsv4.toNat = num v 74 0 8
  osType : m.OSType.toNat = num v 75 0 4
  release : m.Release.toNat = num v 75 4 4
  rsv5 : m.rsv5 = raw v 76 2
  hostname : m.Hostname = raw v 78 32

/-- the extension fields of two messages agree -/
def SameFCE (a b : AcceptSMCDv2) : Prop :=
  a.rsv4 = b.rsv4 ∧ a.OSType = b.OSType ∧ a.Release = b.Release ∧ a.rsv5 = b.rsv5 ∧ a.Hostname = b.Hostname

/-! Message values as they exist in Go: arrays have their sizes. -/

/-- sizes of the arrays of a header -/
abbrev SizedHeader (h : Header) : Prop := h.Eyecatcher.length = 4
/-- sizes of the arrays of a Decline -/
abbrev SizedDecline (m : Decline) : Prop :=
  SizedHeader m.hdr ∧ m.SenderPeerID.length = 8 ∧ m.rsv.length = 4 ∧ m.trailer.length = 4
/-- sizes of the arrays of a Decline of version 2 -/
abbrev SizedDeclineV2 (m : DeclineV2) : Prop :=
  SizedHeader m.hdr ∧ m.SenderPeerID.length = 8 ∧ m.rsv.length = 4 ∧ m.trailer.length = 4
/-- sizes of the arrays of an SMC-R Accept -/
abbrev SizedSMCR (m : AcceptSMCR) : Prop :=
  SizedHeader m.hdr ∧ m.SenderPeerID.length = 8 ∧ m.trailer.length = 4
/-- sizes of the arrays of an SMC-D Accept -/
abbrev SizedSMCD (m : AcceptSMCD) : Prop :=
  SizedHeader m.hdr ∧ m.rsv2.length = 2 ∧ m.rsv3.length = 12 ∧ m.trailer.length = 4
/-- sizes of the arrays of an SMC-Dv2 Accept -/
abbrev SizedSMCDv2 (m : AcceptSMCDv2) : Prop :=
  SizedHeader m.hdr ∧ m.rsv2.length = 2 ∧ m.EID.length = 32 ∧ m.rsv3.length = 8 ∧ m.rsv5.length = 2 ∧
    m.Hostname.length = 32 ∧ m.trailer.length = 4
/-- sizes of the arrays of a Proposal -/
abbrev SizedProposal (m : Proposal) : Prop :=
  SizedHeader m.hdr ∧ m.SenderPeerID.length = 8 ∧ m.rsv.length = 32 ∧ m.rsv2.length = 2 ∧ m.trailer.length = 4
/-- sizes of the arrays of a Proposal of version 2 -/
abbrev SizedProposalV2 (m : ProposalV2) : Prop :=
  SizedHeader m.hdr ∧ m.SenderPeerID.length = 8 ∧ m.rsv.length = 28 ∧ m.rsv2.length = 2 ∧ m.rsv5.length = 2 ∧
    m.rsv6.length = 32 ∧ m.EIDArea.length = 8 ∧ (∀ x ∈ m.EIDArea, x.length = 32) ∧ m.SEID.length = 32 ∧
    m.rsv7.length = 16 ∧ m.GIDArea.length = 8 ∧ m.trailer.length = 4

/-- sizes of the arrays of a message of any kind -/
def Sized : Message → Prop
  | .proposal m => SizedProposal m
  | .proposalV2 m => SizedProposalV2 m
  | .acceptSMCR m | .confirmSMCR m => SizedSMCR m
  | .acceptSMCD m | .confirmSMCD m => SizedSMCD m
  | .acceptSMCDv2 m | .confirmSMCDv2 m => SizedSMCDv2 m
  | .decline m => SizedDecline m
  | .declineV2 m => SizedDeclineV2 m

end SMC.Spec
