import Verif.Spec.CLC
/-!
# Specification of Proposal messages

Positions of the variable parts, computed from the bytes of the message.
-/

namespace SMC.Spec

open CLC

/-- how many of `n` entries of `w` bytes that start at position `k` end before the trailer of
a message of `L` bytes -/
def entries (L k w n : Nat) : Nat := min n ((L - 4 - k) / w)

/-- the fields of a Proposal before its SMC-D info -/
structure WireProposal (v : Bytes) (m : Proposal) : Prop where
  hdr : WireHeader v m.hdr
  rawBytes : m.raw.vis = v
  peerID : m.SenderPeerID = raw v 8 8
  gid : m.IBGID = raw v 16 16
  mac : m.IBMAC = raw v 32 6
  offset : m.IPAreaOffset.toNat = num v 38 0 16

/-- the SMC-D info of a Proposal -/
structure WireProposalSMCD (v : Bytes) (m : Proposal) : Prop where
  gid : m.SMCDGID.toNat = num v 40 0 64
  rsv : m.rsv = raw v 48 32

/-- the position of the IP area of a Proposal -/
def ipAreaAt (v : Bytes) : Nat := 40 + num v 38 0 16

/-- the IP area of a Proposal starting at `k`, without its IPv6 prefixes -/
structure WireIPArea (v : Bytes) (k : Nat) (m : Proposal) : Prop where
  pfx : m.Prefix = raw v k 4
  pfxLen : m.PrefixLen.toNat = num v (k + 4) 0 8
  rsv2 : m.rsv2 = raw v (k + 5) 2
  count : m.IPv6PrefixesCnt.toNat = num v (k + 7) 0 8

/-- the IPv6 prefix whose 17 bytes start at `k` -/
structure WirePrefix (v : Bytes) (k : Nat) (q : IPv6Prefix) : Prop where
  pfx : q.pfx = raw v k 16
  len : q.prefixLen.toNat = num v (k + 16) 0 8

/-- `new` is `old` followed by the `n` prefixes that start at `k` -/
structure Prefixes (v : Bytes) (k n : Nat) (old new : List IPv6Prefix) : Prop where
  length : new.length = old.length + n
  kept : ∀ i, i < old.length → new[i]? = old[i]?
  entry : ∀ i, i < n → ∃ q, new[old.length + i]? = some q ∧ WirePrefix v (k + 17 * i) q

/-! ## Version 2 -/

/-- there is an IP area -/
abbrev HasIP (v : Bytes) : Prop := pathOf v ≠ 2
/-- there is a v2 extension -/
abbrev HasExt (v : Bytes) : Prop := pathv2Of v ≠ 2
/-- there is an SMC-D v2 extension -/
abbrev HasSMCD (v : Bytes) : Prop := pathv2Of v = 1 ∨ pathv2Of v = 3

/-- the number of IPv6 prefixes in the message -/
def pfxCount (v : Bytes) : Nat := entries (declared v) 88 17 (num v 87 0 8)
/-- the position of the v2 extension, directly behind the IP area if there is one -/
def extAt (v : Bytes) : Nat := if pathOf v = 2 then 80 else 88 + 17 * pfxCount v
/-- the number of EIDs in the message -/
def eidCount (v : Bytes) : Nat := entries (declared v) (extAt v + 40) 32 (num v (extAt v) 0 8)
/-- the position of the SMC-D extension, directly behind the v2 extension if there is one -/
def smcdAt (v : Bytes) : Nat := if pathv2Of v = 2 then extAt v else extAt v + 40 + 32 * eidCount v
/-- the number of GIDs in the message -/
def gidCount (v : Bytes) : Nat := entries (declared v) (smcdAt v + 48) 10 (num v (extAt v + 1) 0 8)

/-- the IP area, if any, has room -/
abbrev RoomIP (v : Bytes) : Prop := HasIP v → 92 ≤ declared v
/-- the v2 extension, if any, has room -/
abbrev RoomExt (v : Bytes) : Prop := HasExt v → extAt v + 44 ≤ declared v
/-- the SMC-D v2 extension, if any, has room -/
abbrev RoomSMCD (v : Bytes) : Prop := HasSMCD v → smcdAt v + 52 ≤ declared v

/-- the fields of a Proposal of version 2 before its variable parts -/
structure WireV2 (v : Bytes) (m : ProposalV2) : Prop where
  hdr : WireHeader v m.hdr
  rawBytes : m.raw.vis = v
  peerID : m.SenderPeerID = raw v 8 8
  gid : m.IBGID = raw v 16 16
  mac : m.IBMAC = raw v 32 6
  offset : m.IPAreaOffset.toNat = num v 38 0 16
  smcdGID : m.SMCDGID.toNat = num v 40 0 64
  vchid : m.ISMv2VCHID.toNat = num v 48 0 16
  v2Offset : m.SMCv2Offset.toNat = num v 50 0 16
  rsv : m.rsv = raw v 52 28

/-- the IP area starting at `k`, without its IPv6 prefixes -/
structure WireV2IP (v : Bytes) (k : Nat) (m : ProposalV2) : Prop where
  pfx : m.Prefix = raw v k 4
  pfxLen : m.PrefixLen.toNat = num v (k + 4) 0 8
  rsv2 : m.rsv2 = raw v (k + 5) 2
  count : m.IPv6PrefixesCnt.toNat = num v (k + 7) 0 8

/-- the v2 extension starting at `k`, without its EIDs -/
structure WireV2Ext (v : Bytes) (k : Nat) (m : ProposalV2) : Prop where
  eidNumber : m.EIDNumber.toNat = num v k 0 8
  gidNumber : m.GIDNumber.toNat = num v (k + 1) 0 8
  rsv3 : m.rsv3.toNat = num v (k + 2) 0 8
  release : m.Release.toNat = num v (k + 3) 0 4
  rsv4 : m.rsv4.toNat = num v (k + 3) 4 3
  seidInd : m.SEIDInd.toNat = num v (k + 3) 7 1
  rsv5 : m.rsv5 = raw v (k + 4) 2
  smcdOffset : m.SMCDv2Off.toNat = num v (k + 6) 0 16
  rsv6 : m.rsv6 = raw v (k + 8) 32

/-- the SMC-D v2 extension starting at `k`, without its GIDs -/
structure WireV2SMCD (v : Bytes) (k : Nat) (m : ProposalV2) : Prop where
  seid : m.SEID = raw v k 32
  rsv7 : m.rsv7 = raw v (k + 32) 16

/-- `new` is `old` with the first `n` of its EIDs replaced by those that start at `k` -/
structure EIDs (v : Bytes) (k n : Nat) (old new : List Bytes) : Prop where
  length : new.length = old.length
  entry : ∀ i, i < n → new[i]? = some (raw v (k + 32 * i) 32)
  kept : ∀ i, n ≤ i → new[i]? = old[i]?

/-- the GID whose ten bytes start at `k` -/
structure WireGID (v : Bytes) (k : Nat) (g : GIDEntry) : Prop where
  gid : g.GID.toNat = num v k 0 64
  vchid : g.VCHID.toNat = num v (k + 8) 0 16

/-- `new` is `old` with the first `n` of its GIDs replaced by those that start at `k` -/
structure GIDs (v : Bytes) (k n : Nat) (old new : List GIDEntry) : Prop where
  length : new.length = old.length
  entry : ∀ i, i < n → ∃ g, new[i]? = some g ∧ WireGID v (k + 10 * i) g
  kept : ∀ i, n ≤ i → new[i]? = old[i]?

/-- the IP areas of two messages agree -/
def SameIP (a b : ProposalV2) : Prop :=
  a.Prefix = b.Prefix ∧ a.PrefixLen = b.PrefixLen ∧ a.rsv2 = b.rsv2 ∧ a.IPv6PrefixesCnt = b.IPv6PrefixesCnt ∧
    a.IPv6Prefixes = b.IPv6Prefixes
/-- the v2 extensions of two messages agree -/
def SameExt (a b : ProposalV2) : Prop :=
  a.EIDNumber = b.EIDNumber ∧ a.GIDNumber = b.GIDNumber ∧ a.rsv3 = b.rsv3 ∧ a.Release = b.Release ∧ a.rsv4 = b.rsv4 ∧
    a.SEIDInd = b.SEIDInd ∧ a.rsv5 = b.rsv5 ∧ a.SMCDv2Off = b.SMCDv2Off ∧ a.rsv6 = b.rsv6 ∧ a.EIDArea = b.EIDArea
/-- the SMC-D v2 extensions of two messages agree -/
def SameSMCD (a b : ProposalV2) : Prop :=
  a.SEID = b.SEID ∧ a.rsv7 = b.rsv7 ∧ a.GIDArea = b.GIDArea

/-! Tests of the specification: path N, v2 path D, one EID and one GID in 80+40+32+48+10+4
bytes. -/

#guard
  let v : Bytes := hex! "e2 d4 c3 c4 01 00 d6 26" ++ zeros 72 ++ [1, 1] ++ zeros 132
  declared v = 214 ∧ extAt v = 80 ∧ eidCount v = 1 ∧ smcdAt v = 152 ∧ gidCount v = 1 ∧
    HasSMCD v ∧ RoomExt v ∧ RoomSMCD v ∧ RoomIP v

end SMC.Spec
