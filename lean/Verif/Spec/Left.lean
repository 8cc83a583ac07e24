import Verif.RoCE
import Verif.CLC.Message
/-!
# What may be left of a message when `Parse` crashes

The fields of the messages in the order in which they are on the wire, each as one `Item`, and the
number of bytes up to the end of each field whose place is fixed.
-/

namespace SMC.Left

/-- the value of a field -/
inductive Item where
  | num (n : Nat)
  | flag (b : Bool)
  | bytes (b : Bytes)
  | areas (l : List Bytes)
  | nums (l : List (List Nat))
deriving DecidableEq, Repr

/-- `short` is what is left of `long` when its end is missing. The same holds for the memory
behind them: a slice of a longer array can be extended up to its capacity. -/
def Part (short long : Slice) : Prop :=
  short.vis <+: long.vis ∧ short.vis ++ short.extra <+: long.vis ++ long.extra

/-- The fields `got` are those of the message that was `old` before and would be `new` if all
`len` bytes and the missing ones had been read: there is one field where reading stopped; the ones before it are as in
`new`, the ones after it are as in `old`. A field that is completely there is as in `new`; `ends` has the ends of the
fields with fixed places. -/
def Left (ends : List Nat) (len : Nat) (old new got : List Item) : Prop :=
  (∃ k : Nat, (∀ n, n < k → got[n]? = new[n]?) ∧ ∀ n, k < n → got[n]? = old[n]?) ∧
  ∀ n e : Nat, ends[n]? = some e → e ≤ len → got[n]? = new[n]?

open Item

/-! ## pkg/llc -/

def rkeyPair (r : LLC.RKeyPair) : List Nat := [r.ReferenceRKey.toNat, r.NewRKey.toNat, r.NewVAddr.toNat]

def rmbSpec (r : LLC.RMBSpec) : List Nat := [r.Link.toNat, r.RKey.toNat, r.VAddr.toNat]

def confirmLink (c : LLC.ConfirmLink) : List Item :=
  [num c.base.Typ, num c.base.Length, num c.res1.toNat, flag c.Reply, num c.res2.toNat, bytes c.SenderMAC, bytes c.SenderGID,
   num c.SenderQP.toNat, num c.Link.toNat, num c.SenderLinkUserID.toNat, num c.MaxLinks.toNat, bytes c.res3]

def confirmLinkEnds : List Nat := [1, 2, 3, 4, 4, 10, 26, 29, 30, 34, 35]

def addLink (a : LLC.AddLink) : List Item :=
  [num a.base.Typ, num a.base.Length, num a.res1.toNat, num a.RsnCode.toNat, flag a.Reply, flag a.Reject, num a.res2.toNat,
   bytes a.SenderMAC, bytes a.res5, bytes a.SenderGID, num a.SenderQP.toNat, num a.Link.toNat, num a.res3.toNat,
   num a.MTU.toNat, num a.PSN.toNat, bytes a.res4]

def addLinkEnds : List Nat := [1, 2, 3, 3, 4, 4, 4, 10, 12, 28, 31, 32, 33, 33, 36]

def addLinkCont (a : LLC.AddLinkCont) : List Item :=
  [num a.base.Typ, num a.base.Length, num a.res1.toNat, flag a.Reply, num a.res2.toNat, num a.Link.toNat, num a.NumRTokens.toNat,
   bytes a.res3, nums (a.RKeyPairs.map rkeyPair), bytes a.res4]

def addLinkContEnds : List Nat := [1, 2, 3, 4, 4, 5, 6, 8]

def deleteLink (d : LLC.DeleteLink) : List Item :=
  [num d.base.Typ, num d.base.Length, num d.res1.toNat, flag d.Reply, flag d.All, flag d.Orderly, num d.res2.toNat,
   num d.Link.toNat, num d.RsnCode.toNat, bytes d.res3]

def deleteLinkEnds : List Nat := [1, 2, 3, 4, 4, 4, 4, 5, 9]

def confirmRKey (c : LLC.ConfirmRKey) : List Item :=
  [num c.base.Typ, num c.base.Length, num c.res1.toNat, flag c.Reply, num c.res2.toNat, flag c.Reject, flag c.Retry,
   num c.res3.toNat, num c.NumTkns.toNat, num c.RKey.toNat, num c.VAddr.toNat, nums (c.OtherRMBs.map rmbSpec), num c.res4.toNat]

def confirmRKeyEnds : List Nat := [1, 2, 3, 4, 4, 4, 4, 4, 5, 9, 17]

def confirmRKeyCont (c : LLC.ConfirmRKeyCont) : List Item :=
  [num c.base.Typ, num c.base.Length, num c.res1.toNat, flag c.Reply, num c.res2.toNat, flag c.Reject, num c.res3.toNat,
   num c.NumTkns.toNat, nums (c.OtherRMBs.map rmbSpec), num c.res4.toNat]

def confirmRKeyContEnds : List Nat := [1, 2, 3, 4, 4, 4, 4, 5]

def deleteRKey (d : LLC.DeleteRKey) : List Item :=
  [num d.base.Typ, num d.base.Length, num d.res1.toNat, flag d.reply, num d.res2.toNat, flag d.reject, num d.res3.toNat,
   num d.count.toNat, num d.errorMask.toNat, bytes d.res4, nums (d.rkeys.map fun r => [r.toNat]), bytes d.res5]

def deleteRKeyEnds : List Nat := [1, 2, 3, 4, 4, 4, 4, 5, 6, 8]

def testLink (t : LLC.TestLink) : List Item :=
  [num t.base.Typ, num t.base.Length, num t.res1.toNat, flag t.Reply, num t.res2.toNat, bytes t.UserData, bytes t.res3]

def testLinkEnds : List Nat := [1, 2, 3, 4, 4, 20]

def cdc (c : LLC.CDC) : List Item :=
  [num c.base.Typ, num c.base.Length, num c.SeqNum.toNat, num c.AlertTkn.toNat, bytes c.res1, num c.ProdWrap.toNat,
   num c.ProdCurs.toNat, bytes c.res2, num c.ConsWrap.toNat, num c.ConsCurs.toNat, flag c.B, flag c.P, flag c.U, flag c.R,
   flag c.F, num c.res3.toNat, flag c.D, flag c.C, flag c.A, bytes c.res4]

def cdcEnds : List Nat := [1, 2, 4, 8, 10, 12, 16, 18, 20, 24, 25, 25, 25, 25, 25, 25, 26, 26, 26]

/-! ## pkg/roce -/

def bth (b : RoCE.BTH) : List Item :=
  [num b.Opcode.toNat, flag b.SE, flag b.M, num b.Pad.toNat, num b.TVer.toNat, num b.PKey.toNat, flag b.FECN, flag b.BECN,
   num b.res1.toNat, num b.DestQP.toNat, flag b.A, num b.res2.toNat, num b.PSN.toNat]

def bthEnds : List Nat := [1, 2, 2, 2, 2, 4, 5, 5, 5, 8, 9, 9, 12]

/-! ## pkg/clc

The first bits of the reserved bytes of a Decline are the type of the operating system in a Decline of version 2: these
two fields are one item. -/

def header (h : CLC.Header) : List Item :=
  [bytes h.Eyecatcher, num h.Typ.toNat, num h.Length.toNat, num h.Version.toNat, num h.Flag.toNat, num h.rsv.toNat,
   num h.Pathv2.toNat, num h.Path.toNat]

def headerEnds : List Nat := [4, 5, 7, 8, 8, 8, 8, 8]

def decline (d : CLC.Decline) : List Item :=
  header d.hdr ++ [bytes d.SenderPeerID, num d.PeerDiagnosis.toNat, bytes (d.OSType :: d.rsv), bytes d.trailer]

def declineEnds : List Nat := headerEnds ++ [16, 20, 24]

def declineV2 (d : CLC.DeclineV2) : List Item :=
  header d.hdr ++ [bytes d.SenderPeerID, num d.PeerDiagnosis.toNat, bytes (d.OSType :: d.rsv), bytes d.trailer]

def acceptSMCR (a : CLC.AcceptSMCR) : List Item :=
  header a.hdr ++ [bytes a.SenderPeerID, bytes a.IBGID, bytes a.IBMAC, num a.QPN, num a.RMBRKey.toNat, num a.RMBEIdx.toNat,
    num a.RMBEAlertToken.toNat, num a.RMBESize.toNat, num a.QPMTU.toNat, num a.rsv.toNat, num a.RMBDMAAddr.toNat,
    num a.rsv2.toNat, num a.PSN, bytes a.trailer]

def acceptSMCREnds : List Nat := headerEnds ++ [16, 32, 38, 41, 45, 46, 50, 51, 51, 52, 60, 61, 64]

def acceptSMCD (a : CLC.AcceptSMCD) : List Item :=
  header a.hdr ++ [num a.GID.toNat, num a.Token.toNat, num a.DMBEIdx.toNat, num a.DMBESize.toNat, num a.rsv.toNat,
    bytes a.rsv2, num a.LinkID.toNat, bytes a.rsv3, bytes a.trailer]

def acceptSMCDEnds : List Nat := headerEnds ++ [16, 24, 25, 26, 26, 28, 32, 44]

/-- Only the header is read when the buffer is too short for the message, so only its fields have places here. -/
def acceptSMCDv2 (a : CLC.AcceptSMCDv2) : List Item :=
  header a.hdr ++ [num a.GID.toNat, num a.Token.toNat, num a.DMBEIdx.toNat, num a.DMBESize.toNat, num a.rsv.toNat,
    bytes a.rsv2, num a.LinkID.toNat, num a.ISMv2VCHID.toNat, bytes a.EID, bytes a.rsv3, num a.rsv4.toNat,
    num a.OSType.toNat, num a.Release.toNat, bytes a.rsv5, bytes a.Hostname, bytes a.trailer]

def prefixes (ps : List CLC.IPv6Prefix) : Item := areas (ps.map fun p => p.pfx ++ [p.prefixLen])

def proposal (p : CLC.Proposal) : List Item :=
  header p.hdr ++ [bytes p.SenderPeerID, bytes p.IBGID, bytes p.IBMAC, num p.IPAreaOffset.toNat, num p.SMCDGID.toNat,
    bytes p.rsv, bytes p.Prefix, num p.PrefixLen.toNat, bytes p.rsv2, num p.IPv6PrefixesCnt.toNat, prefixes p.IPv6Prefixes,
    bytes p.trailer]

def proposalEnds : List Nat := headerEnds ++ [16, 32, 38, 40]

def proposalV2 (p : CLC.ProposalV2) : List Item :=
  header p.hdr ++ [bytes p.SenderPeerID, bytes p.IBGID, bytes p.IBMAC, num p.IPAreaOffset.toNat, num p.SMCDGID.toNat,
    num p.ISMv2VCHID.toNat, num p.SMCv2Offset.toNat, bytes p.rsv, bytes p.Prefix, num p.PrefixLen.toNat, bytes p.rsv2,
    num p.IPv6PrefixesCnt.toNat, prefixes p.IPv6Prefixes, num p.EIDNumber.toNat, num p.GIDNumber.toNat, num p.rsv3.toNat,
    num p.Release.toNat, num p.rsv4.toNat, num p.SEIDInd.toNat, bytes p.rsv5, num p.SMCDv2Off.toNat, bytes p.rsv6,
    areas p.EIDArea, bytes p.SEID, bytes p.rsv7, nums (p.GIDArea.map fun g => [g.GID.toNat, g.VCHID.toNat]),
    bytes p.trailer]

def proposalV2Ends : List Nat := headerEnds ++ [16, 32, 38, 40, 48, 50, 52, 80]

end SMC.Left
