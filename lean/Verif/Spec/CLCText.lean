import Verif.Spec.Message
/-!
# What the texts of CLC messages are meant to show
-/

namespace SMC.Spec

open CLC

/-- `t` is the text of the EID `e`: the bytes before the first NUL byte, or all if there is
none, are `t` and blanks, and `t` does not end with a blank. -/
structure EIDText (e t : Bytes) : Prop where
  split : ∃ n rest, e = t ++ List.replicate n 32 ++ rest ∧ (rest = [] ∨ ∃ r, rest = 0 :: r)
  noNul : 0 ∉ t
  trimmed : t.getLast? ≠ some 32

/-- the diagnosis codes of a Decline and their descriptions -/
def diagnoses : List (Nat × Bytes) :=
  [(0x01010000, go! "insufficient memory resources"),
   (0x02010000, go! "timeout w4 QP confirm link"),
   (0x02020000, go! "timeout w4 QP add link"),
   (0x03000000, go! "configuration error"),
   (0x03010000, go! "peer did not indicate SMC"),
   (0x03020000, go! "IPsec usage"),
   (0x03030000, go! "no SMC device found (R or D)"),
   (0x03030001, go! "no SMC-D device found"),
   (0x03030002, go! "no SMC-R device found"),
   (0x03030003, go! "hardware has no ISMv2 support"),
   (0x03030004, go! "peer sent no clc v2 extension"),
   (0x03030005, go! "peer sent no clc SMC-Dv2 ext."),
   (0x03030006, go! "peer sent no SEID"),
   (0x03030007, go! "no SMC-Dv2 device found"),
   (0x03040000, go! "smc modes do not match (R or D)"),
   (0x03050000, go! "peer has eyecatcher in RMBE"),
   (0x03060000, go! "fastopen sockopt not supported"),
   (0x03070000, go! "IP prefix / subnet mismatch"),
   (0x03080000, go! "err to get vlan id of ip device"),
   (0x03090000, go! "err to reg vlan id on ism dev"),
   (0x030a0000, go! "no active smc-r link in lgr"),
   (0x030b0000, go! "SMC-R link from srv not found"),
   (0x030c0000, go! "SMC version mismatch"),
   (0x030d0000, go! "SMC-D DMB limit exceeded"),
   (0x04000000, go! "synchronization error"),
   (0x05000000, go! "peer declined during handshake"),
   (0x09990000, go! "internal error"),
   (0x09990001, go! "rtoken handling failed"),
   (0x09990002, go! "ib ready link failed"),
   (0x09990003, go! "reg rmb failed")]

/-- the message without its raw bytes and its reserved fields -/
def noReserved : Message → Message
  | .proposal m => .proposal { m with raw := ⟨[], []⟩, hdr.rsv := 0, rsv := [], rsv2 := [] }
  | .proposalV2 m => .proposalV2 { m with
      raw := ⟨[], []⟩, hdr.rsv := 0, rsv := [], rsv2 := [], rsv3 := 0, rsv4 := 0, rsv5 := [], rsv6 := [], rsv7 := [] }
  | .acceptSMCR m => .acceptSMCR { m with raw := ⟨[], []⟩, hdr.rsv := 0, rsv := 0, rsv2 := 0 }
  | .acceptSMCD m => .acceptSMCD { m with raw := ⟨[], []⟩, hdr.rsv := 0, rsv := 0, rsv2 := [], rsv3 := [] }
  | .acceptSMCDv2 m => .acceptSMCDv2 { m with
      raw := ⟨[], []⟩, hdr.rsv := 0, rsv := 0, rsv2 := [], rsv3 := [], rsv4 := 0, rsv5 := [] }
  | .confirmSMCR m => .confirmSMCR { m with raw := ⟨[], []⟩, hdr.rsv := 0, rsv := 0, rsv2 := 0 }
  | .confirmSMCD m => .confirmSMCD { m with raw := ⟨[], []⟩, hdr.rsv := 0, rsv := 0, rsv2 := [], rsv3 := [] }
  | .confirmSMCDv2 m => .confirmSMCDv2 { m with
      raw := ⟨[], []⟩, hdr.rsv := 0, rsv := 0, rsv2 := [], rsv3 := [], rsv4 := 0, rsv5 := [] }
  | .decline m => .decline { m with raw := ⟨[], []⟩, hdr.rsv := 0, rsv := [] }
  | .declineV2 m => .declineV2 { m with raw := ⟨[], []⟩, hdr.rsv := 0, rsv := [] }

/-- the fields of a header that its message type has: Proposals of version 2 have a v2 path
where all others have a flag -/
def hdrFields (h : Header) : Header :=
  if h.Typ = 1 ∧ h.Version = 2 then { h with Flag := 0 } else { h with Pathv2 := 0 }

/-- the fields that the message really has: without raw bytes, reserved fields and the fields
of parts that are absent -/
def present : Message → Message
  | .proposal m => noReserved (.proposal { m with
      hdr := hdrFields m.hdr, SMCDGID := if m.IPAreaOffset.toNat = 40 then m.SMCDGID else 0 })
  | .proposalV2 m => noReserved (.proposalV2 { m with
      hdr := hdrFields m.hdr
      Prefix := if m.hdr.Path = 2 then [] else m.Prefix
      PrefixLen := if m.hdr.Path = 2 then 0 else m.PrefixLen
      IPv6PrefixesCnt := if m.hdr.Path = 2 then 0 else m.IPv6PrefixesCnt
      IPv6Prefixes := if m.hdr.Path = 2 then [] else m.IPv6Prefixes
      EIDNumber := if m.hdr.Pathv2 = 2 then 0 else m.EIDNumber
      GIDNumber := if m.hdr.Pathv2 = 2 then 0 else m.GIDNumber
      Release := if m.hdr.Pathv2 = 2 then 0 else m.Release
      SEIDInd := if m.hdr.Pathv2 = 2 then 0 else m.SEIDInd
      SMCDv2Off := if m.hdr.Pathv2 = 2 then 0 else m.SMCDv2Off
      EIDArea := if m.hdr.Pathv2 = 2 then [] else m.EIDArea.take m.EIDNumber.toNat
      SEID := if m.hdr.Pathv2 = 1 ∨ m.hdr.Pathv2 = 3 then m.SEID else []
      GIDArea := if m.hdr.Pathv2 = 1 ∨ m.hdr.Pathv2 = 3 then m.GIDArea.take m.GIDNumber.toNat else [] })
  | .acceptSMCR m => noReserved (.acceptSMCR { m with hdr := hdrFields m.hdr })
  | .acceptSMCD m => noReserved (.acceptSMCD { m with hdr := hdrFields m.hdr })
  | .acceptSMCDv2 m => noReserved (.acceptSMCDv2 { m with
      hdr := hdrFields m.hdr
      OSType := if m.hdr.Length.toNat < 114 then 0 else m.OSType
      Release := if m.hdr.Length.toNat < 114 then 0 else m.Release
      Hostname := if m.hdr.Length.toNat < 114 then [] else m.Hostname })
  | .confirmSMCR m => noReserved (.confirmSMCR { m with hdr := hdrFields m.hdr })
  | .confirmSMCD m => noReserved (.confirmSMCD { m with hdr := hdrFields m.hdr })
  | .confirmSMCDv2 m => noReserved (.confirmSMCDv2 { m with
      hdr := hdrFields m.hdr
      OSType := if m.hdr.Length.toNat < 114 then 0 else m.OSType
      Release := if m.hdr.Length.toNat < 114 then 0 else m.Release
      Hostname := if m.hdr.Length.toNat < 114 then [] else m.Hostname })
  | .decline m => noReserved (.decline { m with hdr := hdrFields m.hdr, OSType := 0 })
  | .declineV2 m => noReserved (.declineV2 { m with hdr := hdrFields m.hdr })

/-- the message with its EIDs and its host name replaced by their texts -/
def eidTexts (f : Bytes → Bytes) : Message → Message
  | .proposalV2 m => .proposalV2 { m with EIDArea := m.EIDArea.map f, SEID := f m.SEID }
  | .acceptSMCDv2 m => .acceptSMCDv2 { m with EID := f m.EID, Hostname := f m.Hostname }
  | .confirmSMCDv2 m => .confirmSMCDv2 { m with EID := f m.EID, Hostname := f m.Hostname }
  | m => m

/-- a header as parsed from a message with eyecatcher -/
structure PlainHeader (h : Header) : Prop where
  eye : IsEye h.Eyecatcher
  path : h.Path.toNat < 4
  pathv2 : h.Pathv2.toNat < 4

/-- IPv6 prefixes as parsed -/
def PlainPrefixes (ps : List IPv6Prefix) : Prop := ∀ p ∈ ps, p.pfx.length = 16

/-- a message as it is after `Parse` of an accepted message with trailer -/
def Plain : Message → Prop
  | .proposal m => PlainHeader m.hdr ∧ m.SenderPeerID.length = 8 ∧ m.IBGID.length = 16 ∧ m.Prefix.length = 4 ∧
      PlainPrefixes m.IPv6Prefixes ∧ IsEye m.trailer
  | .proposalV2 m => PlainHeader m.hdr ∧ m.SenderPeerID.length = 8 ∧ m.IBGID.length = 16 ∧
      (m.hdr.Path ≠ 2 → m.Prefix.length = 4) ∧ PlainPrefixes m.IPv6Prefixes ∧ m.EIDArea.length = 8 ∧
      m.GIDArea.length = 8 ∧ IsEye m.trailer ∧ m.hdr.Typ = 1 ∧ m.hdr.Version = 2
  | .acceptSMCR m | .confirmSMCR m => PlainHeader m.hdr ∧ m.SenderPeerID.length = 8 ∧ m.IBGID.length = 16 ∧ IsEye m.trailer
  | .acceptSMCD m | .confirmSMCD m => PlainHeader m.hdr ∧ IsEye m.trailer
  | .acceptSMCDv2 m | .confirmSMCDv2 m => PlainHeader m.hdr ∧ IsEye m.trailer
  | .decline m => PlainHeader m.hdr ∧ m.SenderPeerID.length = 8 ∧ IsEye m.trailer
  | .declineV2 m => PlainHeader m.hdr ∧ m.SenderPeerID.length = 8 ∧ IsEye m.trailer

/-- no EID text contains a comma or closing bracket -/
def CleanEIDs (f : Bytes → Bytes) : Message → Prop
  | .proposalV2 m => (∀ e ∈ m.EIDArea, 44 ∉ f e ∧ 93 ∉ f e) ∧ 44 ∉ f m.SEID
  | .acceptSMCDv2 m | .confirmSMCDv2 m => 44 ∉ f m.EID ∧ 44 ∉ f m.Hostname
  | _ => True

end SMC.Spec
