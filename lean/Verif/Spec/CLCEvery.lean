import Verif.Spec.CLCText
/-!
# What the texts of CLC messages with reserved fields are meant to show
-/

namespace SMC.Spec

open CLC

/-- the fields of a header that its message type has: where all others have a flag and a
reserved bit, Proposals of version 2 have a v2 path -/
def hdrEvery (h : Header) : Header :=
  if h.Typ = 1 ∧ h.Version = 2 then { h with Flag := 0, rsv := 0 } else { h with Pathv2 := 0 }

/-- the fields that an SMC-Dv2 message really has -/
def everySMCDv2 (m : AcceptSMCDv2) : AcceptSMCDv2 :=
  if m.hdr.Length.toNat < 114 then
    { m with raw := ⟨[], []⟩, hdr := hdrEvery m.hdr, rsv4 := 0, OSType := 0, Release := 0, rsv5 := [], Hostname := [] }
  else { m with raw := ⟨[], []⟩, hdr := hdrEvery m.hdr }

/-- the fields that the message really has, reserved ones included: without raw bytes and the
fields of parts that are absent -/
def every : Message → Message
  | .proposal m => .proposal { m with
      raw := ⟨[], []⟩, hdr := hdrEvery m.hdr
      SMCDGID := if m.IPAreaOffset.toNat = 40 then m.SMCDGID else 0
      rsv := if m.IPAreaOffset.toNat = 40 then m.rsv else [] }
  | .proposalV2 m => .proposalV2 { m with
      raw := ⟨[], []⟩, hdr := hdrEvery m.hdr
      Prefix := if m.hdr.Path = 2 then [] else m.Prefix
      PrefixLen := if m.hdr.Path = 2 then 0 else m.PrefixLen
      rsv2 := if m.hdr.Path = 2 then [] else m.rsv2
      IPv6PrefixesCnt := if m.hdr.Path = 2 then 0 else m.IPv6PrefixesCnt
      IPv6Prefixes := if m.hdr.Path = 2 then [] else m.IPv6Prefixes
      EIDNumber := if m.hdr.Pathv2 = 2 then 0 else m.EIDNumber
      GIDNumber := if m.hdr.Pathv2 = 2 then 0 else m.GIDNumber
      rsv3 := if m.hdr.Pathv2 = 2 then 0 else m.rsv3
      Release := if m.hdr.Pathv2 = 2 then 0 else m.Release
      rsv4 := if m.hdr.Pathv2 = 2 then 0 else m.rsv4
      SEIDInd := if m.hdr.Pathv2 = 2 then 0 else m.SEIDInd
      rsv5 := if m.hdr.Pathv2 = 2 then [] else m.rsv5
      SMCDv2Off := if m.hdr.Pathv2 = 2 then 0 else m.SMCDv2Off
      rsv6 := if m.hdr.Pathv2 = 2 then [] else m.rsv6
      EIDArea := if m.hdr.Pathv2 = 2 then [] else m.EIDArea.take m.EIDNumber.toNat
      SEID := if m.hdr.Pathv2 = 1 ∨ m.hdr.Pathv2 = 3 then m.SEID else []
      rsv7 := if m.hdr.Pathv2 = 1 ∨ m.hdr.Pathv2 = 3 then m.rsv7 else []
      GIDArea := if m.hdr.Pathv2 = 1 ∨ m.hdr.Pathv2 = 3 then m.GIDArea.take m.GIDNumber.toNat else [] }
  | .acceptSMCR m => .acceptSMCR { m with raw := ⟨[], []⟩, hdr := hdrEvery m.hdr }
  | .confirmSMCR m => .confirmSMCR { m with raw := ⟨[], []⟩, hdr := hdrEvery m.hdr }
  | .acceptSMCD m => .acceptSMCD { m with raw := ⟨[], []⟩, hdr := hdrEvery m.hdr }
  | .confirmSMCD m => .confirmSMCD { m with raw := ⟨[], []⟩, hdr := hdrEvery m.hdr }
  | .acceptSMCDv2 m => .acceptSMCDv2 (everySMCDv2 m)
  | .confirmSMCDv2 m => .confirmSMCDv2 (everySMCDv2 m)
  | .decline m => .decline { m with raw := ⟨[], []⟩, hdr := hdrEvery m.hdr, OSType := 0 }
  | .declineV2 m => .declineV2 { m with raw := ⟨[], []⟩, hdr := hdrEvery m.hdr }

/-- no NUL bytes in the EIDs and the host name that the message really has -/
def FullEIDs : Message → Prop
  | .proposalV2 m => (m.hdr.Pathv2 ≠ 2 → ∀ e ∈ m.EIDArea.take m.EIDNumber.toNat, 0 ∉ e) ∧
      (m.hdr.Pathv2 = 1 ∨ m.hdr.Pathv2 = 3 → 0 ∉ m.SEID)
  | .acceptSMCDv2 m | .confirmSMCDv2 m => 0 ∉ m.EID ∧ (¬ m.hdr.Length.toNat < 114 → 0 ∉ m.Hostname)
  | _ => True

end SMC.Spec
