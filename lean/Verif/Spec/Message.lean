import Verif.Spec.Proposal
import Verif.Spec.Dump
/-!
# Specification of CLC messages of any kind
-/

namespace SMC.Spec

open CLC

/-- the message with its raw bytes and header replaced -/
def withRawHdr : Message → Slice → Header → Message
  | .proposal m, s, h => .proposal { m with raw := s, hdr := h }
  | .proposalV2 m, s, h => .proposalV2 { m with raw := s, hdr := h }
  | .acceptSMCR m, s, h => .acceptSMCR { m with raw := s, hdr := h }
  | .acceptSMCD m, s, h => .acceptSMCD { m with raw := s, hdr := h }
  | .acceptSMCDv2 m, s, h => .acceptSMCDv2 { m with raw := s, hdr := h }
  | .confirmSMCR m, s, h => .confirmSMCR { m with raw := s, hdr := h }
  | .confirmSMCD m, s, h => .confirmSMCD { m with raw := s, hdr := h }
  | .confirmSMCDv2 m, s, h => .confirmSMCDv2 { m with raw := s, hdr := h }
  | .decline m, s, h => .decline { m with raw := s, hdr := h }
  | .declineV2 m, s, h => .declineV2 { m with raw := s, hdr := h }

/-- the message without its raw bytes and trailer -/
def core : Message → Message
  | .proposal m => .proposal { m with raw := ⟨[], []⟩, trailer := [] }
  | .proposalV2 m => .proposalV2 { m with raw := ⟨[], []⟩, trailer := [] }
  | .acceptSMCR m => .acceptSMCR { m with raw := ⟨[], []⟩, trailer := [] }
  | .acceptSMCD m => .acceptSMCD { m with raw := ⟨[], []⟩, trailer := [] }
  | .acceptSMCDv2 m => .acceptSMCDv2 { m with raw := ⟨[], []⟩, trailer := [] }
  | .confirmSMCR m => .confirmSMCR { m with raw := ⟨[], []⟩, trailer := [] }
  | .confirmSMCD m => .confirmSMCD { m with raw := ⟨[], []⟩, trailer := [] }
  | .confirmSMCDv2 m => .confirmSMCDv2 { m with raw := ⟨[], []⟩, trailer := [] }
  | .decline m => .decline { m with raw := ⟨[], []⟩, trailer := [] }
  | .declineV2 m => .declineV2 { m with raw := ⟨[], []⟩, trailer := [] }

/-- the error text for a message of a kind that declares less than its minimum; Accept and
Confirm are told apart by the type in the header -/
def tooShort (k : CLCKind) (typ : Nat) : Bytes :=
  match k with
  | .proposal => go! "Error parsing CLC Proposal: message too short"
  | .proposalV2 => go! "Error parsing CLC Proposal v2: message too short"
  | .acceptSMCDv2 | .confirmSMCDv2 =>
    if typ = 3 then go! "Error parsing SMC-Dv2 CLC Confirm: message too short"
    else go! "Error parsing SMC-Dv2 CLC Accept: message too short"
  | .acceptSMCR | .confirmSMCR | .acceptSMCD | .confirmSMCD =>
    if typ = 3 then go! "Error parsing CLC Confirm: message too short"
    else go! "Error parsing CLC Accept: message too short"
  | .decline | .declineV2 => go! "Error parsing CLC Decline: message too short"

/-- the message is long enough for its kind and everything in it that is not counted has room -/
def Accepted (k : CLCKind) (v : Bytes) : Prop :=
  minLen k ≤ declared v ∧
  match k with
  | .proposal => ipAreaAt v + 12 ≤ declared v
  | .proposalV2 => RoomIP v ∧ RoomExt v ∧ RoomSMCD v
  | _ => True

/-- all announced entries are in the message -/
def AllDecoded (k : CLCKind) (v : Bytes) : Prop :=
  match k with
  | .proposal =>
    entries (declared v) (ipAreaAt v + 8) 17 (num v (ipAreaAt v + 7) 0 8) = num v (ipAreaAt v + 7) 0 8
  | .proposalV2 =>
    (HasIP v → pfxCount v = num v 87 0 8) ∧ (HasExt v → eidCount v = num v (extAt v) 0 8) ∧
      (HasSMCD v → gidCount v = num v (extAt v + 1) 0 8)
  | _ => True

/-- the complete messages that make `Parse` panic, depending on the capacity of the buffer -/
def Crashes (k : CLCKind) (v : Bytes) (cap : Nat) : Prop :=
  match k with
  | .proposal => 52 ≤ declared v ∧ num v 38 0 16 = 40 ∧ cap < 80
  | .proposalV2 => 84 ≤ declared v ∧ RoomIP v ∧ HasExt v ∧ RoomExt v ∧
      (8 < eidCount v ∨ (HasSMCD v ∧ RoomSMCD v ∧ 8 < gidCount v))
  | _ => False

/-- the last four bytes of a byte string -/
def lastFour (v : Bytes) : Bytes := v.drop (v.length - 4)

end SMC.Spec
