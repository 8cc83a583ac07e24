import Verif.CLC.ProposalV2
/-!
# Model of pkg/clc: messages of any kind
-/

namespace SMC.CLC

/-- pkg/clc/message.go:14-20 `Message`: the dynamic types of the interface. The Confirm types
(pkg/clc/clc_confirm_smcr.go:3-7, clc_confirm_smcd.go:3-7, clc_confirm_smcd_v2.go:3-7) embed the
Accept ones. -/
inductive Message where
  | proposal (m : Proposal)
  | proposalV2 (m : ProposalV2)
  | acceptSMCR (m : AcceptSMCR)
  | acceptSMCD (m : AcceptSMCD)
  | acceptSMCDv2 (m : AcceptSMCDv2)
  | confirmSMCR (m : AcceptSMCR)
  | confirmSMCD (m : AcceptSMCD)
  | confirmSMCDv2 (m : AcceptSMCDv2)
  | decline (m : Decline)
  | declineV2 (m : DeclineV2)
deriving DecidableEq, Repr

namespace Message

/-- `Parse` of the interface (pkg/clc/message.go:16): dynamic dispatch, promoted methods for
the Confirm types -/
def parse : Message → Slice → Go Message
  | .proposal m, buf => do pure (.proposal (← m.parse buf))
  | .proposalV2 m, buf => do pure (.proposalV2 (← m.parse buf))
  | .acceptSMCR m, buf => do pure (.acceptSMCR (← m.parse buf))
  | .acceptSMCD m, buf => do pure (.acceptSMCD (← m.parse buf))
  | .acceptSMCDv2 m, buf => do pure (.acceptSMCDv2 (← m.parse buf))
  | .confirmSMCR m, buf => do pure (.confirmSMCR (← m.parse buf))
  | .confirmSMCD m, buf => do pure (.confirmSMCD (← m.parse buf))
  | .confirmSMCDv2 m, buf => do pure (.confirmSMCDv2 (← m.parse buf))
  | .decline m, buf => do pure (.decline (← m.parse buf))
  | .declineV2 m, buf => do pure (.declineV2 (← m.parse buf))

/-- `String` of the interface (pkg/clc/message.go:17) -/
def string : Message → Bytes
  | .proposal m => m.string
  | .proposalV2 m => m.string
  | .acceptSMCR m => m.string
  | .acceptSMCD m => m.string
  | .acceptSMCDv2 m => m.string
  | .confirmSMCR m => m.string
  | .confirmSMCD m => m.string
  | .confirmSMCDv2 m => m.string
  | .decline m => m.string
  | .declineV2 m => m.string

/-- `Reserved` of the interface (pkg/clc/message.go:18) -/
def reserved : Message → Bytes
  | .proposal m => m.reserved
  | .proposalV2 m => m.reserved
  | .acceptSMCR m => m.reserved
  | .acceptSMCD m => m.reserved
  | .acceptSMCDv2 m => m.reserved
  | .confirmSMCR m => m.reserved
  | .confirmSMCD m => m.reserved
  | .confirmSMCDv2 m => m.reserved
  | .decline m => m.reserved
  | .declineV2 m => m.reserved

/-- the embedded `Raw` of each message type (line 2 of each struct) -/
def raw : Message → Slice
  | .proposal m => m.raw
  | .proposalV2 m => m.raw
  | .acceptSMCR m => m.raw
  | .acceptSMCD m => m.raw
  | .acceptSMCDv2 m => m.raw
  | .confirmSMCR m => m.raw
  | .confirmSMCD m => m.raw
  | .confirmSMCDv2 m => m.raw
  | .decline m => m.raw
  | .declineV2 m => m.raw

/-- the embedded `Header` of each message type -/
def hdr : Message → Header
  | .proposal m => m.hdr
  | .proposalV2 m => m.hdr
  | .acceptSMCR m => m.hdr
  | .acceptSMCD m => m.hdr
  | .acceptSMCDv2 m => m.hdr
  | .confirmSMCR m => m.hdr
  | .confirmSMCD m => m.hdr
  | .confirmSMCDv2 m => m.hdr
  | .decline m => m.hdr
  | .declineV2 m => m.hdr

/-- the embedded `Trailer` of each message type -/
def trailer : Message → Bytes
  | .proposal m => m.trailer
  | .proposalV2 m => m.trailer
  | .acceptSMCR m => m.trailer
  | .acceptSMCD m => m.trailer
  | .acceptSMCDv2 m => m.trailer
  | .confirmSMCR m => m.trailer
  | .confirmSMCD m => m.trailer
  | .confirmSMCDv2 m => m.trailer
  | .decline m => m.trailer
  | .declineV2 m => m.trailer

/-- `Dump` of the interface (pkg/clc/message.go:19): promoted from `Raw`, pkg/clc/raw.go:13-16 -/
def dump (m : Message) : Bytes := rawDump m.raw

end Message

/-- pkg/clc/message.go:22-79 `NewMessage`; `none` is the nil interface -/
def newMessage (buf : Slice) : Go (Option Message × UInt16) := do
  if (← hasEyecatcher buf) = false then
    pure (none, 0)
  else
    let length ← be16 (← buf.sub 5 7)
    if length.toNat > MaxMessageSize then
      Go.log (go! "Error parsing CLC header: message too big")
      errDump (← buf.sto HeaderLen)
      pure (none, 0)
    else
      let typ ← buf.idx 4
      let ver := (← buf.idx 7) >>> 4
      let path := (← buf.idx 7) &&& 0b00000011
      if typ = TypeProposal then
        if ver = SMCv2 then pure (some (.proposalV2 {}), length)
        else pure (some (.proposal {}), length)
      else if typ = TypeAccept then
        if path = SMCTypeR then pure (some (.acceptSMCR {}), length)
        else if path = SMCTypeD then
          if ver = SMCv2 then pure (some (.acceptSMCDv2 {}), length)
          else pure (some (.acceptSMCD {}), length)
        else pure (none, 0)
      else if typ = TypeConfirm then
        if path = SMCTypeR then pure (some (.confirmSMCR {}), length)
        else if path = SMCTypeD then
          if ver = SMCv2 then pure (some (.confirmSMCDv2 {}), length)
          else pure (some (.confirmSMCD {}), length)
        else pure (none, 0)
      else if typ = TypeDecline then
        if ver = SMCv2 then pure (some (.declineV2 {}), length)
        else pure (some (.decline {}), length)
      else pure (none, 0)

end SMC.CLC
