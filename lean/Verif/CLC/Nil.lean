import Verif.CLC.Message
/-!
# Model of pkg/clc: nil receivers

The methods of the message types have pointer receivers. Pointers are `Option`s here: `none` is
nil. `Verif/CLC/Message.lean` has the methods for receivers that are not nil.
-/

namespace SMC.CLC

/-- `&x.f` for a pointer `x` and a struct field `f` (Go specification, "Selectors" and "Address
operators"): panics if `x` is nil -/
def fieldAddr {α β : Type} (f : α → β) : Option α → Go (Option β)
  | none => .panic []
  | some a => pure (some (f a))

/-- the first statement of `String` and `Reserved`: `if x == nil { return "n/a" }` -/
def unlessNil {α : Type} (text : α → Bytes) : Option α → Go Bytes
  | none => pure (go! "n/a")
  | some a => pure (text a)

/-- pkg/clc/clc_confirm_smcr.go:3-7 `ConfirmSMCR` -/
structure ConfirmSMCR where
  AcceptSMCR : AcceptSMCR := {}
deriving DecidableEq, Repr
/-- pkg/clc/clc_confirm_smcd.go:3-7 `ConfirmSMCD` -/
structure ConfirmSMCD where
  AcceptSMCD : AcceptSMCD := {}
deriving DecidableEq, Repr
/-- pkg/clc/clc_confirm_smcd_v2.go:3-7 `ConfirmSMCDv2` -/
structure ConfirmSMCDv2 where
  AcceptSMCDv2 : AcceptSMCDv2 := {}
deriving DecidableEq, Repr

/-- pkg/clc/message.go:14-20 `Message`: interface values with a pointer in them -/
inductive Pointer where
  | proposal (p : Option Proposal)
  | proposalV2 (p : Option ProposalV2)
  | acceptSMCR (p : Option AcceptSMCR)
  | acceptSMCD (p : Option AcceptSMCD)
  | acceptSMCDv2 (p : Option AcceptSMCDv2)
  | confirmSMCR (p : Option ConfirmSMCR)
  | confirmSMCD (p : Option ConfirmSMCD)
  | confirmSMCDv2 (p : Option ConfirmSMCDv2)
  | decline (p : Option Decline)
  | declineV2 (p : Option DeclineV2)
deriving DecidableEq, Repr

namespace Pointer

/-- `String`: pkg/clc/clc_proposal.go:51-55, clc_proposal_v2.go:173-177,
clc_accept_smcr.go:64-68, clc_accept_smcd.go:29-33, clc_accept_smcd_v2.go:50-54,
clc_decline.go:133-137, clc_decline_v2.go:46-50. The Confirm types have the methods of the
embedded struct: `x.String()` is `(&x.AcceptSMCR).String()`. -/
def string : Pointer → Go Bytes
  | .proposal p => unlessNil Proposal.string p
  | .proposalV2 p => unlessNil ProposalV2.string p
  | .acceptSMCR p => unlessNil AcceptSMCR.string p
  | .acceptSMCD p => unlessNil AcceptSMCD.string p
  | .acceptSMCDv2 p => unlessNil AcceptSMCDv2.string p
  | .confirmSMCR p => do unlessNil AcceptSMCR.string (← fieldAddr ConfirmSMCR.AcceptSMCR p)
  | .confirmSMCD p => do unlessNil AcceptSMCD.string (← fieldAddr ConfirmSMCD.AcceptSMCD p)
  | .confirmSMCDv2 p => do unlessNil AcceptSMCDv2.string (← fieldAddr ConfirmSMCDv2.AcceptSMCDv2 p)
  | .decline p => unlessNil Decline.string p
  | .declineV2 p => unlessNil DeclineV2.string p

/-- `Reserved`: pkg/clc/clc_proposal.go:77-82, clc_proposal_v2.go:249-254,
clc_accept_smcr.go:81-86, clc_accept_smcd.go:41-46, clc_accept_smcd_v2.go:76-81,
clc_decline.go:144-149, clc_decline_v2.go:58-63 -/
def reserved : Pointer → Go Bytes
  | .proposal p => unlessNil Proposal.reserved p
  | .proposalV2 p => unlessNil ProposalV2.reserved p
  | .acceptSMCR p => unlessNil AcceptSMCR.reserved p
  | .acceptSMCD p => unlessNil AcceptSMCD.reserved p
  | .acceptSMCDv2 p => unlessNil AcceptSMCDv2.reserved p
  | .confirmSMCR p => do unlessNil AcceptSMCR.reserved (← fieldAddr ConfirmSMCR.AcceptSMCR p)
  | .confirmSMCD p => do unlessNil AcceptSMCD.reserved (← fieldAddr ConfirmSMCD.AcceptSMCD p)
  | .confirmSMCDv2 p => do unlessNil AcceptSMCDv2.reserved (← fieldAddr ConfirmSMCDv2.AcceptSMCDv2 p)
  | .decline p => unlessNil Decline.reserved p
  | .declineV2 p => unlessNil DeclineV2.reserved p

/-- the message the pointer points to -/
def message : Pointer → Option Message
  | .proposal p => p.map .proposal
  | .proposalV2 p => p.map .proposalV2
  | .acceptSMCR p => p.map .acceptSMCR
  | .acceptSMCD p => p.map .acceptSMCD
  | .acceptSMCDv2 p => p.map .acceptSMCDv2
  | .confirmSMCR p => p.map fun c => .confirmSMCR c.AcceptSMCR
  | .confirmSMCD p => p.map fun c => .confirmSMCD c.AcceptSMCD
  | .confirmSMCDv2 p => p.map fun c => .confirmSMCDv2 c.AcceptSMCDv2
  | .decline p => p.map .decline
  | .declineV2 p => p.map .declineV2

/-- `Dump`, promoted from the field `Raw` (pkg/clc/raw.go:13-16): the receiver is the value of
the field, which is evaluated first -/
def dump (p : Pointer) : Go Bytes :=
  match p.message with
  | none => .panic []
  | some m => pure m.dump

/-- `Parse`: the first statement, `x.Raw.Parse(buf)` (pkg/clc/clc_proposal.go:108 and the like),
takes the address of a field. Simplification: the new contents of the message are returned. -/
def parse (p : Pointer) (buf : Slice) : Go Message :=
  match p.message with
  | none => .panic []
  | some m => m.parse buf

end Pointer

end SMC.CLC
