import Verif.Spec.LLC
/-!
# What the texts of LLC and CDC messages are meant to show
-/

namespace SMC.Spec

open LLC

/-- GIDs are nil (fresh values) or sixteen bytes (parsed ones). -/
def SizedGID : Msg → Prop
  | .confirmLink m => m.SenderGID.length ≠ 4
  | .addLink m => m.SenderGID.length ≠ 4
  | _ => True

/-- A message without its raw bytes: all decoded fields, reserved ones included. -/
def decoded : Msg → Msg
  | .other m => .other { m with base.Raw := [] }
  | .confirmLink m => .confirmLink { m with base.Raw := [] }
  | .addLink m => .addLink { m with base.Raw := [] }
  | .addLinkCont m => .addLinkCont { m with base.Raw := [] }
  | .deleteLink m => .deleteLink { m with base.Raw := [] }
  | .confirmRKey m => .confirmRKey { m with base.Raw := [] }
  | .confirmRKeyCont m => .confirmRKeyCont { m with base.Raw := [] }
  | .deleteRKey m => .deleteRKey { m with base.Raw := [] }
  | .testLink m => .testLink { m with base.Raw := [] }
  | .cdc m => .cdc { m with base.Raw := [] }

/-- A message without raw bytes and reserved fields. -/
def visible : Msg → Msg
  | .other m => .other { m with base.Raw := [] }
  | .confirmLink m => .confirmLink { m with base.Raw := [], res1 := 0, res2 := 0, res3 := [] }
  | .addLink m => .addLink { m with base.Raw := [], res1 := 0, res2 := 0, res5 := [], res3 := 0, res4 := [] }
  | .addLinkCont m => .addLinkCont { m with base.Raw := [], res1 := 0, res2 := 0, res3 := [], res4 := [] }
  | .deleteLink m => .deleteLink { m with base.Raw := [], res1 := 0, res2 := 0, res3 := [] }
  | .confirmRKey m => .confirmRKey { m with base.Raw := [], res1 := 0, res2 := 0, res3 := 0, res4 := 0 }
  | .confirmRKeyCont m => .confirmRKeyCont { m with base.Raw := [], res1 := 0, res2 := 0, res3 := 0, res4 := 0 }
  | .deleteRKey m => .deleteRKey { m with base.Raw := [], res1 := 0, res2 := 0, res3 := 0, res4 := [], res5 := [] }
  | .testLink m => .testLink { m with base.Raw := [], res1 := 0, res2 := 0, res3 := [] }
  | .cdc m => .cdc { m with base.Raw := [], res1 := [], res2 := [], res3 := 0, res4 := [] }

end SMC.Spec
