import Verif.Spec.LLC
import Verif.Spec.CLC
/-!
# How the texts of messages and headers begin
-/

namespace SMC.Spec

/-- what a text is about -/
inductive Topic where
  | llc (k : Kind)
  | clc
  | bth
  | grh
deriving DecidableEq, Repr

/-- the ways in which a text about something begins -/
def headings : Topic → List Bytes
  | .llc .other => [go! "Other Payload\n"]
  | .llc .confirmLink => [go! "LLC Confirm Link: "]
  | .llc .addLink => [go! "LLC Add Link: "]
  | .llc .addLinkCont => [go! "LLC Add Link Continuation: "]
  | .llc .deleteLink => [go! "LLC Delete Link: "]
  | .llc .confirmRKey => [go! "LLC Confirm RKey: "]
  | .llc .confirmRKeyCont => [go! "LLC Confirm RKey Continuation: "]
  | .llc .deleteRKey => [go! "LLC Delete RKey: "]
  | .llc .testLink => [go! "LLC Test Link: "]
  | .llc .cdc => [go! "CDC: "]
  | .clc => [go! "Proposal: ", go! "Accept: ", go! "Confirm: ", go! "Decline: ", go! "Unknown: "]
  | .bth => [go! "BTH: "]
  | .grh => [go! "GRH: "]

/-- all topics -/
def topics : List Topic :=
  [.llc .other, .llc .confirmLink, .llc .addLink, .llc .addLinkCont, .llc .deleteLink, .llc .confirmRKey,
   .llc .confirmRKeyCont, .llc .deleteRKey, .llc .testLink, .llc .cdc, .clc, .bth, .grh]

/-- the text begins like one about `a` -/
def About (t : Bytes) (a : Topic) : Prop := ∃ h ∈ headings a, h <+: t

end SMC.Spec
