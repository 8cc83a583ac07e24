import Verif.Spec.CLCEvery
import Verif.Spec.Show
/-!
# The names in the texts of CLC messages
-/

namespace SMC.Spec

open CLC

/-- EIDs in a row with their numbers -/
def eidList (f : Bytes → Bytes) (es : List Bytes) : Bytes :=
  (es.mapIdx fun i e => (if i = 0 then [] else go! ", ") ++ (go! "EID " ++ (decimal i ++ (go! ": " ++ f e)))).flatten

/-- what the text of a version 2 Proposal shows of its names: all EIDs, and the SEID behind them if there is one (`f` is the
text of an EID) -/
def namesText (f : Bytes → Bytes) : Message → Bytes
  | .proposalV2 m =>
    if m.hdr.Pathv2 = 2 then []
    else eidList f (m.EIDArea.take m.EIDNumber.toNat) ++
      if m.hdr.Pathv2 = 1 ∨ m.hdr.Pathv2 = 3 then go! "], SEID: " ++ f m.SEID else []
  | _ => []

/-- a message without the names in that text; in other messages, names are replaced by their texts -/
def otherFields (f : Bytes → Bytes) : Message → Message
  | .proposalV2 m => .proposalV2 { m with EIDArea := [], SEID := [] }
  | m => eidTexts f m

end SMC.Spec
