import Verif.Spec.CLC
/-!
# The parts of a CLC message on which the lengths of its texts depend
-/

namespace SMC.CLC

open Spec

/-- the prefixes of a message -/
def prefixesOf : Message → List IPv6Prefix
  | .proposal m => m.IPv6Prefixes
  | .proposalV2 m => m.IPv6Prefixes
  | _ => []

/-- the sizes of a message as it is after parsing -/
def Fits (m : Message) : Prop := Sized m ∧ (∀ p ∈ prefixesOf m, p.pfx.length ≤ 16) ∧ match m with
  | .proposal m => m.IBGID.length ≤ 16 ∧ m.IBMAC.length ≤ 6 ∧ m.Prefix.length ≤ 16
  | .proposalV2 m => m.IBGID.length ≤ 16 ∧ m.IBMAC.length ≤ 6 ∧ m.Prefix.length ≤ 16
  | .acceptSMCR m | .confirmSMCR m => m.IBGID.length ≤ 16 ∧ m.IBMAC.length ≤ 6 ∧ m.QPN < 10 ^ 8 ∧ m.PSN < 10 ^ 8
  | _ => True

end SMC.CLC
