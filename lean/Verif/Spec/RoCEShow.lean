import Verif.Spec.Show
import Verif.Spec.RoCE
/-!
# The texts of RoCE headers

As in `Verif/Spec/LLCShow.lean`: the fields in wire order with their labels. Reserved fields of a
BTH are labelled `Res`. Nothing of the model is used.
-/

namespace SMC.Spec

/-- the fields of a BTH -/
def bthItems (bs : Bytes) : List Item :=
  [field (go! "OpCode") (binary (num bs 0 0 8) ++ go! " (" ++ opcodeName (UInt8.ofNat (num bs 0 0 8)) ++ go! ")"),
   field (go! "SE") (truth (flag bs 1 0)), field (go! "M") (truth (flag bs 1 1)),
   field (go! "Pad") (decimal (num bs 1 2 2)), field (go! "TVer") (decimal (num bs 1 4 4)),
   field (go! "PKey") (decimal (num bs 2 0 16)), field (go! "FECN") (truth (flag bs 4 0)),
   field (go! "BECN") (truth (flag bs 4 1)), { rsvd (hexadecimal (num bs 4 2 6)) with label := go! "Res" },
   field (go! "DestQP") (decimal (num bs 5 0 24)), field (go! "A") (truth (flag bs 8 0)),
   { rsvd (hexadecimal (num bs 8 1 7)) with label := go! "Res" }, field (go! "PSN") (decimal (num bs 9 0 24))]

/-- the fields of a GRH; `protoName` are the names of next header values -/
def grhItems (protoName : Nat → Bytes) (bs : Bytes) : List Item :=
  [field (go! "Version") (decimal (num bs 0 0 4)), field (go! "Traffic Class") (decimal (num bs 0 4 8)),
   field (go! "Flow Label") (decimal (num bs 1 4 20)), field (go! "Length") (decimal (num bs 4 0 16)),
   field (go! "Next Header") (if num bs 6 0 8 = 27 then go! "BTH" else protoName (num bs 6 0 8)),
   field (go! "Hop Limit") (decimal (num bs 7 0 8)),
   field (go! "Source") (address (raw bs 8 16)), field (go! "Destination") (address (raw bs 24 16))]

/-- what `String()` of a BTH is meant to return -/
def bthString (bs : Bytes) : Bytes := line (go! "BTH") (visibleItems (bthItems bs))
/-- what `Reserved()` of a BTH is meant to return -/
def bthReserved (bs : Bytes) : Bytes := line (go! "BTH") (bthItems bs)
/-- what `String()` and `Reserved()` of a GRH are meant to return; it has no reserved fields -/
def grhString (protoName : Nat → Bytes) (bs : Bytes) : Bytes := line (go! "GRH") (grhItems protoName bs)

end SMC.Spec
