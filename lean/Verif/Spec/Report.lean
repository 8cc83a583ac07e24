import Verif.Spec.Message
/-!
# What is reported about CLC messages that are not in order

Two lines per fault: a text and the dump of the bytes at fault. `hexDump` is `hex.Dump` of the
standard library, see C16.
-/

namespace SMC.Spec

/-- the lines logged for a fault -/
def report (text shown : Bytes) : List Bytes := [text, go! "Message Buffer Hex Dump:\n" ++ hexDump shown]

/-- the report on a trailer -/
def trailerReport (v : Bytes) : List Bytes :=
  if IsEye (lastFour v) then [] else report (go! "Error parsing CLC message: invalid trailer") (lastFour v)

/-- the report on `n` announced entries of which `have_` are there -/
def countReport (text v : Bytes) (n have_ : Nat) : List Bytes :=
  if have_ = n then [] else report text (raw v 0 (declared v))

/-- the reports on a complete message that `Parse` returns from, in the order of its parts; a part
that has no room ends the parsing -/
def reports (k : CLCKind) (v : Bytes) : List Bytes :=
  let whole := raw v 0 (declared v)
  if declared v < minLen k then report (tooShort k (num v 4 0 8)) whole else
  match k with
  | .proposal =>
    let n := num v (ipAreaAt v + 7) 0 8
    if declared v < ipAreaAt v + 12 then report (go! "Error parsing CLC Proposal: IP Area Offset too big") whole else
    countReport (go! "Error parsing CLC Proposal: IPv6 prefix count too big") v n (entries (declared v) (ipAreaAt v + 8) 17 n) ++
    trailerReport v
  | .proposalV2 =>
    if ¬ RoomIP v then report (go! "Error parsing CLC Proposal v2: IP Area Offset too big") whole else
    (if HasIP v then
      countReport (go! "Error parsing CLC Proposal v2: IPv6 prefix count too big") v (num v 87 0 8) (pfxCount v) else []) ++
    if ¬ RoomExt v then report (go! "Error parsing CLC Proposal v2: Not enough space for Proposal v2 Extension") whole else
    (if HasExt v then
      countReport (go! "Error parsing CLC Proposal v2: EID number too big") v (num v (extAt v) 0 8) (eidCount v) else []) ++
    if ¬ RoomSMCD v then report (go! "Error parsing CLC Proposal v2: Not enough space for SMC-D v2 Extension") whole else
    (if HasSMCD v then
      countReport (go! "Error parsing CLC Proposal v2: GID number too big") v (num v (extAt v + 1) 0 8) (gidCount v) else []) ++
    trailerReport v
  | _ => trailerReport v

end SMC.Spec
