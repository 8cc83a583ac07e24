import Verif.Spec.CLCShow
import Verif.Spec.Message
/-!
# The texts of CLC messages with faults

What is shown of a message of any kind in a buffer that holds it, whatever its bytes are: the parts
that could be decoded as in `Verif/Spec/CLCShow.lean`, the others as zero. Nothing of the model
is used. The header is described by its type code, since a message can be parsed as any kind.
-/

namespace SMC.Spec

/-- the name of a type code -/
def typeName (t : Nat) : Bytes :=
  ([(1, go! "Proposal"), (2, go! "Accept"), (3, go! "Confirm"), (4, go! "Decline")].lookup t).getD (go! "Unknown")

/-- the name of the flag in a header, by type code, version and path -/
def flagName (typ ver path : Nat) : Bytes :=
  if typ = 2 ∨ (typ = 3 ∧ ver = 2 ∧ path = 1) then go! "First Contact"
  else if typ = 4 then go! "Out of Sync" else go! "Flag"

/-- the fields of any header -/
def shownHeader (v : Bytes) : List Item :=
  [field (go! "Eyecatcher") (eyeName (raw v 0 4)),
   field (go! "Type") (decimal (num v 4 0 8) ++ go! " (" ++ typeName (num v 4 0 8) ++ go! ")"),
   field (go! "Length") (decimal (num v 5 0 16)), field (go! "Version") (decimal (num v 7 0 4))] ++
  (if num v 4 0 8 = 1 ∧ num v 7 0 4 = 2 then [field (go! "Pathv2") (pathName (pathv2Of v))]
   else [field (flagName (num v 4 0 8) (num v 7 0 4) (pathOf v)) (decimal (num v 7 4 1)), rsvd (hexadecimal (num v 7 5 1))]) ++
  [field (go! "Path") (pathName (pathOf v))]

/-! ## Parts that were not decoded -/

/-- the first fields of Proposals and SMC-R messages -/
def blankRdma : List Item :=
  [field (go! "Peer ID") (peerText (zeros 8)), field (go! "SMC-R GID") (go! "<nil>"), field (go! "RoCE MAC") []]

/-- an IP area -/
def blankIP : List Item :=
  [field (go! "IPv4 Prefix") (go! "<nil>/0"), rsvd (octets (zeros 2)), field (go! "IPv6 Prefix Count") (go! "0")]

/-- a v2 extension -/
def blankExt : List Item :=
  [field (go! "EID Number") (go! "0"), field (go! "GID Number") (go! "0"), rsvd (go! "0x0"), field (go! "Release") (go! "0"),
   rsvd (go! "0x0"), field (go! "SEID Indicator") (go! "0"), rsvd (octets (zeros 2)),
   field (go! "SMC-Dv2 Extension Offset") (go! "0"), rsvd (octets (zeros 32)), field (go! "EID Area") (go! "[]")]

/-- a first contact extension -/
def blankFCE : List Item :=
  [rsvd (go! "0x0"), field (go! "OS Type") (go! "0 (unknown)"), field (go! "Release") (go! "0"), rsvd (octets (zeros 2)),
   field (go! "Hostname") []]

/-- the first fields of SMC-D messages -/
def blankDmb : List Item :=
  [field (go! "SMC-D GID") (go! "0"), field (go! "SMC-D Token") (go! "0"), field (go! "DMBE Index") (go! "0"),
   field (go! "DMBE Size") (go! "0 (16384)"), rsvd (go! "0x0"), rsvd (octets (zeros 2)), field (go! "Link ID") (go! "0")]

/-! ## Parts that were decoded -/

/-- the IP area at `k` with the announced number of prefixes and `n` prefixes -/
def shownIP (v : Bytes) (k n : Nat) : List Item :=
  [field (go! "IPv4 Prefix") (prefixText (raw v k 4) (num v (k + 4) 0 8)), rsvd (octets (raw v (k + 5) 2)),
   field (go! "IPv6 Prefix Count") (decimal (num v (k + 7) 0 8))] ++
  (List.range n).map fun i =>
    field (go! "IPv6 Prefix") (prefixText (raw v (k + 8 + 17 * i) 16) (num v (k + 8 + 17 * i + 16) 0 8))

/-- the v2 extension at `k`: the announced number of EIDs is shown, but not more than 8; only the
first `n` have a text -/
def shownExt (v : Bytes) (k n : Nat) : List Item :=
  [field (go! "EID Number") (decimal (num v k 0 8)), field (go! "GID Number") (decimal (num v (k + 1) 0 8)),
   rsvd (hexadecimal (num v (k + 2) 0 8)), field (go! "Release") (decimal (num v (k + 3) 0 4)),
   rsvd (hexadecimal (num v (k + 3) 4 3)), field (go! "SEID Indicator") (decimal (num v (k + 3) 7 1)),
   rsvd (octets (raw v (k + 4) 2)), field (go! "SMC-Dv2 Extension Offset") (decimal (num v (k + 6) 0 16)),
   rsvd (octets (raw v (k + 8) 32)),
   field (go! "EID Area") (go! "[" ++ row ((List.range (min 8 (num v k 0 8))).map fun i =>
     field (go! "EID " ++ decimal i) (if i < n then plainText (raw v (k + 40 + 32 * i) 32) else [])) ++ go! "]")]

/-- `a` GIDs, but not more than 8, the first `n` from the bytes at `k`, the others zero -/
def shownGIDs (v : Bytes) (k a n : Nat) : Bytes :=
  go! "[" ++ row ((List.range (min 8 a)).flatMap fun i =>
    [field (go! "GID " ++ decimal i) (decimal (if i < n then num v (k + 10 * i) 0 64 else 0)),
     field (go! "VCHID " ++ decimal i) (decimal (if i < n then num v (k + 10 * i + 8) 0 16 else 0))]) ++ go! "]"

/-- the v2 extension was decoded -/
abbrev ExtDecoded (v : Bytes) : Prop := RoomIP v ∧ HasExt v ∧ RoomExt v

/-- the SMC-D v2 extension was decoded -/
abbrev SMCDDecoded (v : Bytes) : Prop := RoomIP v ∧ RoomExt v ∧ HasSMCD v ∧ RoomSMCD v

/-- the parts of a Proposal of version 2 that depend on the header -/
def shownOptions (v : Bytes) : List Item :=
  (if HasIP v then (if RoomIP v then shownIP v 80 (pfxCount v) else blankIP) else []) ++
  (if HasExt v then (if ExtDecoded v then shownExt v (extAt v) (eidCount v) else blankExt) else []) ++
  (if HasSMCD v then
    (if SMCDDecoded v then
      [field (go! "SEID") (plainText (raw v (smcdAt v) 32)), rsvd (octets (raw v (smcdAt v + 32) 16)),
       field (go! "GID Area") (shownGIDs v (smcdAt v + 48) (num v (extAt v + 1) 0 8) (gidCount v))]
     else
      [field (go! "SEID") [], rsvd (octets (zeros 16)),
       field (go! "GID Area") (shownGIDs v 0 (if ExtDecoded v then num v (extAt v + 1) 0 8 else 0) 0)])
   else [])

/-- the fields between header and trailer of a message that is long enough; `e` are the bytes
behind the buffer -/
def shownBody (v e : Bytes) : CLCKind → List Item
  | .proposal => rdmaItems v ++ [field (go! "IP Area Offset") (decimal (num v 38 0 16))] ++
    (if num v 38 0 16 = 40 then [field (go! "SMC-D GID") (decimal (num v 40 0 64)), rsvd (octets (raw (v ++ e) 48 32))] else []) ++
    (if ipAreaAt v + 12 ≤ declared v
      then shownIP v (ipAreaAt v) (entries (declared v) (ipAreaAt v + 8) 17 (num v (ipAreaAt v + 7) 0 8)) else blankIP)
  | .proposalV2 => rdmaItems v ++
    [field (go! "IP Area Offset") (decimal (num v 38 0 16)), field (go! "SMC-D GID") (decimal (num v 40 0 64)),
     field (go! "ISMv2 VCHID") (decimal (num v 48 0 16)), field (go! "SMCv2 Extension Offset") (decimal (num v 50 0 16)),
     rsvd (octets (raw v 52 28))] ++ shownOptions v
  | .acceptSMCDv2 | .confirmSMCDv2 => dmbItems v ++
    [field (go! "ISMv2 VCHID") (decimal (num v 32 0 16)), field (go! "EID") (plainText (raw v 34 32)),
     rsvd (octets (raw v 66 8))] ++
    (if declared v < 114 then [] else if 114 < declared v then blankFCE else
     [rsvd (hexadecimal (num v 74 0 8)), field (go! "OS Type") (named osTypes (go! "unknown") (num v 75 0 4)),
      field (go! "Release") (decimal (num v 75 4 4)), rsvd (octets (raw v 76 2)),
      field (go! "Hostname") (plainText (raw v 78 32))])
  | k => bodyItems v k

/-- the fields between header and trailer of a message that is too short for its kind -/
def blankBody (v : Bytes) : CLCKind → List Item
  | .proposal => blankRdma ++ [field (go! "IP Area Offset") (go! "0")] ++ blankIP
  | .proposalV2 => blankRdma ++
    [field (go! "IP Area Offset") (go! "0"), field (go! "SMC-D GID") (go! "0"), field (go! "ISMv2 VCHID") (go! "0"),
     field (go! "SMCv2 Extension Offset") (go! "0"), rsvd (octets (zeros 28))] ++
    (if HasIP v then blankIP else []) ++ (if HasExt v then blankExt else []) ++
    (if HasSMCD v then
      [field (go! "SEID") [], rsvd (octets (zeros 16)), field (go! "GID Area") (go! "[]")] else [])
  | .acceptSMCR | .confirmSMCR => blankRdma ++
    [field (go! "QP Number") (go! "0"), field (go! "RMB RKey") (go! "0"), field (go! "RMBE Index") (go! "0"),
     field (go! "RMBE Alert Token") (go! "0"), field (go! "RMBE Size") (go! "0 (16384)"), field (go! "QP MTU") (go! "0 (reserved)"),
     rsvd (go! "0x0"), field (go! "RMB Virtual Address") (go! "0x0"), rsvd (go! "0x0"),
     field (go! "Packet Sequence Number") (go! "0")]
  | .acceptSMCD | .confirmSMCD => blankDmb ++ [rsvd (octets (zeros 12))]
  | .acceptSMCDv2 | .confirmSMCDv2 => blankDmb ++
    [field (go! "ISMv2 VCHID") (go! "0"), field (go! "EID") [], rsvd (octets (zeros 8))]
  | .decline =>
    [field (go! "Peer ID") (peerText (zeros 8)), field (go! "Peer Diagnosis") (go! "0x0 (Unknown)"), rsvd (octets (zeros 4))]
  | .declineV2 =>
    [field (go! "Peer ID") (peerText (zeros 8)), field (go! "Peer Diagnosis") (go! "0x0 (Unknown)"),
     field (go! "OS Type") (go! "0 (unknown)"), rsvd (octets (zeros 4))]

instance (k : CLCKind) (v : Bytes) : Decidable (Accepted k v) := by
  unfold Accepted; cases k <;> infer_instance

/-- all fields that are shown of a message parsed as kind `k` -/
def shownItems (v e : Bytes) (k : CLCKind) : List Item :=
  shownHeader v ++ (if declared v < minLen k then blankBody v k else shownBody v e k) ++
  [field (go! "Trailer") (if Accepted k v then eyeName (lastFour v) else go! "Unknown")]

/-- the text that shows some fields of a message -/
def shownLine (v : Bytes) (is : List Item) : Bytes := typeName (num v 4 0 8) ++ go! ": " ++ row is

#guard typeName 4 = go! "Decline" && typeName 0 = go! "Unknown" && flagName 3 1 1 = go! "Flag" && flagName 3 2 1 = go! "First Contact"
#guard shownLine (hex! "e2d4c3d904001b12") (visibleItems (shownItems (hex! "e2d4c3d904001b12") [] .decline)) =
  go! "Decline: Eyecatcher: SMC-R, Type: 4 (Decline), Length: 27, Version: 1, Out of Sync: 0, Path: No SMC-R/SMC-D, Peer ID: 0@00:00:00:00:00:00, Peer Diagnosis: 0x0 (Unknown), Trailer: Unknown"

end SMC.Spec
