import Verif.Spec.Show
import Verif.Spec.CLCText
/-!
# The texts of CLC messages

As in `Verif/Spec/LLCShow.lean`: the fields in wire order with their labels, for messages all of
whose parts are in the message. Nothing of the model is used.
-/

namespace SMC.Spec

/-- names of the message types -/
def clcHeading : CLCKind → Bytes
  | .proposal | .proposalV2 => go! "Proposal"
  | .acceptSMCR | .acceptSMCD | .acceptSMCDv2 => go! "Accept"
  | .confirmSMCR | .confirmSMCD | .confirmSMCDv2 => go! "Confirm"
  | .decline | .declineV2 => go! "Decline"

/-- the name of an eyecatcher -/
def eyeName (e : Bytes) : Bytes := if e = eyeR then go! "SMC-R" else if e = eyeD then go! "SMC-D" else go! "Unknown"

/-- the name of a path -/
def pathName (p : Nat) : Bytes :=
  ([go! "SMC-R", go! "SMC-D", go! "No SMC-R/SMC-D", go! "SMC-R + SMC-D"][p]?).getD (go! "unknown")

/-- operating systems -/
def osTypes : List (Nat × Bytes) := [(1, go! "z/OS"), (2, go! "Linux"), (3, go! "AIX")]

/-- the name of the flag in the header -/
def flagLabel : CLCKind → Bytes
  | .acceptSMCR | .acceptSMCD | .acceptSMCDv2 | .confirmSMCDv2 => go! "First Contact"
  | .decline | .declineV2 => go! "Out of Sync"
  | .proposal | .proposalV2 | .confirmSMCR | .confirmSMCD => go! "Flag"

/-- the eight bytes of a peer ID: instance and hardware address -/
def peerText (bs : Bytes) : Bytes := decimal (num bs 0 0 16) ++ go! "@" ++ hardware (raw bs 2 6)

/-- a compressed buffer size: code and size in bytes -/
def sizeText (n : Nat) : Bytes := decimal n ++ go! " (" ++ decimal (2 ^ (n + 14)) ++ go! ")"

/-- a diagnosis code -/
def diagnosisText (n : Nat) : Bytes := hexadecimal n ++ go! " (" ++ (diagnoses.lookup n).getD (go! "Unknown") ++ go! ")"

/-- the text in a field of fixed size: up to the first NUL, without blanks at the end -/
def plainText (bs : Bytes) : Bytes :=
  let t := bs.takeWhile (· != 0)
  t.take (t.length - (t.reverse.takeWhile (· == 32)).length)

/-- an address prefix -/
def prefixText (addr : Bytes) (len : Nat) : Bytes := address addr ++ go! "/" ++ decimal len

/-- the header; Proposals of version 2 have a second path where all others have a flag and a
reserved bit -/
def headerItems (v : Bytes) (k : CLCKind) : List Item :=
  [field (go! "Eyecatcher") (eyeName (raw v 0 4)),
   field (go! "Type") (decimal (num v 4 0 8) ++ go! " (" ++ clcHeading k ++ go! ")"),
   field (go! "Length") (decimal (num v 5 0 16)), field (go! "Version") (decimal (num v 7 0 4))] ++
  (if k = .proposalV2 then [field (go! "Pathv2") (pathName (pathv2Of v))]
   else [field (flagLabel k) (decimal (num v 7 4 1)), rsvd (hexadecimal (num v 7 5 1))]) ++
  [field (go! "Path") (pathName (pathOf v))]

/-- the first fields of Proposals and SMC-R messages -/
def rdmaItems (v : Bytes) : List Item :=
  [field (go! "Peer ID") (peerText (raw v 8 8)), field (go! "SMC-R GID") (address (raw v 16 16)),
   field (go! "RoCE MAC") (hardware (raw v 32 6))]

/-- the IP area starting at `k` -/
def ipItems (v : Bytes) (k : Nat) : List Item :=
  [field (go! "IPv4 Prefix") (prefixText (raw v k 4) (num v (k + 4) 0 8)), rsvd (octets (raw v (k + 5) 2)),
   field (go! "IPv6 Prefix Count") (decimal (num v (k + 7) 0 8))] ++
  (List.range (num v (k + 7) 0 8)).map fun i =>
    field (go! "IPv6 Prefix") (prefixText (raw v (k + 8 + 17 * i) 16) (num v (k + 8 + 17 * i + 16) 0 8))

/-- the first fields of SMC-D messages -/
def dmbItems (v : Bytes) : List Item :=
  [field (go! "SMC-D GID") (decimal (num v 8 0 64)), field (go! "SMC-D Token") (decimal (num v 16 0 64)),
   field (go! "DMBE Index") (decimal (num v 24 0 8)), field (go! "DMBE Size") (sizeText (num v 25 0 4)),
   rsvd (hexadecimal (num v 25 4 4)), rsvd (octets (raw v 26 2)), field (go! "Link ID") (decimal (num v 28 0 32))]

/-- the v2 extension at `k` -/
def extItems (v : Bytes) (k : Nat) : List Item :=
  [field (go! "EID Number") (decimal (num v k 0 8)), field (go! "GID Number") (decimal (num v (k + 1) 0 8)),
   rsvd (hexadecimal (num v (k + 2) 0 8)), field (go! "Release") (decimal (num v (k + 3) 0 4)),
   rsvd (hexadecimal (num v (k + 3) 4 3)), field (go! "SEID Indicator") (decimal (num v (k + 3) 7 1)),
   rsvd (octets (raw v (k + 4) 2)), field (go! "SMC-Dv2 Extension Offset") (decimal (num v (k + 6) 0 16)),
   rsvd (octets (raw v (k + 8) 32)),
   field (go! "EID Area") (go! "[" ++ row ((List.range (num v k 0 8)).map fun i =>
     field (go! "EID " ++ decimal i) (plainText (raw v (k + 40 + 32 * i) 32))) ++ go! "]")]

/-- the SMC-D v2 extension at `k` with `n` GIDs -/
def gidItems (v : Bytes) (k n : Nat) : List Item :=
  [field (go! "SEID") (plainText (raw v k 32)), rsvd (octets (raw v (k + 32) 16)),
   field (go! "GID Area") (go! "[" ++ row ((List.range n).flatMap fun i =>
     [field (go! "GID " ++ decimal i) (decimal (num v (k + 48 + 10 * i) 0 64)),
      field (go! "VCHID " ++ decimal i) (decimal (num v (k + 48 + 10 * i + 8) 0 16))]) ++ go! "]")]

/-- the fields between header and trailer -/
def bodyItems (v : Bytes) : CLCKind → List Item
  | .proposal => rdmaItems v ++ [field (go! "IP Area Offset") (decimal (num v 38 0 16))] ++
    (if num v 38 0 16 = 40 then [field (go! "SMC-D GID") (decimal (num v 40 0 64)), rsvd (octets (raw v 48 32))] else []) ++
    ipItems v (ipAreaAt v)
  | .proposalV2 => rdmaItems v ++
    [field (go! "IP Area Offset") (decimal (num v 38 0 16)), field (go! "SMC-D GID") (decimal (num v 40 0 64)),
     field (go! "ISMv2 VCHID") (decimal (num v 48 0 16)), field (go! "SMCv2 Extension Offset") (decimal (num v 50 0 16)),
     rsvd (octets (raw v 52 28))] ++
    (if HasIP v then ipItems v 80 else []) ++ (if HasExt v then extItems v (extAt v) else []) ++
    (if HasSMCD v then gidItems v (smcdAt v) (num v (extAt v + 1) 0 8) else [])
  | .acceptSMCR | .confirmSMCR => rdmaItems v ++
    [field (go! "QP Number") (decimal (num v 38 0 24)), field (go! "RMB RKey") (decimal (num v 41 0 32)),
     field (go! "RMBE Index") (decimal (num v 45 0 8)), field (go! "RMBE Alert Token") (decimal (num v 46 0 32)),
     field (go! "RMBE Size") (sizeText (num v 50 0 4)),
     field (go! "QP MTU") (named [(1, go! "256"), (2, go! "512"), (3, go! "1024"), (4, go! "2048"), (5, go! "4096")]
       (go! "reserved") (num v 50 4 4)),
     rsvd (hexadecimal (num v 51 0 8)), field (go! "RMB Virtual Address") (hexadecimal (num v 52 0 64)),
     rsvd (hexadecimal (num v 60 0 8)), field (go! "Packet Sequence Number") (decimal (num v 61 0 24))]
  | .acceptSMCD | .confirmSMCD => dmbItems v ++ [rsvd (octets (raw v 32 12))]
  | .acceptSMCDv2 | .confirmSMCDv2 => dmbItems v ++
    [field (go! "ISMv2 VCHID") (decimal (num v 32 0 16)), field (go! "EID") (plainText (raw v 34 32)),
     rsvd (octets (raw v 66 8))] ++
    (if declared v < 114 then [] else
     [rsvd (hexadecimal (num v 74 0 8)), field (go! "OS Type") (named osTypes (go! "unknown") (num v 75 0 4)),
      field (go! "Release") (decimal (num v 75 4 4)), rsvd (octets (raw v 76 2)),
      field (go! "Hostname") (plainText (raw v 78 32))])
  | .decline =>
    [field (go! "Peer ID") (peerText (raw v 8 8)), field (go! "Peer Diagnosis") (diagnosisText (num v 16 0 32)),
     rsvd (octets (raw v 20 4))]
  | .declineV2 =>
    [field (go! "Peer ID") (peerText (raw v 8 8)), field (go! "Peer Diagnosis") (diagnosisText (num v 16 0 32)),
     field (go! "OS Type") (named osTypes (go! "unknown") (num v 20 0 4)),
     rsvd (octets (UInt8.ofNat (num v 20 4 4) :: raw v 21 3))]

/-- all fields of a message -/
def clcItems (v : Bytes) (k : CLCKind) : List Item :=
  headerItems v k ++ bodyItems v k ++ [field (go! "Trailer") (eyeName (raw v (declared v - 4) 4))]

/-- the text that shows some fields; there is no line feed -/
def clcLine (k : CLCKind) (is : List Item) : Bytes := clcHeading k ++ go! ": " ++ row is

/-- what `String()` is meant to return -/
def clcString (v : Bytes) (k : CLCKind) : Bytes := clcLine k (visibleItems (clcItems v k))
/-- what `Reserved()` is meant to return -/
def clcReserved (v : Bytes) (k : CLCKind) : Bytes := clcLine k (clcItems v k)

#guard plainText (go! "IBM  ") = go! "IBM" && plainText ([0, 65]) = [] && plainText (go! " a b") = go! " a b"
#guard peerText [0, 5, 1, 2, 3, 4, 5, 255] = go! "5@01:02:03:04:05:ff" && sizeText 2 = go! "2 (65536)"
#guard diagnosisText 0x03030000 = go! "0x3030000 (no SMC device found (R or D))" && diagnosisText 1 = go! "0x1 (Unknown)"

end SMC.Spec
