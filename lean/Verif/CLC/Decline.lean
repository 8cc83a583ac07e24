import Verif.CLC.Header
/-!
# Model of pkg/clc: Decline
-/

namespace SMC.CLC

/-- pkg/clc/clc_decline.go:11 `DeclineLen` -/
def DeclineLen : Nat := 28

/-- pkg/clc/clc_decline.go:54-118: the `switch` of `PeerDiagnosis.String` with the constants
of lines 16-45 -/
def diagText (p : UInt32) : Bytes :=
  if p = 0x01010000 then go! "insufficient memory resources"
  else if p = 0x02010000 then go! "timeout w4 QP confirm link"
  else if p = 0x02020000 then go! "timeout w4 QP add link"
  else if p = 0x03000000 then go! "configuration error"
  else if p = 0x03010000 then go! "peer did not indicate SMC"
  else if p = 0x03020000 then go! "IPsec usage"
  else if p = 0x03030000 then go! "no SMC device found (R or D)"
  else if p = 0x03030001 then go! "no SMC-D device found"
  else if p = 0x03030002 then go! "no SMC-R device found"
  else if p = 0x03030003 then go! "hardware has no ISMv2 support"
  else if p = 0x03030004 then go! "peer sent no clc v2 extension"
  else if p = 0x03030005 then go! "peer sent no clc SMC-Dv2 ext."
  else if p = 0x03030006 then go! "peer sent no SEID"
  else if p = 0x03030007 then go! "no SMC-Dv2 device found"
  else if p = 0x03040000 then go! "smc modes do not match (R or D)"
  else if p = 0x03050000 then go! "peer has eyecatcher in RMBE"
  else if p = 0x03060000 then go! "fastopen sockopt not supported"
  else if p = 0x03070000 then go! "IP prefix / subnet mismatch"
  else if p = 0x03080000 then go! "err to get vlan id of ip device"
  else if p = 0x03090000 then go! "err to reg vlan id on ism dev"
  else if p = 0x030a0000 then go! "no active smc-r link in lgr"
  else if p = 0x030b0000 then go! "SMC-R link from srv not found"
  else if p = 0x030c0000 then go! "SMC version mismatch"
  else if p = 0x030d0000 then go! "SMC-D DMB limit exceeded"
  else if p = 0x04000000 then go! "synchronization error"
  else if p = 0x05000000 then go! "peer declined during handshake"
  else if p = 0x09990000 then go! "internal error"
  else if p = 0x09990001 then go! "rtoken handling failed"
  else if p = 0x09990002 then go! "ib ready link failed"
  else if p = 0x09990003 then go! "reg rmb failed"
  else go! "Unknown"

/-- pkg/clc/clc_decline.go:51-120 `PeerDiagnosis.String` -/
def peerDiagnosisStr (p : UInt32) : Bytes :=
  sprintf (go! "%#x (%s)") [.num p.toNat, .str (diagText p)]

/-- pkg/clc/clc_decline_v2.go:19-33 `OSType.String` -/
def osTypeStr (o : UInt8) : Bytes :=
  let os :=
    if o = 1 then go! "z/OS"
    else if o = 2 then go! "Linux"
    else if o = 3 then go! "AIX"
    else go! "unknown"
  sprintf (go! "%d (%s)") [.num o.toNat, .str os]

/-- pkg/clc/clc_decline.go:122-131 `Decline`; `rsv` is the field `reserved` -/
structure Decline where
  raw : Slice := ⟨[], []⟩
  hdr : Header := {}
  SenderPeerID : Bytes := zeros 8
  PeerDiagnosis : UInt32 := 0
  OSType : UInt8 := 0
  rsv : Bytes := zeros 4
  trailer : Bytes := zeros 4
deriving DecidableEq, Repr

/-- pkg/clc/clc_decline.go:133-142 `Decline.String`; the receiver is not nil -/
def Decline.string (d : Decline) : Bytes :=
  sprintf (go! "%s, Peer ID: %s, Peer Diagnosis: %s, Trailer: %s")
    [.str d.hdr.string, .str (peerIDStr d.SenderPeerID), .str (peerDiagnosisStr d.PeerDiagnosis),
     .str (trailerStr d.trailer)]

/-- pkg/clc/clc_decline.go:144-155 `Decline.Reserved`; the receiver is not nil -/
def Decline.reserved (d : Decline) : Bytes :=
  sprintf (go! "%s, Peer ID: %s, Peer Diagnosis: %s, Reserved: %#x, Trailer: %s")
    [.str d.hdr.reserved, .str (peerIDStr d.SenderPeerID), .str (peerDiagnosisStr d.PeerDiagnosis),
     .arr d.rsv, .str (trailerStr d.trailer)]

/-- pkg/clc/clc_decline.go:157-189 `Decline.Parse` -/
def Decline.parse (d : Decline) (buf : Slice) : Go Decline := do
  let d := { d with raw := rawParse buf }
  let d := { d with hdr := ← d.hdr.parse buf }
  if d.hdr.Length.toNat < DeclineLen then
    Go.log (go! "Error parsing CLC Decline: message too short")
    errDump (← buf.sto d.hdr.Length.toNat)
    pure d
  else
    let buf ← buf.sfrom HeaderLen
    let d := { d with SenderPeerID := copyInto d.SenderPeerID (← buf.sto PeerIDLen).vis }
    let buf ← buf.sfrom PeerIDLen
    let d := { d with PeerDiagnosis := ← be32 (← buf.sto 4) }
    let buf ← buf.sfrom 4
    let d := { d with rsv := copyInto d.rsv (← buf.sto 4).vis }
    let buf ← buf.sfrom 4
    let d := { d with trailer := ← trailerParse d.trailer buf }
    pure d

/-- pkg/clc/clc_decline_v2.go:35-44 `DeclineV2`; `rsv` is the field `reserved` -/
structure DeclineV2 where
  raw : Slice := ⟨[], []⟩
  hdr : Header := {}
  SenderPeerID : Bytes := zeros 8
  PeerDiagnosis : UInt32 := 0
  OSType : UInt8 := 0
  rsv : Bytes := zeros 4
  trailer : Bytes := zeros 4
deriving DecidableEq, Repr

/-- pkg/clc/clc_decline_v2.go:46-56 `DeclineV2.String`; the receiver is not nil -/
def DeclineV2.string (d : DeclineV2) : Bytes :=
  sprintf (go! "%s, Peer ID: %s, Peer Diagnosis: %s, OS Type: %s, Trailer: %s")
    [.str d.hdr.string, .str (peerIDStr d.SenderPeerID), .str (peerDiagnosisStr d.PeerDiagnosis),
     .str (osTypeStr d.OSType), .str (trailerStr d.trailer)]

/-- pkg/clc/clc_decline_v2.go:58-70 `DeclineV2.Reserved`; the receiver is not nil -/
def DeclineV2.reserved (d : DeclineV2) : Bytes :=
  sprintf (go! "%s, Peer ID: %s, Peer Diagnosis: %s, OS Type: %s, Reserved: %#x, Trailer: %s")
    [.str d.hdr.reserved, .str (peerIDStr d.SenderPeerID), .str (peerDiagnosisStr d.PeerDiagnosis),
     .str (osTypeStr d.OSType), .arr d.rsv, .str (trailerStr d.trailer)]

/-- pkg/clc/clc_decline_v2.go:72-108 `DeclineV2.Parse`; `d.reserved[0] &= 0b00001111` is a
change of the first list element -/
def DeclineV2.parse (d : DeclineV2) (buf : Slice) : Go DeclineV2 := do
  let d := { d with raw := rawParse buf }
  let d := { d with hdr := ← d.hdr.parse buf }
  if d.hdr.Length.toNat < DeclineLen then
    Go.log (go! "Error parsing CLC Decline: message too short")
    errDump (← buf.sto d.hdr.Length.toNat)
    pure d
  else
    let buf ← buf.sfrom HeaderLen
    let d := { d with SenderPeerID := copyInto d.SenderPeerID (← buf.sto PeerIDLen).vis }
    let buf ← buf.sfrom PeerIDLen
    let d := { d with PeerDiagnosis := ← be32 (← buf.sto 4) }
    let buf ← buf.sfrom 4
    let d := { d with rsv := copyInto d.rsv (← buf.sto 4).vis }
    let d := { d with OSType := (← buf.idx 0) >>> 4 }
    let d := { d with rsv := d.rsv.modify 0 (· &&& 0b00001111) }
    let buf ← buf.sfrom 4
    let d := { d with trailer := ← trailerParse d.trailer buf }
    pure d

end SMC.CLC
