import Verif.CLC.Decline
/-!
# Model of pkg/clc: Accept and Confirm
-/

namespace SMC.CLC

/-! ## SMC-R -/

/-- pkg/clc/clc_accept_smcr.go:12 `AcceptSMCRLen` -/
def AcceptSMCRLen : Nat := 68

/-- pkg/clc/clc_accept_smcr.go:18-42 `QPMTU.String` -/
def qpmtuStr (m : UInt8) : Bytes :=
  let mtu :=
    if m = 1 then go! "256"
    else if m = 2 then go! "512"
    else if m = 3 then go! "1024"
    else if m = 4 then go! "2048"
    else if m = 5 then go! "4096"
    else go! "reserved"
  sprintf (go! "%d (%s)") [.num m.toNat, .str mtu]

/-- pkg/clc/clc_accept_smcr.go:44-62 `AcceptSMCR`; `rsv`, `rsv2` are the fields `reserved`,
`reserved2`. The `int` fields QPN and PSN only hold non-negative values. -/
structure AcceptSMCR where
  raw : Slice := ⟨[], []⟩
  hdr : Header := {}
  SenderPeerID : Bytes := zeros 8
  IBGID : Bytes := []
  IBMAC : Bytes := []
  QPN : Nat := 0
  RMBRKey : UInt32 := 0
  RMBEIdx : UInt8 := 0
  RMBEAlertToken : UInt32 := 0
  RMBESize : UInt8 := 0
  QPMTU : UInt8 := 0
  rsv : UInt8 := 0
  RMBDMAAddr : UInt64 := 0
  rsv2 : UInt8 := 0
  PSN : Nat := 0
  trailer : Bytes := zeros 4
deriving DecidableEq, Repr

/-- pkg/clc/clc_accept_smcr.go:64-79 `AcceptSMCR.String`; the receiver is not nil -/
def AcceptSMCR.string (ac : AcceptSMCR) : Bytes :=
  sprintf (go! "%s, Peer ID: %s, SMC-R GID: %s, RoCE MAC: %s, QP Number: %d, RMB RKey: %d, RMBE Index: %d, RMBE Alert Token: %d, RMBE Size: %s, QP MTU: %s, RMB Virtual Address: %#x, Packet Sequence Number: %d, Trailer: %s")
    [.str ac.hdr.string, .str (peerIDStr ac.SenderPeerID), .str (ipStr ac.IBGID), .str (macStr ac.IBMAC),
     .num ac.QPN, .num ac.RMBRKey.toNat, .num ac.RMBEIdx.toNat, .num ac.RMBEAlertToken.toNat,
     .str (rmbeSizeStr ac.RMBESize), .str (qpmtuStr ac.QPMTU), .num ac.RMBDMAAddr.toNat, .num ac.PSN,
     .str (trailerStr ac.trailer)]

/-- pkg/clc/clc_accept_smcr.go:81-97 `AcceptSMCR.Reserved`; the receiver is not nil -/
def AcceptSMCR.reserved (ac : AcceptSMCR) : Bytes :=
  sprintf (go! "%s, Peer ID: %s, SMC-R GID: %s, RoCE MAC: %s, QP Number: %d, RMB RKey: %d, RMBE Index: %d, RMBE Alert Token: %d, RMBE Size: %s, QP MTU: %s, Reserved: %#x, RMB Virtual Address: %#x, Reserved: %#x, Packet Sequence Number: %d, Trailer: %s")
    [.str ac.hdr.reserved, .str (peerIDStr ac.SenderPeerID), .str (ipStr ac.IBGID), .str (macStr ac.IBMAC),
     .num ac.QPN, .num ac.RMBRKey.toNat, .num ac.RMBEIdx.toNat, .num ac.RMBEAlertToken.toNat,
     .str (rmbeSizeStr ac.RMBESize), .str (qpmtuStr ac.QPMTU), .num ac.rsv.toNat, .num ac.RMBDMAAddr.toNat,
     .num ac.rsv2.toNat, .num ac.PSN, .str (trailerStr ac.trailer)]

/-- pkg/clc/clc_accept_smcr.go:99-178 `AcceptSMCR.Parse` -/
def AcceptSMCR.parse (ac : AcceptSMCR) (buf : Slice) : Go AcceptSMCR := do
  let ac := { ac with raw := rawParse buf }
  let ac := { ac with hdr := ← ac.hdr.parse buf }
  if ac.hdr.Length.toNat < AcceptSMCRLen then
    Go.log (if ac.hdr.Typ = TypeConfirm then go! "Error parsing CLC Confirm: message too short"
      else go! "Error parsing CLC Accept: message too short")
    errDump (← buf.sto ac.hdr.Length.toNat)
    pure ac
  else
    let buf ← buf.sfrom HeaderLen
    let ac := { ac with SenderPeerID := copyInto ac.SenderPeerID (← buf.sto PeerIDLen).vis }
    let buf ← buf.sfrom PeerIDLen
    let ac := { ac with IBGID := copyInto (zeros 16) (← buf.sto 16).vis }
    let buf ← buf.sfrom 16
    let ac := { ac with IBMAC := copyInto (zeros 6) (← buf.sto 6).vis }
    let buf ← buf.sfrom 6
    let ac := { ac with QPN := (← buf.idx 0).toNat <<< 16 }
    let ac := { ac with QPN := ac.QPN ||| ((← buf.idx 1).toNat <<< 8) }
    let ac := { ac with QPN := ac.QPN ||| (← buf.idx 2).toNat }
    let buf ← buf.sfrom 3
    let ac := { ac with RMBRKey := ← be32 (← buf.sto 4) }
    let buf ← buf.sfrom 4
    let ac := { ac with RMBEIdx := ← buf.idx 0 }
    let buf ← buf.sfrom 1
    let ac := { ac with RMBEAlertToken := ← be32 (← buf.sto 4) }
    let buf ← buf.sfrom 4
    let ac := { ac with RMBESize := ((← buf.idx 0) &&& 0b11110000) >>> 4 }
    let ac := { ac with QPMTU := (← buf.idx 0) &&& 0b00001111 }
    let buf ← buf.sfrom 1
    let ac := { ac with rsv := ← buf.idx 0 }
    let buf ← buf.sfrom 1
    let ac := { ac with RMBDMAAddr := ← be64 (← buf.sto 8) }
    let buf ← buf.sfrom 8
    let ac := { ac with rsv2 := ← buf.idx 0 }
    let buf ← buf.sfrom 1
    let ac := { ac with PSN := (← buf.idx 0).toNat <<< 16 }
    let ac := { ac with PSN := ac.PSN ||| ((← buf.idx 1).toNat <<< 8) }
    let ac := { ac with PSN := ac.PSN ||| (← buf.idx 2).toNat }
    let buf ← buf.sfrom 3
    let ac := { ac with trailer := ← trailerParse ac.trailer buf }
    pure ac

/-! ## SMC-D -/

/-- pkg/clc/clc_accept_smcd.go:11 `AcceptSMCDLen` -/
def AcceptSMCDLen : Nat := 48

/-- pkg/clc/clc_accept_smcd.go:14-27 `AcceptSMCD`; `rsv`, `rsv2`, `rsv3` are the fields
`reserved`, `reserved2`, `reserved3` -/
structure AcceptSMCD where
  raw : Slice := ⟨[], []⟩
  hdr : Header := {}
  GID : UInt64 := 0
  Token : UInt64 := 0
  DMBEIdx : UInt8 := 0
  DMBESize : UInt8 := 0
  rsv : UInt8 := 0
  rsv2 : Bytes := zeros 2
  LinkID : UInt32 := 0
  rsv3 : Bytes := zeros 12
  trailer : Bytes := zeros 4
deriving DecidableEq, Repr

/-- pkg/clc/clc_accept_smcd.go:29-39 `AcceptSMCD.String`; the receiver is not nil -/
def AcceptSMCD.string (ac : AcceptSMCD) : Bytes :=
  sprintf (go! "%s, SMC-D GID: %d, SMC-D Token: %d, DMBE Index: %d, DMBE Size: %s, Link ID: %d, Trailer: %s")
    [.str ac.hdr.string, .num ac.GID.toNat, .num ac.Token.toNat, .num ac.DMBEIdx.toNat,
     .str (rmbeSizeStr ac.DMBESize), .num ac.LinkID.toNat, .str (trailerStr ac.trailer)]

/-- pkg/clc/clc_accept_smcd.go:41-54 `AcceptSMCD.Reserved`; the receiver is not nil -/
def AcceptSMCD.reserved (ac : AcceptSMCD) : Bytes :=
  sprintf (go! "%s, SMC-D GID: %d, SMC-D Token: %d, DMBE Index: %d, DMBE Size: %s, Reserved: %#x, Reserved: %#x, Link ID: %d, Reserved: %#x, Trailer: %s")
    [.str ac.hdr.reserved, .num ac.GID.toNat, .num ac.Token.toNat, .num ac.DMBEIdx.toNat,
     .str (rmbeSizeStr ac.DMBESize), .num ac.rsv.toNat, .arr ac.rsv2, .num ac.LinkID.toNat, .arr ac.rsv3,
     .str (trailerStr ac.trailer)]

/-- pkg/clc/clc_accept_smcd.go:56-109 `AcceptSMCD.Parse` -/
def AcceptSMCD.parse (ac : AcceptSMCD) (buf : Slice) : Go AcceptSMCD := do
  let ac := { ac with raw := rawParse buf }
  let ac := { ac with hdr := ← ac.hdr.parse buf }
  if ac.hdr.Length.toNat < AcceptSMCDLen then
    Go.log (if ac.hdr.Typ = TypeConfirm then go! "Error parsing CLC Confirm: message too short"
      else go! "Error parsing CLC Accept: message too short")
    errDump (← buf.sto ac.hdr.Length.toNat)
    pure ac
  else
    let buf ← buf.sfrom HeaderLen
    let ac := { ac with GID := ← be64 (← buf.sto 8) }
    let buf ← buf.sfrom 8
    let ac := { ac with Token := ← be64 (← buf.sto 8) }
    let buf ← buf.sfrom 8
    let ac := { ac with DMBEIdx := ← buf.idx 0 }
    let buf ← buf.sfrom 1
    let ac := { ac with DMBESize := ((← buf.idx 0) &&& 0b11110000) >>> 4 }
    let ac := { ac with rsv := (← buf.idx 0) &&& 0b00001111 }
    let buf ← buf.sfrom 1
    let ac := { ac with rsv2 := copyInto ac.rsv2 (← buf.sto 2).vis }
    let buf ← buf.sfrom 2
    let ac := { ac with LinkID := ← be32 (← buf.sto 4) }
    let buf ← buf.sfrom 4
    let ac := { ac with rsv3 := copyInto ac.rsv3 (← buf.sto 12).vis }
    let buf ← buf.sfrom 12
    let ac := { ac with trailer := ← trailerParse ac.trailer buf }
    pure ac

/-! ## SMC-D version 2 -/

/-- pkg/clc/clc_proposal_v2.go:16 `EIDLen` -/
def EIDLen : Nat := 32

/-- `bytes.TrimRight(s, " ")` -/
def trimRight (s : Bytes) : Bytes := (s.reverse.dropWhile (· = 32)).reverse

/-- pkg/clc/clc_proposal_v2.go:26-38 `EID.String`: `bytes.IndexByte(e[:], 0)`, or the whole
array if there is none -/
def eidStr (e : Bytes) : Bytes :=
  let end_ := (e.findIdx? (· = 0)).getD e.length
  let s := trimRight (e.take end_)
  sprintf (go! "%s") [.str s]

/-- pkg/clc/clc_accept_smcd_v2.go:11 `AcceptSMCDv2Len` -/
def AcceptSMCDv2Len : Nat := 78
/-- pkg/clc/clc_accept_smcd_v2.go:13 `AcceptSMCDv2FCELen` -/
def AcceptSMCDv2FCELen : Nat := 114

/-- pkg/clc/clc_accept_smcd_v2.go:16-39 `AcceptSMCDv2`; `rsv` … `rsv5` are the fields
`reserved` … `reserved5` -/
structure AcceptSMCDv2 where
  raw : Slice := ⟨[], []⟩
  hdr : Header := {}
  GID : UInt64 := 0
  Token : UInt64 := 0
  DMBEIdx : UInt8 := 0
  DMBESize : UInt8 := 0
  rsv : UInt8 := 0
  rsv2 : Bytes := zeros 2
  LinkID : UInt32 := 0
  ISMv2VCHID : UInt16 := 0
  EID : Bytes := zeros 32
  rsv3 : Bytes := zeros 8
  rsv4 : UInt8 := 0
  OSType : UInt8 := 0
  Release : UInt8 := 0
  rsv5 : Bytes := zeros 2
  Hostname : Bytes := zeros 32
  trailer : Bytes := zeros 4
deriving DecidableEq, Repr

/-- pkg/clc/clc_accept_smcd_v2.go:41-48 `AcceptSMCDv2.fceString` -/
def AcceptSMCDv2.fceString (ac : AcceptSMCDv2) : Bytes :=
  if ac.hdr.Length.toNat < AcceptSMCDv2FCELen then []
  else sprintf (go! ", OS Type: %s, Release: %d, Hostname: %s")
    [.str (osTypeStr ac.OSType), .num ac.Release.toNat, .str (eidStr ac.Hostname)]

/-- pkg/clc/clc_accept_smcd_v2.go:50-62 `AcceptSMCDv2.String`; the receiver is not nil -/
def AcceptSMCDv2.string (ac : AcceptSMCDv2) : Bytes :=
  sprintf (go! "%s, SMC-D GID: %d, SMC-D Token: %d, DMBE Index: %d, DMBE Size: %s, Link ID: %d, ISMv2 VCHID: %d, EID: %s%s, Trailer: %s")
    [.str ac.hdr.string, .num ac.GID.toNat, .num ac.Token.toNat, .num ac.DMBEIdx.toNat,
     .str (rmbeSizeStr ac.DMBESize), .num ac.LinkID.toNat, .num ac.ISMv2VCHID.toNat, .str (eidStr ac.EID),
     .str ac.fceString, .str (trailerStr ac.trailer)]

/-- pkg/clc/clc_accept_smcd_v2.go:64-74 `AcceptSMCDv2.fceReserved` -/
def AcceptSMCDv2.fceReserved (ac : AcceptSMCDv2) : Bytes :=
  if ac.hdr.Length.toNat < AcceptSMCDv2FCELen then []
  else sprintf (go! ", Reserved: %#x, OS Type: %s, Release: %d, Reserved: %#x, Hostname: %s")
    [.num ac.rsv4.toNat, .str (osTypeStr ac.OSType), .num ac.Release.toNat, .arr ac.rsv5,
     .str (eidStr ac.Hostname)]

/-- pkg/clc/clc_accept_smcd_v2.go:76-91 `AcceptSMCDv2.Reserved`; the receiver is not nil -/
def AcceptSMCDv2.reserved (ac : AcceptSMCDv2) : Bytes :=
  sprintf (go! "%s, SMC-D GID: %d, SMC-D Token: %d, DMBE Index: %d, DMBE Size: %s, Reserved: %#x, Reserved: %#x, Link ID: %d, ISMv2 VCHID: %d, EID: %s, Reserved: %#x%s, Trailer: %s")
    [.str ac.hdr.reserved, .num ac.GID.toNat, .num ac.Token.toNat, .num ac.DMBEIdx.toNat,
     .str (rmbeSizeStr ac.DMBESize), .num ac.rsv.toNat, .arr ac.rsv2, .num ac.LinkID.toNat,
     .num ac.ISMv2VCHID.toNat, .str (eidStr ac.EID), .arr ac.rsv3, .str ac.fceReserved,
     .str (trailerStr ac.trailer)]

/-- pkg/clc/clc_accept_smcd_v2.go:155-171: the first contact extension; returns the rest of
the buffer -/
def AcceptSMCDv2.parseFCE (ac : AcceptSMCDv2) (buf : Slice) : Go (AcceptSMCDv2 × Slice) := do
  let ac := { ac with rsv4 := ← buf.idx 0 }
  let buf ← buf.sfrom 1
  let ac := { ac with OSType := (← buf.idx 0) >>> 4 }
  let ac := { ac with Release := (← buf.idx 0) &&& 0b00001111 }
  let buf ← buf.sfrom 1
  let ac := { ac with rsv5 := copyInto ac.rsv5 (← buf.sto 2).vis }
  let buf ← buf.sfrom 2
  let ac := { ac with Hostname := copyInto ac.Hostname (← buf.sto EIDLen).vis }
  let buf ← buf.sfrom EIDLen
  pure (ac, buf)

/-- pkg/clc/clc_accept_smcd_v2.go:93-176 `AcceptSMCDv2.Parse` -/
def AcceptSMCDv2.parse (ac : AcceptSMCDv2) (buf : Slice) : Go AcceptSMCDv2 := do
  let ac := { ac with raw := rawParse buf }
  let ac := { ac with hdr := ← ac.hdr.parse buf }
  if ac.hdr.Length.toNat < AcceptSMCDv2Len ∨ buf.len < AcceptSMCDv2Len then
    Go.log (if ac.hdr.Typ = TypeConfirm then go! "Error parsing SMC-Dv2 CLC Confirm: message too short"
      else go! "Error parsing SMC-Dv2 CLC Accept: message too short")
    errDump (← buf.sto ac.hdr.Length.toNat)
    pure ac
  else
    let buf ← buf.sfrom HeaderLen
    let ac := { ac with GID := ← be64 (← buf.sto 8) }
    let buf ← buf.sfrom 8
    let ac := { ac with Token := ← be64 (← buf.sto 8) }
    let buf ← buf.sfrom 8
    let ac := { ac with DMBEIdx := ← buf.idx 0 }
    let buf ← buf.sfrom 1
    let ac := { ac with DMBESize := ((← buf.idx 0) &&& 0b11110000) >>> 4 }
    let ac := { ac with rsv := (← buf.idx 0) &&& 0b00001111 }
    let buf ← buf.sfrom 1
    let ac := { ac with rsv2 := copyInto ac.rsv2 (← buf.sto 2).vis }
    let buf ← buf.sfrom 2
    let ac := { ac with LinkID := ← be32 (← buf.sto 4) }
    let buf ← buf.sfrom 4
    let ac := { ac with ISMv2VCHID := ← be16 (← buf.sto 2) }
    let buf ← buf.sfrom 2
    let ac := { ac with EID := copyInto ac.EID (← buf.sto EIDLen).vis }
    let buf ← buf.sfrom EIDLen
    let ac := { ac with rsv3 := copyInto ac.rsv3 (← buf.sto 8).vis }
    let buf ← buf.sfrom 8
    let (ac, buf) ← if ac.hdr.Length.toNat = AcceptSMCDv2FCELen then ac.parseFCE buf else pure (ac, buf)
    let ac := { ac with trailer := ← trailerParse ac.trailer buf }
    pure ac

end SMC.CLC
