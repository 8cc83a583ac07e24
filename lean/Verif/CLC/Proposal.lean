import Verif.CLC.Accept
/-!
# Model of pkg/clc: Proposal

The Go variable `skip` is an `int`; it only grows from 8, hence `Nat`. Differences such as
`int(p.Length)-skip` can be negative and are computed in `Int`.
-/

namespace SMC.CLC

/-- pkg/clc/clc_proposal.go:12 `ProposalLen` -/
def ProposalLen : Nat := 52
/-- pkg/clc/clc_proposal.go:13 `IPv6PrefixLen` -/
def IPv6PrefixLen : Nat := 17
/-- pkg/clc/clc_proposal.go:14 `SMCDIPAreaOffset` -/
def SMCDIPAreaOffset : Nat := 40

/-- pkg/clc/clc_proposal.go:17-21 `IPv6Prefix` -/
structure IPv6Prefix where
  pfx : Bytes := []
  prefixLen : UInt8 := 0
deriving DecidableEq, Repr

/-- pkg/clc/clc_proposal.go:23-26 `IPv6Prefix.String` -/
def IPv6Prefix.string (p : IPv6Prefix) : Bytes :=
  sprintf (go! "%s/%d") [.str (ipStr p.pfx), .num p.prefixLen.toNat]

/-- pkg/clc/clc_proposal.go:28-49 `Proposal`; `rsv`, `rsv2` are the fields `reserved`,
`reserved2`; the slice `IPv6Prefixes` is a list, `nil` being `[]` -/
structure Proposal where
  raw : Slice := ⟨[], []⟩
  hdr : Header := {}
  SenderPeerID : Bytes := zeros 8
  IBGID : Bytes := []
  IBMAC : Bytes := []
  IPAreaOffset : UInt16 := 0
  SMCDGID : UInt64 := 0
  rsv : Bytes := zeros 32
  Prefix : Bytes := []
  PrefixLen : UInt8 := 0
  rsv2 : Bytes := zeros 2
  IPv6PrefixesCnt : UInt8 := 0
  IPv6Prefixes : List IPv6Prefix := []
  trailer : Bytes := zeros 4
deriving DecidableEq, Repr

/-- pkg/clc/clc_proposal.go:63-67, 90-94: the texts of the IPv6 prefixes -/
def prefixesStr (ps : List IPv6Prefix) : Bytes :=
  ps.flatMap fun p => sprintf (go! ", IPv6 Prefix: %s") [.str p.string]

/-- pkg/clc/clc_proposal.go:51-75 `Proposal.String`; the receiver is not nil -/
def Proposal.string (p : Proposal) : Bytes :=
  let smcdInfo :=
    if p.IPAreaOffset.toNat = SMCDIPAreaOffset then sprintf (go! "SMC-D GID: %d, ") [.num p.SMCDGID.toNat]
    else []
  sprintf (go! "%s, Peer ID: %s, SMC-R GID: %s, RoCE MAC: %s, IP Area Offset: %d, %sIPv4 Prefix: %s/%d, IPv6 Prefix Count: %d%s, Trailer: %s")
    [.str p.hdr.string, .str (peerIDStr p.SenderPeerID), .str (ipStr p.IBGID), .str (macStr p.IBMAC),
     .num p.IPAreaOffset.toNat, .str smcdInfo, .str (ipStr p.Prefix), .num p.PrefixLen.toNat,
     .num p.IPv6PrefixesCnt.toNat, .str (prefixesStr p.IPv6Prefixes), .str (trailerStr p.trailer)]

/-- pkg/clc/clc_proposal.go:77-103 `Proposal.Reserved`; the receiver is not nil -/
def Proposal.reserved (p : Proposal) : Bytes :=
  let smcdInfo :=
    if p.IPAreaOffset.toNat = SMCDIPAreaOffset then
      sprintf (go! "SMC-D GID: %d, Reserved: %#x, ") [.num p.SMCDGID.toNat, .arr p.rsv]
    else []
  sprintf (go! "%s, Peer ID: %s, SMC-R GID: %s, RoCE MAC: %s, IP Area Offset: %d, %sIPv4 Prefix: %s/%d, Reserved: %#x, IPv6 Prefix Count: %d%s, Trailer: %s")
    [.str p.hdr.reserved, .str (peerIDStr p.SenderPeerID), .str (ipStr p.IBGID), .str (macStr p.IBMAC),
     .num p.IPAreaOffset.toNat, .str smcdInfo, .str (ipStr p.Prefix), .num p.PrefixLen.toNat, .arr p.rsv2,
     .num p.IPv6PrefixesCnt.toNat, .str (prefixesStr p.IPv6Prefixes), .str (trailerStr p.trailer)]

/-- pkg/clc/clc_proposal.go:141-152: the optional SMC-D info; returns the new `skip` -/
def Proposal.parseSMCD (p : Proposal) (buf : Slice) (skip : Nat) : Go (Proposal × Nat) := do
  if p.IPAreaOffset.toNat = SMCDIPAreaOffset then
    let p := { p with SMCDGID := ← be64 (← buf.sub skip (skip + 8)) }
    let skip := skip + 8
    let p := { p with rsv := copyInto p.rsv (← buf.sub skip (skip + 32)).vis }
    let skip := skip + 32
    pure (p, skip)
  else
    pure (p, skip + p.IPAreaOffset.toNat)

/-- pkg/clc/clc_proposal.go:178-203: the loop over the IPv6 prefixes with `n` rounds to go
(`i` counts up to the `uint8` `IPv6PrefixesCnt` and cannot wrap around) -/
def parsePrefixes (length : UInt16) (buf : Slice) : Nat → Nat → List IPv6Prefix → Go (List IPv6Prefix)
  | 0, _, ps => pure ps
  | n + 1, skip, ps => do
    let skip := skip + 1
    if (length.toNat : Int) - skip < IPv6PrefixLen + TrailerLen then
      Go.log (go! "Error parsing CLC Proposal: IPv6 prefix count too big")
      errDump (← buf.sto length.toNat)
      pure ps
    else
      let pfx := copyInto (zeros 16) (← buf.sub skip (skip + 16)).vis
      let skip := skip + 16
      let prefixLen ← buf.idx skip
      parsePrefixes length buf n skip (ps ++ [{ pfx := pfx, prefixLen := prefixLen }])

/-- pkg/clc/clc_proposal.go:105-207 `Proposal.Parse` -/
def Proposal.parse (p : Proposal) (buf : Slice) : Go Proposal := do
  let p := { p with raw := rawParse buf }
  let p := { p with hdr := ← p.hdr.parse buf }
  if p.hdr.Length.toNat < ProposalLen then
    Go.log (go! "Error parsing CLC Proposal: message too short")
    errDump (← buf.sto p.hdr.Length.toNat)
    pure p
  else
    let skip := HeaderLen
    let p := { p with SenderPeerID := copyInto p.SenderPeerID (← buf.sub skip (skip + PeerIDLen)).vis }
    let skip := skip + PeerIDLen
    let p := { p with IBGID := copyInto (zeros 16) (← buf.sub skip (skip + 16)).vis }
    let skip := skip + 16
    let p := { p with IBMAC := copyInto (zeros 6) (← buf.sub skip (skip + 6)).vis }
    let skip := skip + 6
    let p := { p with IPAreaOffset := ← be16 (← buf.sub skip (skip + 2)) }
    let skip := skip + 2
    let (p, skip) ← p.parseSMCD buf skip
    if (p.hdr.Length.toNat : Int) - skip < 4 + 1 + 2 + 1 + TrailerLen then
      Go.log (go! "Error parsing CLC Proposal: IP Area Offset too big")
      errDump (← buf.sto p.hdr.Length.toNat)
      pure p
    else
      let p := { p with Prefix := copyInto (zeros 4) (← buf.sub skip (skip + 4)).vis }
      let skip := skip + 4
      let p := { p with PrefixLen := ← buf.idx skip }
      let skip := skip + 1
      let p := { p with rsv2 := copyInto p.rsv2 (← buf.sub skip (skip + 2)).vis }
      let skip := skip + 2
      let p := { p with IPv6PrefixesCnt := ← buf.idx skip }
      let p := { p with IPv6Prefixes := ← parsePrefixes p.hdr.Length buf p.IPv6PrefixesCnt.toNat skip p.IPv6Prefixes }
      let p := { p with trailer := ← trailerParse p.trailer buf }
      pure p

end SMC.CLC
