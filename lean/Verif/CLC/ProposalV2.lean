import Verif.CLC.Proposal
/-!
# Model of pkg/clc: Proposal version 2
-/

namespace SMC.CLC

/-- pkg/clc/clc_proposal_v2.go:14 `ProposalV2Len` -/
def ProposalV2Len : Nat := 84
/-- pkg/clc/clc_proposal_v2.go:18 `ProposalV2ExtLen` -/
def ProposalV2ExtLen : Nat := 40
/-- pkg/clc/clc_proposal_v2.go:20 `SMCDv2ExtLen` -/
def SMCDv2ExtLen : Nat := 48

/-- pkg/clc/clc_proposal_v2.go:40-44 `GIDEntry` -/
structure GIDEntry where
  GID : UInt64 := 0
  VCHID : UInt16 := 0
deriving DecidableEq, Repr

/-- pkg/clc/clc_proposal_v2.go:46-88 `ProposalV2`; `rsv` … `rsv7` are the fields `reserved` …
`reserved7`; the arrays `[8]EID` and `[8]GIDEntry` are lists -/
structure ProposalV2 where
  raw : Slice := ⟨[], []⟩
  hdr : Header := {}
  SenderPeerID : Bytes := zeros 8
  IBGID : Bytes := []
  IBMAC : Bytes := []
  IPAreaOffset : UInt16 := 0
  SMCDGID : UInt64 := 0
  ISMv2VCHID : UInt16 := 0
  SMCv2Offset : UInt16 := 0
  rsv : Bytes := zeros 28
  Prefix : Bytes := []
  PrefixLen : UInt8 := 0
  rsv2 : Bytes := zeros 2
  IPv6PrefixesCnt : UInt8 := 0
  IPv6Prefixes : List IPv6Prefix := []
  EIDNumber : UInt8 := 0
  GIDNumber : UInt8 := 0
  rsv3 : UInt8 := 0
  Release : UInt8 := 0
  rsv4 : UInt8 := 0
  SEIDInd : UInt8 := 0
  rsv5 : Bytes := zeros 2
  SMCDv2Off : UInt16 := 0
  rsv6 : Bytes := zeros 32
  EIDArea : List Bytes := List.replicate 8 (zeros 32)
  SEID : Bytes := zeros 32
  rsv7 : Bytes := zeros 16
  GIDArea : List GIDEntry := List.replicate 8 {}
  trailer : Bytes := zeros 4
deriving DecidableEq, Repr

/-! ## Text -/

/-- pkg/clc/clc_proposal_v2.go:90-93 `ipV4String` -/
def ProposalV2.ipV4String (p : ProposalV2) : Bytes :=
  sprintf (go! "IPv4 Prefix: %s/%d, ") [.str (ipStr p.Prefix), .num p.PrefixLen.toNat]

/-- pkg/clc/clc_proposal_v2.go:95-102 `ipV6String` -/
def ProposalV2.ipV6String (p : ProposalV2) : Bytes :=
  sprintf (go! "IPv6 Prefix Count: %d") [.num p.IPv6PrefixesCnt.toNat] ++ prefixesStr p.IPv6Prefixes

/-- pkg/clc/clc_proposal_v2.go:104-111 `ipInfoString` -/
def ProposalV2.ipInfoString (p : ProposalV2) : Bytes :=
  if p.hdr.Path = SMCTypeN then [] else p.ipV4String ++ p.ipV6String

/-- pkg/clc/clc_proposal_v2.go:116-124: the loop over the EIDs from index `i` on -/
def eidsStr (n : Nat) : Nat → List Bytes → Bytes
  | _, [] => []
  | i, eid :: eids =>
    if i ≥ n then []
    else (if i > 0 then go! ", " else []) ++ sprintf (go! "EID %d: %s") [.num i, .str (eidStr eid)]
      ++ eidsStr n (i + 1) eids

/-- pkg/clc/clc_proposal_v2.go:113-126 `propV2ExtEIDString` -/
def ProposalV2.propV2ExtEIDString (p : ProposalV2) : Bytes := eidsStr p.EIDNumber.toNat 0 p.EIDArea

/-- pkg/clc/clc_proposal_v2.go:128-142 `propV2ExtString` -/
def ProposalV2.propV2ExtString (p : ProposalV2) : Bytes :=
  if p.hdr.Pathv2 = SMCTypeN then []
  else sprintf (go! "EID Number: %d, GID Number: %d, Release: %d, SEID Indicator: %d, SMC-Dv2 Extension Offset: %d, EID Area: [%s]")
    [.num p.EIDNumber.toNat, .num p.GIDNumber.toNat, .num p.Release.toNat, .num p.SEIDInd.toNat,
     .num p.SMCDv2Off.toNat, .str p.propV2ExtEIDString]

/-- pkg/clc/clc_proposal_v2.go:147-156: the loop over the GIDs from index `i` on -/
def gidsStr (n : Nat) : Nat → List GIDEntry → Bytes
  | _, [] => []
  | i, gid :: gids =>
    if i ≥ n then []
    else (if i > 0 then go! ", " else [])
      ++ sprintf (go! "GID %d: %d, VCHID %d: %d") [.num i, .num gid.GID.toNat, .num i, .num gid.VCHID.toNat]
      ++ gidsStr n (i + 1) gids

/-- pkg/clc/clc_proposal_v2.go:144-158 `smcdV2ExtGIDString` -/
def ProposalV2.smcdV2ExtGIDString (p : ProposalV2) : Bytes := gidsStr p.GIDNumber.toNat 0 p.GIDArea

/-- pkg/clc/clc_proposal_v2.go:160-171 `smcdV2ExtString` -/
def ProposalV2.smcdV2ExtString (p : ProposalV2) : Bytes :=
  if p.hdr.Pathv2 ≠ SMCTypeD ∧ p.hdr.Pathv2 ≠ SMCTypeB then []
  else sprintf (go! "SEID: %s, GID Area: [%s]") [.str (eidStr p.SEID), .str p.smcdV2ExtGIDString]

/-- pkg/clc/clc_proposal_v2.go:181-183 and the like: a comma before a text that is not empty -/
def withComma (s : Bytes) : Bytes := if s ≠ [] then go! ", " ++ s else s

/-- pkg/clc/clc_proposal_v2.go:173-203 `ProposalV2.String`; the receiver is not nil -/
def ProposalV2.string (p : ProposalV2) : Bytes :=
  sprintf (go! "%s, Peer ID: %s, SMC-R GID: %s, RoCE MAC: %s, IP Area Offset: %d, SMC-D GID: %d, ISMv2 VCHID: %d, SMCv2 Extension Offset: %d%s%s%s, Trailer: %s")
    [.str p.hdr.string, .str (peerIDStr p.SenderPeerID), .str (ipStr p.IBGID), .str (macStr p.IBMAC),
     .num p.IPAreaOffset.toNat, .num p.SMCDGID.toNat, .num p.ISMv2VCHID.toNat, .num p.SMCv2Offset.toNat,
     .str (withComma p.ipInfoString), .str (withComma p.propV2ExtString), .str (withComma p.smcdV2ExtString),
     .str (trailerStr p.trailer)]

/-- pkg/clc/clc_proposal_v2.go:205-214 `ipInfoReserved` -/
def ProposalV2.ipInfoReserved (p : ProposalV2) : Bytes :=
  if p.hdr.Path = SMCTypeN then []
  else p.ipV4String ++ sprintf (go! "Reserved: %#x, ") [.arr p.rsv2] ++ p.ipV6String

/-- pkg/clc/clc_proposal_v2.go:216-233 `propV2ExtReserved` -/
def ProposalV2.propV2ExtReserved (p : ProposalV2) : Bytes :=
  if p.hdr.Pathv2 = SMCTypeN then []
  else sprintf (go! "EID Number: %d, GID Number: %d, Reserved: %#x, Release: %d, Reserved: %#x, SEID Indicator: %d, Reserved: %#x, SMC-Dv2 Extension Offset: %d, Reserved: %#x, EID Area: [%s]")
    [.num p.EIDNumber.toNat, .num p.GIDNumber.toNat, .num p.rsv3.toNat, .num p.Release.toNat, .num p.rsv4.toNat,
     .num p.SEIDInd.toNat, .arr p.rsv5, .num p.SMCDv2Off.toNat, .arr p.rsv6, .str p.propV2ExtEIDString]

/-- pkg/clc/clc_proposal_v2.go:235-247 `smcdV2ExtReserved` -/
def ProposalV2.smcdV2ExtReserved (p : ProposalV2) : Bytes :=
  if p.hdr.Pathv2 ≠ SMCTypeD ∧ p.hdr.Pathv2 ≠ SMCTypeB then []
  else sprintf (go! "SEID: %s, Reserved: %#x, GID Area: [%s]")
    [.str (eidStr p.SEID), .arr p.rsv7, .str p.smcdV2ExtGIDString]

/-- pkg/clc/clc_proposal_v2.go:249-280 `ProposalV2.Reserved`; the receiver is not nil -/
def ProposalV2.reserved (p : ProposalV2) : Bytes :=
  sprintf (go! "%s, Peer ID: %s, SMC-R GID: %s, RoCE MAC: %s, IP Area Offset: %d, SMC-D GID: %d, ISMv2 VCHID: %d, SMCv2 Extension Offset: %d, Reserved: %#x%s%s%s, Trailer: %s")
    [.str p.hdr.reserved, .str (peerIDStr p.SenderPeerID), .str (ipStr p.IBGID), .str (macStr p.IBMAC),
     .num p.IPAreaOffset.toNat, .num p.SMCDGID.toNat, .num p.ISMv2VCHID.toNat, .num p.SMCv2Offset.toNat,
     .arr p.rsv, .str (withComma p.ipInfoReserved), .str (withComma p.propV2ExtReserved),
     .str (withComma p.smcdV2ExtReserved), .str (trailerStr p.trailer)]

/-! ## Parsing

The three optional parts return the new `skip`, or `none` where the Go code returns from
`Parse`. -/

/-- pkg/clc/clc_proposal_v2.go:361-384: the loop over the IPv6 prefixes with `n` rounds to
go; unlike in `Proposal.Parse` `skip` is advanced at the end of a round -/
def parsePrefixesV2 (length : UInt16) (buf : Slice) :
    Nat → Nat → List IPv6Prefix → Go (List IPv6Prefix × Nat)
  | 0, skip, ps => pure (ps, skip)
  | n + 1, skip, ps => do
    if (length.toNat : Int) - skip < IPv6PrefixLen + TrailerLen then
      Go.log (go! "Error parsing CLC Proposal v2: IPv6 prefix count too big")
      errDump (← buf.sto length.toNat)
      pure (ps, skip)
    else
      let pfx := copyInto (zeros 16) (← buf.sub skip (skip + 16)).vis
      let skip := skip + 16
      let prefixLen ← buf.idx skip
      let skip := skip + 1
      parsePrefixesV2 length buf n skip (ps ++ [{ pfx := pfx, prefixLen := prefixLen }])

/-- pkg/clc/clc_proposal_v2.go:334-385: the optional IP/prefix info -/
def ProposalV2.parseIPArea (p : ProposalV2) (buf : Slice) (skip : Nat) : Go (ProposalV2 × Option Nat) := do
  if p.hdr.Path ≠ SMCTypeN then
    if (p.hdr.Length.toNat : Int) - skip < 4 + 1 + 2 + 1 + TrailerLen then
      Go.log (go! "Error parsing CLC Proposal v2: IP Area Offset too big")
      errDump (← buf.sto p.hdr.Length.toNat)
      pure (p, none)
    else
      let p := { p with Prefix := copyInto (zeros 4) (← buf.sub skip (skip + 4)).vis }
      let skip := skip + 4
      let p := { p with PrefixLen := ← buf.idx skip }
      let skip := skip + 1
      let p := { p with rsv2 := copyInto p.rsv2 (← buf.sub skip (skip + 2)).vis }
      let skip := skip + 2
      let p := { p with IPv6PrefixesCnt := ← buf.idx skip }
      let skip := skip + 1
      let (ps, skip) ← parsePrefixesV2 p.hdr.Length buf p.IPv6PrefixesCnt.toNat skip p.IPv6Prefixes
      let p := { p with IPv6Prefixes := ps }
      pure (p, some skip)
  else
    pure (p, some skip)

/-- pkg/clc/clc_proposal_v2.go:429-442: the loop over the EIDs from index `i` with `n` rounds
to go; indexing the array `[8]EID` panics from index 8 on -/
def parseEIDs (length : UInt16) (buf : Slice) : Nat → Nat → Nat → List Bytes → Go (List Bytes × Nat)
  | 0, _, skip, es => pure (es, skip)
  | n + 1, i, skip, es => do
    if (length.toNat : Int) - skip < EIDLen + TrailerLen then
      Go.log (go! "Error parsing CLC Proposal v2: EID number too big")
      errDump (← buf.sto length.toNat)
      pure (es, skip)
    else
      match es[i]? with
      | none => .panic []
      | some e =>
        let e := copyInto e (← buf.sub skip (skip + EIDLen)).vis
        let skip := skip + EIDLen
        parseEIDs length buf n (i + 1) skip (es.set i e)

/-- pkg/clc/clc_proposal_v2.go:387-443: the v2 extension -/
def ProposalV2.parseV2Ext (p : ProposalV2) (buf : Slice) (skip : Nat) : Go (ProposalV2 × Option Nat) := do
  if p.hdr.Pathv2 ≠ SMCTypeN then
    if (p.hdr.Length.toNat : Int) - skip < ProposalV2ExtLen + TrailerLen then
      Go.log (go! "Error parsing CLC Proposal v2: Not enough space for Proposal v2 Extension")
      errDump (← buf.sto p.hdr.Length.toNat)
      pure (p, none)
    else
      let p := { p with EIDNumber := ← buf.idx skip }
      let skip := skip + 1
      let p := { p with GIDNumber := ← buf.idx skip }
      let skip := skip + 1
      let p := { p with rsv3 := ← buf.idx skip }
      let skip := skip + 1
      let p := { p with Release := (← buf.idx skip) >>> 4 }
      let p := { p with rsv4 := ((← buf.idx skip) &&& 0b00001110) >>> 1 }
      let p := { p with SEIDInd := (← buf.idx skip) &&& 0b00000001 }
      let skip := skip + 1
      let p := { p with rsv5 := copyInto p.rsv5 (← buf.sub skip (skip + 2)).vis }
      let skip := skip + 2
      let p := { p with SMCDv2Off := ← be16 (← buf.sub skip (skip + 2)) }
      let skip := skip + 2
      let p := { p with rsv6 := copyInto p.rsv6 (← buf.sub skip (skip + 32)).vis }
      let skip := skip + 32
      let (es, skip) ← parseEIDs p.hdr.Length buf p.EIDNumber.toNat 0 skip p.EIDArea
      let p := { p with EIDArea := es }
      pure (p, some skip)
  else
    pure (p, some skip)

/-- pkg/clc/clc_proposal_v2.go:463-482: the loop over the GIDs from index `i` with `n` rounds
to go; indexing the array `[8]GIDEntry` panics from index 8 on -/
def parseGIDs (length : UInt16) (buf : Slice) : Nat → Nat → Nat → List GIDEntry → Go (List GIDEntry)
  | 0, _, _, gs => pure gs
  | n + 1, i, skip, gs => do
    if (length.toNat : Int) - skip < 8 + 2 + TrailerLen then
      Go.log (go! "Error parsing CLC Proposal v2: GID number too big")
      errDump (← buf.sto length.toNat)
      pure gs
    else
      match gs[i]? with
      | none => .panic []
      | some _ =>
        let gid ← be64 (← buf.sub skip (skip + 8))
        let skip := skip + 8
        let vchid ← be16 (← buf.sub skip (skip + 2))
        let skip := skip + 2
        parseGIDs length buf n (i + 1) skip (gs.set i { GID := gid, VCHID := vchid })

/-- pkg/clc/clc_proposal_v2.go:445-483: the SMC-D v2 extension -/
def ProposalV2.parseSMCDExt (p : ProposalV2) (buf : Slice) (skip : Nat) : Go (ProposalV2 × Option Nat) := do
  if p.hdr.Pathv2 = SMCTypeD ∨ p.hdr.Pathv2 = SMCTypeB then
    if (p.hdr.Length.toNat : Int) - skip < SMCDv2ExtLen + TrailerLen then
      Go.log (go! "Error parsing CLC Proposal v2: Not enough space for SMC-D v2 Extension")
      errDump (← buf.sto p.hdr.Length.toNat)
      pure (p, none)
    else
      let p := { p with SEID := copyInto p.SEID (← buf.sub skip (skip + 32)).vis }
      let skip := skip + 32
      let p := { p with rsv7 := copyInto p.rsv7 (← buf.sub skip (skip + 16)).vis }
      let skip := skip + 16
      let p := { p with GIDArea := ← parseGIDs p.hdr.Length buf p.GIDNumber.toNat 0 skip p.GIDArea }
      pure (p, some skip)
  else
    pure (p, some skip)

/-- pkg/clc/clc_proposal_v2.go:300-332: the fields up to byte 80 -/
def ProposalV2.parseFixed (p : ProposalV2) (buf : Slice) : Go (ProposalV2 × Nat) := do
  let skip := HeaderLen
  let p := { p with SenderPeerID := copyInto p.SenderPeerID (← buf.sub skip (skip + PeerIDLen)).vis }
  let skip := skip + PeerIDLen
  let p := { p with IBGID := copyInto (zeros 16) (← buf.sub skip (skip + 16)).vis }
  let skip := skip + 16
  let p := { p with IBMAC := copyInto (zeros 6) (← buf.sub skip (skip + 6)).vis }
  let skip := skip + 6
  let p := { p with IPAreaOffset := ← be16 (← buf.sub skip (skip + 2)) }
  let skip := skip + 2
  let p := { p with SMCDGID := ← be64 (← buf.sub skip (skip + 8)) }
  let skip := skip + 8
  let p := { p with ISMv2VCHID := ← be16 (← buf.sub skip (skip + 2)) }
  let skip := skip + 2
  let p := { p with SMCv2Offset := ← be16 (← buf.sub skip (skip + 2)) }
  let skip := skip + 2
  let p := { p with rsv := copyInto p.rsv (← buf.sub skip (skip + 28)).vis }
  let skip := skip + 28
  pure (p, skip)

/-- pkg/clc/clc_proposal_v2.go:282-487 `ProposalV2.Parse` -/
def ProposalV2.parse (p : ProposalV2) (buf : Slice) : Go ProposalV2 := do
  let p := { p with raw := rawParse buf }
  let p := { p with hdr := ← p.hdr.parse buf }
  if p.hdr.Length.toNat < ProposalV2Len then
    Go.log (go! "Error parsing CLC Proposal v2: message too short")
    errDump (← buf.sto p.hdr.Length.toNat)
    pure p
  else
    let (p, skip) ← p.parseFixed buf
    match ← p.parseIPArea buf skip with
    | (p, none) => pure p
    | (p, some skip) =>
      match ← p.parseV2Ext buf skip with
      | (p, none) => pure p
      | (p, some skip) =>
        match ← p.parseSMCDExt buf skip with
        | (p, none) => pure p
        | (p, some _) =>
          let p := { p with trailer := ← trailerParse p.trailer buf }
          pure p

end SMC.CLC
