import Verif.Crash.Basic
/-!
# What a panic leaves behind: pkg/clc
-/

namespace SMC.CLC
open SGo

/-- pkg/clc/header.go:87-105 `Header.Parse` -/
def Header.parseS (buf : Slice) : SGo Header Unit := do
  let x ← buf.sto EyecatcherLen
  assign fun h => { h with Eyecatcher := copyInto h.Eyecatcher x.vis }
  let x ← buf.idx 4
  assign ({ · with Typ := x })
  let x ← be16 (← buf.sub 5 7)
  assign ({ · with Length := x })
  let bitfield ← buf.idx 7
  assign fun h => { h with Version := (bitfield &&& 0b11110000) >>> 4 }
  assign fun h => { h with Flag := (bitfield &&& 0b00001000) >>> 3 }
  assign fun h => { h with rsv := (bitfield &&& 0b00000100) >>> 2 }
  assign fun h => { h with Pathv2 := (bitfield &&& 0b00001100) >>> 2 }
  assign fun h => { h with Path := bitfield &&& 0b00000011 }

/-- pkg/clc/trailer.go:13-21 `Trailer.Parse` -/
def trailerParseS (buf : Slice) : SGo Bytes Unit := do
  let b ← lastBytes buf
  assign (copyInto · b.vis)
  let t ← gets id
  if (← hasEyecatcher ⟨t, []⟩) = false then
    Go.log (go! "Error parsing CLC message: invalid trailer")
    errDump (← lastBytes buf)

/-- pkg/clc/clc_decline.go:157-189 `Decline.Parse` -/
def Decline.parseS (buf : Slice) : SGo Decline Unit := do
  assign fun d => { d with raw := rawParse buf }
  within (·.hdr) (fun h m => { m with hdr := h }) (Header.parseS buf)
  let length ← gets (·.hdr.Length)
  if length.toNat < DeclineLen then
    Go.log (go! "Error parsing CLC Decline: message too short")
    errDump (← buf.sto length.toNat)
  else
    let buf ← buf.sfrom HeaderLen
    let x ← buf.sto PeerIDLen
    assign fun d => { d with SenderPeerID := copyInto d.SenderPeerID x.vis }
    let buf ← buf.sfrom PeerIDLen
    let x ← be32 (← buf.sto 4)
    assign ({ · with PeerDiagnosis := x })
    let buf ← buf.sfrom 4
    let x ← buf.sto 4
    assign fun d => { d with rsv := copyInto d.rsv x.vis }
    let buf ← buf.sfrom 4
    within (·.trailer) (fun t m => { m with trailer := t }) (trailerParseS buf)

/-- pkg/clc/clc_decline_v2.go:72-108 `DeclineV2.Parse`; `d.reserved[0] &= 0b00001111` is a
change of the first list element -/
def DeclineV2.parseS (buf : Slice) : SGo DeclineV2 Unit := do
  assign fun d => { d with raw := rawParse buf }
  within (·.hdr) (fun h m => { m with hdr := h }) (Header.parseS buf)
  let length ← gets (·.hdr.Length)
  if length.toNat < DeclineLen then
    Go.log (go! "Error parsing CLC Decline: message too short")
    errDump (← buf.sto length.toNat)
  else
    let buf ← buf.sfrom HeaderLen
    let x ← buf.sto PeerIDLen
    assign fun d => { d with SenderPeerID := copyInto d.SenderPeerID x.vis }
    let buf ← buf.sfrom PeerIDLen
    let x ← be32 (← buf.sto 4)
    assign ({ · with PeerDiagnosis := x })
    let buf ← buf.sfrom 4
    let x ← buf.sto 4
    assign fun d => { d with rsv := copyInto d.rsv x.vis }
    let x ← buf.idx 0
    assign ({ · with OSType := x >>> 4 })
    assign fun d => { d with rsv := d.rsv.modify 0 (· &&& 0b00001111) }
    let buf ← buf.sfrom 4
    within (·.trailer) (fun t m => { m with trailer := t }) (trailerParseS buf)

/-- pkg/clc/clc_accept_smcr.go:99-178 `AcceptSMCR.Parse` -/
def AcceptSMCR.parseS (buf : Slice) : SGo AcceptSMCR Unit := do
  assign fun ac => { ac with raw := rawParse buf }
  within (·.hdr) (fun h m => { m with hdr := h }) (Header.parseS buf)
  let length ← gets (·.hdr.Length)
  if length.toNat < AcceptSMCRLen then
    let typ ← gets (·.hdr.Typ)
    Go.log (if typ = TypeConfirm then go! "Error parsing CLC Confirm: message too short"
      else go! "Error parsing CLC Accept: message too short")
    errDump (← buf.sto length.toNat)
  else
    let buf ← buf.sfrom HeaderLen
    let x ← buf.sto PeerIDLen
    assign fun ac => { ac with SenderPeerID := copyInto ac.SenderPeerID x.vis }
    let buf ← buf.sfrom PeerIDLen
    assign ({ · with IBGID := zeros 16 })
    let b ← buf.sto 16
    assign fun ac => { ac with IBGID := copyInto ac.IBGID b.vis }
    let buf ← buf.sfrom 16
    assign ({ · with IBMAC := zeros 6 })
    let b ← buf.sto 6
    assign fun ac => { ac with IBMAC := copyInto ac.IBMAC b.vis }
    let buf ← buf.sfrom 6
    let x ← buf.idx 0
    assign ({ · with QPN := x.toNat <<< 16 })
    let x ← buf.idx 1
    assign fun ac => { ac with QPN := ac.QPN ||| (x.toNat <<< 8) }
    let x ← buf.idx 2
    assign fun ac => { ac with QPN := ac.QPN ||| x.toNat }
    let buf ← buf.sfrom 3
    let x ← be32 (← buf.sto 4)
    assign ({ · with RMBRKey := x })
    let buf ← buf.sfrom 4
    let x ← buf.idx 0
    assign ({ · with RMBEIdx := x })
    let buf ← buf.sfrom 1
    let x ← be32 (← buf.sto 4)
    assign ({ · with RMBEAlertToken := x })
    let buf ← buf.sfrom 4
    let x ← buf.idx 0
    assign ({ · with RMBESize := (x &&& 0b11110000) >>> 4 })
    let x ← buf.idx 0
    assign ({ · with QPMTU := x &&& 0b00001111 })
    let buf ← buf.sfrom 1
    let x ← buf.idx 0
    assign ({ · with rsv := x })
    let buf ← buf.sfrom 1
    let x ← be64 (← buf.sto 8)
    assign ({ · with RMBDMAAddr := x })
    let buf ← buf.sfrom 8
    let x ← buf.idx 0
    assign ({ · with rsv2 := x })
    let buf ← buf.sfrom 1
    let x ← buf.idx 0
    assign ({ · with PSN := x.toNat <<< 16 })
    let x ← buf.idx 1
    assign fun ac => { ac with PSN := ac.PSN ||| (x.toNat <<< 8) }
    let x ← buf.idx 2
    assign fun ac => { ac with PSN := ac.PSN ||| x.toNat }
    let buf ← buf.sfrom 3
    within (·.trailer) (fun t m => { m with trailer := t }) (trailerParseS buf)

/-- pkg/clc/clc_accept_smcd.go:56-109 `AcceptSMCD.Parse` -/
def AcceptSMCD.parseS (buf : Slice) : SGo AcceptSMCD Unit := do
  assign fun ac => { ac with raw := rawParse buf }
  within (·.hdr) (fun h m => { m with hdr := h }) (Header.parseS buf)
  let length ← gets (·.hdr.Length)
  if length.toNat < AcceptSMCDLen then
    let typ ← gets (·.hdr.Typ)
    Go.log (if typ = TypeConfirm then go! "Error parsing CLC Confirm: message too short"
      else go! "Error parsing CLC Accept: message too short")
    errDump (← buf.sto length.toNat)
  else
    let buf ← buf.sfrom HeaderLen
    let x ← be64 (← buf.sto 8)
    assign ({ · with GID := x })
    let buf ← buf.sfrom 8
    let x ← be64 (← buf.sto 8)
    assign ({ · with Token := x })
    let buf ← buf.sfrom 8
    let x ← buf.idx 0
    assign ({ · with DMBEIdx := x })
    let buf ← buf.sfrom 1
    let x ← buf.idx 0
    assign ({ · with DMBESize := (x &&& 0b11110000) >>> 4 })
    let x ← buf.idx 0
    assign ({ · with rsv := x &&& 0b00001111 })
    let buf ← buf.sfrom 1
    let x ← buf.sto 2
    assign fun ac => { ac with rsv2 := copyInto ac.rsv2 x.vis }
    let buf ← buf.sfrom 2
    let x ← be32 (← buf.sto 4)
    assign ({ · with LinkID := x })
    let buf ← buf.sfrom 4
    let x ← buf.sto 12
    assign fun ac => { ac with rsv3 := copyInto ac.rsv3 x.vis }
    let buf ← buf.sfrom 12
    within (·.trailer) (fun t m => { m with trailer := t }) (trailerParseS buf)

/-- pkg/clc/clc_accept_smcd_v2.go:155-171: the first contact extension; returns the rest of
the buffer -/
def AcceptSMCDv2.parseFCES (buf : Slice) : SGo AcceptSMCDv2 Slice := do
  let x ← buf.idx 0
  assign ({ · with rsv4 := x })
  let buf ← buf.sfrom 1
  let x ← buf.idx 0
  assign ({ · with OSType := x >>> 4 })
  let x ← buf.idx 0
  assign ({ · with Release := x &&& 0b00001111 })
  let buf ← buf.sfrom 1
  let x ← buf.sto 2
  assign fun ac => { ac with rsv5 := copyInto ac.rsv5 x.vis }
  let buf ← buf.sfrom 2
  let x ← buf.sto EIDLen
  assign fun ac => { ac with Hostname := copyInto ac.Hostname x.vis }
  let buf ← buf.sfrom EIDLen
  pure buf

/-- pkg/clc/clc_accept_smcd_v2.go:93-176 `AcceptSMCDv2.Parse` -/
def AcceptSMCDv2.parseS (buf : Slice) : SGo AcceptSMCDv2 Unit := do
  assign fun ac => { ac with raw := rawParse buf }
  within (·.hdr) (fun h m => { m with hdr := h }) (Header.parseS buf)
  let length ← gets (·.hdr.Length)
  if length.toNat < AcceptSMCDv2Len ∨ buf.len < AcceptSMCDv2Len then
    let typ ← gets (·.hdr.Typ)
    Go.log (if typ = TypeConfirm then go! "Error parsing SMC-Dv2 CLC Confirm: message too short"
      else go! "Error parsing SMC-Dv2 CLC Accept: message too short")
    errDump (← buf.sto length.toNat)
  else
    let buf ← buf.sfrom HeaderLen
    let x ← be64 (← buf.sto 8)
    assign ({ · with GID := x })
    let buf ← buf.sfrom 8
    let x ← be64 (← buf.sto 8)
    assign ({ · with Token := x })
    let buf ← buf.sfrom 8
    let x ← buf.idx 0
    assign ({ · with DMBEIdx := x })
    let buf ← buf.sfrom 1
    let x ← buf.idx 0
    assign ({ · with DMBESize := (x &&& 0b11110000) >>> 4 })
    let x ← buf.idx 0
    assign ({ · with rsv := x &&& 0b00001111 })
    let buf ← buf.sfrom 1
    let x ← buf.sto 2
    assign fun ac => { ac with rsv2 := copyInto ac.rsv2 x.vis }
    let buf ← buf.sfrom 2
    let x ← be32 (← buf.sto 4)
    assign ({ · with LinkID := x })
    let buf ← buf.sfrom 4
    let x ← be16 (← buf.sto 2)
    assign ({ · with ISMv2VCHID := x })
    let buf ← buf.sfrom 2
    let x ← buf.sto EIDLen
    assign fun ac => { ac with EID := copyInto ac.EID x.vis }
    let buf ← buf.sfrom EIDLen
    let x ← buf.sto 8
    assign fun ac => { ac with rsv3 := copyInto ac.rsv3 x.vis }
    let buf ← buf.sfrom 8
    let length ← gets (·.hdr.Length)
    let buf ← if length.toNat = AcceptSMCDv2FCELen then AcceptSMCDv2.parseFCES buf else pure buf
    within (·.trailer) (fun t m => { m with trailer := t }) (trailerParseS buf)

/-- pkg/clc/clc_proposal.go:141-152: the optional SMC-D info; returns the new `skip` -/
def Proposal.parseSMCDS (buf : Slice) (skip : Nat) : SGo Proposal Nat := do
  let offset ← gets (·.IPAreaOffset)
  if offset.toNat = SMCDIPAreaOffset then
    let x ← be64 (← buf.sub skip (skip + 8))
    assign ({ · with SMCDGID := x })
    let skip := skip + 8
    let x ← buf.sub skip (skip + 32)
    assign fun p => { p with rsv := copyInto p.rsv x.vis }
    let skip := skip + 32
    pure skip
  else
    pure (skip + offset.toNat)

/-- pkg/clc/clc_proposal.go:178-203: the loop over the IPv6 prefixes, `n` rounds to go -/
def parsePrefixesS (length : UInt16) (buf : Slice) : Nat → Nat → SGo Proposal Unit
  | 0, _ => pure ()
  | n + 1, skip => do
    let skip := skip + 1
    if (length.toNat : Int) - skip < IPv6PrefixLen + TrailerLen then
      Go.log (go! "Error parsing CLC Proposal: IPv6 prefix count too big")
      errDump (← buf.sto length.toNat)
    else
      let b ← buf.sub skip (skip + 16)
      let skip := skip + 16
      let prefixLen ← buf.idx skip
      assign fun p => { p with IPv6Prefixes := p.IPv6Prefixes ++ [{ pfx := copyInto (zeros 16) b.vis, prefixLen := prefixLen }] }
      parsePrefixesS length buf n skip

/-- pkg/clc/clc_proposal.go:105-207 `Proposal.Parse` -/
def Proposal.parseS (buf : Slice) : SGo Proposal Unit := do
  assign fun p => { p with raw := rawParse buf }
  within (·.hdr) (fun h m => { m with hdr := h }) (Header.parseS buf)
  let length ← gets (·.hdr.Length)
  if length.toNat < ProposalLen then
    Go.log (go! "Error parsing CLC Proposal: message too short")
    errDump (← buf.sto length.toNat)
  else
    let skip := HeaderLen
    let x ← buf.sub skip (skip + PeerIDLen)
    assign fun p => { p with SenderPeerID := copyInto p.SenderPeerID x.vis }
    let skip := skip + PeerIDLen
    assign ({ · with IBGID := zeros 16 })
    let b ← buf.sub skip (skip + 16)
    assign fun p => { p with IBGID := copyInto p.IBGID b.vis }
    let skip := skip + 16
    assign ({ · with IBMAC := zeros 6 })
    let b ← buf.sub skip (skip + 6)
    assign fun p => { p with IBMAC := copyInto p.IBMAC b.vis }
    let skip := skip + 6
    let x ← be16 (← buf.sub skip (skip + 2))
    assign ({ · with IPAreaOffset := x })
    let skip := skip + 2
    let skip ← Proposal.parseSMCDS buf skip
    let length ← gets (·.hdr.Length)
    if (length.toNat : Int) - skip < 4 + 1 + 2 + 1 + TrailerLen then
      Go.log (go! "Error parsing CLC Proposal: IP Area Offset too big")
      errDump (← buf.sto length.toNat)
    else
      assign ({ · with Prefix := zeros 4 })
      let b ← buf.sub skip (skip + 4)
      assign fun p => { p with Prefix := copyInto p.Prefix b.vis }
      let skip := skip + 4
      let x ← buf.idx skip
      assign ({ · with PrefixLen := x })
      let skip := skip + 1
      let x ← buf.sub skip (skip + 2)
      assign fun p => { p with rsv2 := copyInto p.rsv2 x.vis }
      let skip := skip + 2
      let x ← buf.idx skip
      assign ({ · with IPv6PrefixesCnt := x })
      let length ← gets (·.hdr.Length)
      let n ← gets (·.IPv6PrefixesCnt)
      parsePrefixesS length buf n.toNat skip
      within (·.trailer) (fun t m => { m with trailer := t }) (trailerParseS buf)

/-- pkg/clc/clc_proposal_v2.go:361-384: the loop over the IPv6 prefixes; returns the new `skip` -/
def parsePrefixesV2S (length : UInt16) (buf : Slice) : Nat → Nat → SGo ProposalV2 Nat
  | 0, skip => pure skip
  | n + 1, skip => do
    if (length.toNat : Int) - skip < IPv6PrefixLen + TrailerLen then
      Go.log (go! "Error parsing CLC Proposal v2: IPv6 prefix count too big")
      errDump (← buf.sto length.toNat)
      pure skip
    else
      let b ← buf.sub skip (skip + 16)
      let skip := skip + 16
      let prefixLen ← buf.idx skip
      let skip := skip + 1
      assign fun p => { p with IPv6Prefixes := p.IPv6Prefixes ++ [{ pfx := copyInto (zeros 16) b.vis, prefixLen := prefixLen }] }
      parsePrefixesV2S length buf n skip

/-- pkg/clc/clc_proposal_v2.go:334-385: the optional IP/prefix info -/
def ProposalV2.parseIPAreaS (buf : Slice) (skip : Nat) : SGo ProposalV2 (Option Nat) := do
  let path ← gets (·.hdr.Path)
  let length ← gets (·.hdr.Length)
  if path ≠ SMCTypeN then
    if (length.toNat : Int) - skip < 4 + 1 + 2 + 1 + TrailerLen then
      Go.log (go! "Error parsing CLC Proposal v2: IP Area Offset too big")
      errDump (← buf.sto length.toNat)
      pure none
    else
      assign ({ · with Prefix := zeros 4 })
      let b ← buf.sub skip (skip + 4)
      assign fun p => { p with Prefix := copyInto p.Prefix b.vis }
      let skip := skip + 4
      let x ← buf.idx skip
      assign ({ · with PrefixLen := x })
      let skip := skip + 1
      let x ← buf.sub skip (skip + 2)
      assign fun p => { p with rsv2 := copyInto p.rsv2 x.vis }
      let skip := skip + 2
      let x ← buf.idx skip
      assign ({ · with IPv6PrefixesCnt := x })
      let skip := skip + 1
      let length ← gets (·.hdr.Length)
      let n ← gets (·.IPv6PrefixesCnt)
      let skip ← parsePrefixesV2S length buf n.toNat skip
      pure (some skip)
  else
    pure (some skip)

/-- pkg/clc/clc_proposal_v2.go:429-442: the loop over the EIDs from number `i` on; returns the new
`skip` -/
def parseEIDsS (length : UInt16) (buf : Slice) : Nat → Nat → Nat → SGo ProposalV2 Nat
  | 0, _, skip => pure skip
  | n + 1, i, skip => do
    if (length.toNat : Int) - skip < EIDLen + TrailerLen then
      Go.log (go! "Error parsing CLC Proposal v2: EID number too big")
      errDump (← buf.sto length.toNat)
      pure skip
    else
      let size ← gets (·.EIDArea.length)
      if i < size then
        let b ← buf.sub skip (skip + EIDLen)
        assign fun p => { p with EIDArea := p.EIDArea.modify i (copyInto · b.vis) }
        let skip := skip + EIDLen
        parseEIDsS length buf n (i + 1) skip
      else
        (.panic [] : Go Nat)

/-- pkg/clc/clc_proposal_v2.go:387-443: the v2 extension -/
def ProposalV2.parseV2ExtS (buf : Slice) (skip : Nat) : SGo ProposalV2 (Option Nat) := do
  let pathv2 ← gets (·.hdr.Pathv2)
  let length ← gets (·.hdr.Length)
  if pathv2 ≠ SMCTypeN then
    if (length.toNat : Int) - skip < ProposalV2ExtLen + TrailerLen then
      Go.log (go! "Error parsing CLC Proposal v2: Not enough space for Proposal v2 Extension")
      errDump (← buf.sto length.toNat)
      pure none
    else
      let x ← buf.idx skip
      assign ({ · with EIDNumber := x })
      let skip := skip + 1
      let x ← buf.idx skip
      assign ({ · with GIDNumber := x })
      let skip := skip + 1
      let x ← buf.idx skip
      assign ({ · with rsv3 := x })
      let skip := skip + 1
      let x ← buf.idx skip
      assign ({ · with Release := x >>> 4 })
      let x ← buf.idx skip
      assign ({ · with rsv4 := (x &&& 0b00001110) >>> 1 })
      let x ← buf.idx skip
      assign ({ · with SEIDInd := x &&& 0b00000001 })
      let skip := skip + 1
      let x ← buf.sub skip (skip + 2)
      assign fun p => { p with rsv5 := copyInto p.rsv5 x.vis }
      let skip := skip + 2
      let x ← be16 (← buf.sub skip (skip + 2))
      assign ({ · with SMCDv2Off := x })
      let skip := skip + 2
      let x ← buf.sub skip (skip + 32)
      assign fun p => { p with rsv6 := copyInto p.rsv6 x.vis }
      let skip := skip + 32
      let length ← gets (·.hdr.Length)
      let n ← gets (·.EIDNumber)
      let skip ← parseEIDsS length buf n.toNat 0 skip
      pure (some skip)
  else
    pure (some skip)

/-- pkg/clc/clc_proposal_v2.go:463-482: the loop over the GIDs from number `i` on -/
def parseGIDsS (length : UInt16) (buf : Slice) : Nat → Nat → Nat → SGo ProposalV2 Unit
  | 0, _, _ => pure ()
  | n + 1, i, skip => do
    if (length.toNat : Int) - skip < 8 + 2 + TrailerLen then
      Go.log (go! "Error parsing CLC Proposal v2: GID number too big")
      errDump (← buf.sto length.toNat)
    else
      let size ← gets (·.GIDArea.length)
      if i < size then
        let x ← be64 (← buf.sub skip (skip + 8))
        assign fun p => { p with GIDArea := p.GIDArea.modify i ({ · with GID := x }) }
        let skip := skip + 8
        let x ← be16 (← buf.sub skip (skip + 2))
        assign fun p => { p with GIDArea := p.GIDArea.modify i ({ · with VCHID := x }) }
        let skip := skip + 2
        parseGIDsS length buf n (i + 1) skip
      else
        (.panic [] : Go Unit)

/-- pkg/clc/clc_proposal_v2.go:445-483: the SMC-D v2 extension -/
def ProposalV2.parseSMCDExtS (buf : Slice) (skip : Nat) : SGo ProposalV2 (Option Nat) := do
  let pathv2 ← gets (·.hdr.Pathv2)
  let length ← gets (·.hdr.Length)
  if pathv2 = SMCTypeD ∨ pathv2 = SMCTypeB then
    if (length.toNat : Int) - skip < SMCDv2ExtLen + TrailerLen then
      Go.log (go! "Error parsing CLC Proposal v2: Not enough space for SMC-D v2 Extension")
      errDump (← buf.sto length.toNat)
      pure none
    else
      let x ← buf.sub skip (skip + 32)
      assign fun p => { p with SEID := copyInto p.SEID x.vis }
      let skip := skip + 32
      let x ← buf.sub skip (skip + 16)
      assign fun p => { p with rsv7 := copyInto p.rsv7 x.vis }
      let skip := skip + 16
      let length ← gets (·.hdr.Length)
      let n ← gets (·.GIDNumber)
      parseGIDsS length buf n.toNat 0 skip
      pure (some skip)
  else
    pure (some skip)

/-- pkg/clc/clc_proposal_v2.go:300-332: the fields up to byte 80 -/
def ProposalV2.parseFixedS (buf : Slice) : SGo ProposalV2 Nat := do
  let skip := HeaderLen
  let x ← buf.sub skip (skip + PeerIDLen)
  assign fun p => { p with SenderPeerID := copyInto p.SenderPeerID x.vis }
  let skip := skip + PeerIDLen
  assign ({ · with IBGID := zeros 16 })
  let b ← buf.sub skip (skip + 16)
  assign fun p => { p with IBGID := copyInto p.IBGID b.vis }
  let skip := skip + 16
  assign ({ · with IBMAC := zeros 6 })
  let b ← buf.sub skip (skip + 6)
  assign fun p => { p with IBMAC := copyInto p.IBMAC b.vis }
  let skip := skip + 6
  let x ← be16 (← buf.sub skip (skip + 2))
  assign ({ · with IPAreaOffset := x })
  let skip := skip + 2
  let x ← be64 (← buf.sub skip (skip + 8))
  assign ({ · with SMCDGID := x })
  let skip := skip + 8
  let x ← be16 (← buf.sub skip (skip + 2))
  assign ({ · with ISMv2VCHID := x })
  let skip := skip + 2
  let x ← be16 (← buf.sub skip (skip + 2))
  assign ({ · with SMCv2Offset := x })
  let skip := skip + 2
  let x ← buf.sub skip (skip + 28)
  assign fun p => { p with rsv := copyInto p.rsv x.vis }
  let skip := skip + 28
  pure skip

/-- pkg/clc/clc_proposal_v2.go:282-487 `ProposalV2.Parse` -/
def ProposalV2.parseS (buf : Slice) : SGo ProposalV2 Unit := do
  assign fun p => { p with raw := rawParse buf }
  within (·.hdr) (fun h m => { m with hdr := h }) (Header.parseS buf)
  let length ← gets (·.hdr.Length)
  if length.toNat < ProposalV2Len then
    Go.log (go! "Error parsing CLC Proposal v2: message too short")
    errDump (← buf.sto length.toNat)
  else
    let skip ← ProposalV2.parseFixedS buf
    match ← ProposalV2.parseIPAreaS buf skip with
    | none => pure ()
    | some skip =>
      match ← ProposalV2.parseV2ExtS buf skip with
      | none => pure ()
      | some skip =>
        match ← ProposalV2.parseSMCDExtS buf skip with
        | none => pure ()
        | some _ => within (·.trailer) (fun t m => { m with trailer := t }) (trailerParseS buf)

end SMC.CLC
