import Verif.RoCE
import Verif.CLC.Message
/-!
# Memory: which slices share bytes

In the other files a slice is the bytes seen through it. Here it is what it is in Go: a
reference to a part of an array. The parsers are modelled a second time, statement by
statement, as far as slices are concerned: `make` and `copy` allocate and fill arrays,
slice expressions and assignments of slices share them. Statements that only compute numbers,
flags and arrays `[n]byte` from the bytes read are taken over from the first model with
`read`, which looks at the memory as it is at that moment.

Simplifications: memory is not reclaimed; the `[]IPv6Prefix` of a proposal is a list (only the
message refers to it; for copies of messages see `Verif/Crash/Copies.lean`), the `net.IP` in each of its elements is a reference.
-/

namespace SMC

/-- The byte arrays allocated so far; an address is an index of this list. -/
abbrev Heap := List Bytes

/-- A Go slice `[]byte`: array, index of the first byte, length, capacity. -/
structure Ref where
  arr : Nat
  off : Nat
  len : Nat
  cap : Nat
deriving DecidableEq, Repr

/-- the nil slice -/
def Ref.nil : Ref := ⟨0, 0, 0, 0⟩

/-- the bytes seen through a reference -/
def Heap.slice (h : Heap) (r : Ref) : Slice :=
  let bytes := (h.getD r.arr []).drop r.off
  ⟨bytes.take r.len, (bytes.drop r.len).take (r.cap - r.len)⟩

/-- the visible bytes only -/
def Heap.bytes (h : Heap) (r : Ref) : Bytes := (h.slice r).vis

/-- the assignment `array[i] = b` -/
def Heap.set (h : Heap) (arr i : Nat) (b : UInt8) : Heap :=
  h.modify arr fun bytes => bytes.set i b

/-- Computations that read, allocate and write memory, step by step: a value is returned,
something is computed or logged without memory, the bytes seen through a slice are looked at, an
array is allocated, an array is written to. -/
inductive HGo (α : Type) : Type 1 where
  | done (a : α)
  | comp {β : Type} (x : Go β) (k : β → HGo α)
  | look {β : Type} (r : Ref) (f : Slice → Go β) (k : β → HGo α)
  | alloc (n : Nat) (k : Ref → HGo α)
  | fill (dst src : Ref) (k : HGo α)

/-- the memory after `copy(dst, src)` -/
def Heap.copy (h : Heap) (dst src : Ref) : Heap :=
  h.modify dst.arr fun bytes =>
    bytes.take dst.off ++ copyInto ((bytes.drop dst.off).take dst.len) (h.bytes src)
      ++ bytes.drop (dst.off + dst.len)

namespace HGo

/-- first `x`, then `f` -/
def andThen {α β : Type} (x : HGo α) (f : α → HGo β) : HGo β :=
  match x with
  | done a => f a
  | comp x k => comp x fun b => (k b).andThen f
  | look r g k => look r g fun b => (k b).andThen f
  | alloc n k => alloc n fun r => (k r).andThen f
  | fill dst src k => fill dst src (k.andThen f)

instance : Monad HGo where
  pure := done
  bind := andThen

/-- What a computation does when it is alone: it gets the memory, returns a value and the memory
then. A new array is the next one in the list. -/
def run {α : Type} (x : HGo α) (h : Heap) : Go (α × Heap) :=
  match x with
  | done a => .ret [] (a, h)
  | comp x k => Go.bind x fun b => (k b).run h
  | look r f k => Go.bind (f (h.slice r)) fun b => (k b).run h
  | alloc n k => (k ⟨h.length, 0, n, n⟩).run (h ++ [zeros n])
  | fill dst src k => k.run (h.copy dst src)

instance {α : Type} : CoeFun (HGo α) fun _ => Heap → Go (α × Heap) := ⟨run⟩

/-- a computation that does not use the heap -/
def lift {α : Type} (x : Go α) : HGo α := comp x done

/-- a computation on the bytes now seen through `r` -/
def read {α : Type} (r : Ref) (f : Slice → Go α) : HGo α := look r f done

/-- `make([]byte, n)` -/
def make (n : Nat) : HGo Ref := alloc n done

/-- `copy(dst, src)` -/
def copy (dst src : Ref) : HGo Unit := fill dst src (done ())

/-- `x := make([]byte, n); copy(x, src)` -/
def makeCopy (n : Nat) (src : Ref) : HGo Ref := do
  let x ← make n
  copy x src
  pure x

end HGo

namespace Ref
open HGo

/-- `s[a:b]` -/
def sub (r : Ref) (a b : Nat) : HGo Ref := lift <|
  if a ≤ b ∧ b ≤ r.cap then .ret [] ⟨r.arr, r.off + a, b - a, r.cap - a⟩ else .panic []

/-- `s[a:]` -/
def sfrom (r : Ref) (a : Nat) : HGo Ref := lift <|
  if a ≤ r.len then .ret [] ⟨r.arr, r.off + a, r.len - a, r.cap - a⟩ else .panic []

/-- `s[:b]` -/
def sto (r : Ref) (b : Nat) : HGo Ref := r.sub 0 b

/-- `s[i]` -/
def idx (r : Ref) (i : Nat) : HGo UInt8 := read r fun s => s.idx i

end Ref

/-! ## pkg/llc -/

namespace LLC
open HGo

/-- The slice-typed fields of LLC messages: `BaseMsg.Raw` (pkg/llc/base.go:7), `SenderMAC` and
`SenderGID` (pkg/llc/llc_confirmlink.go:15-16, pkg/llc/llc_addlink.go:61,63). -/
structure Refs where
  raw : Ref := .nil
  mac : Ref := .nil
  gid : Ref := .nil
deriving DecidableEq, Repr

/-- A message in memory: the fields that are not slices are those of `v`, the slices are `s`
(the slice-typed fields of `v` have no meaning). -/
structure HMsg where
  v : Msg
  s : Refs
deriving DecidableEq, Repr

/-- What `ConfirmLink` is with memory `h`. -/
def ConfirmLink.on (h : Heap) (c : ConfirmLink) (s : Refs) : ConfirmLink :=
  { c with base := { c.base with Raw := h.bytes s.raw }, SenderMAC := h.bytes s.mac, SenderGID := h.bytes s.gid }

/-- What `AddLink` is with memory `h`. -/
def AddLink.on (h : Heap) (a : AddLink) (s : Refs) : AddLink :=
  { a with base := { a.base with Raw := h.bytes s.raw }, SenderMAC := h.bytes s.mac, SenderGID := h.bytes s.gid }

/-- What a message is with memory `h`. -/
def HMsg.view (h : Heap) (m : HMsg) : Msg :=
  match m.v with
  | .confirmLink c => .confirmLink (c.on h m.s)
  | .addLink a => .addLink (a.on h m.s)
  | .other o => .other { o with base := { o.base with Raw := h.bytes m.s.raw } }
  | .addLinkCont o => .addLinkCont { o with base := { o.base with Raw := h.bytes m.s.raw } }
  | .deleteLink o => .deleteLink { o with base := { o.base with Raw := h.bytes m.s.raw } }
  | .confirmRKey o => .confirmRKey { o with base := { o.base with Raw := h.bytes m.s.raw } }
  | .confirmRKeyCont o => .confirmRKeyCont { o with base := { o.base with Raw := h.bytes m.s.raw } }
  | .deleteRKey o => .deleteRKey { o with base := { o.base with Raw := h.bytes m.s.raw } }
  | .testLink o => .testLink { o with base := { o.base with Raw := h.bytes m.s.raw } }
  | .cdc o => .cdc { o with base := { o.base with Raw := h.bytes m.s.raw } }

/-- pkg/llc/base.go:12-16 `setRaw` -/
def setRawH (buffer : Ref) : HGo Ref := makeCopy buffer.len buffer

/-- pkg/llc/base.go:18-29 `SetBaseMsg`; returns the new `Raw` and the other fields -/
def setBaseMsgH (b : BaseMsg) (buffer : Ref) : HGo (BaseMsg × Ref) := do
  let raw ← setRawH buffer
  let b := { b with Typ := (← buffer.idx 0).toNat }
  let buffer ← buffer.sfrom 1
  let b := { b with Length := (← buffer.idx 0).toNat }
  pure (b, raw)

/-- pkg/llc/llc_confirmlink.go:24-72 `ConfirmLink.Parse`, after pkg/llc/llc_confirmlink.go:96-101
`ParseConfirm` has made a zero value -/
def parseConfirmH (buffer : Ref) : HGo HMsg := do
  let c : ConfirmLink := {}
  let (b, raw) ← setBaseMsgH c.base buffer
  let c := { c with base := b }
  let buffer ← buffer.sfrom 2
  let c := { c with res1 := ← buffer.idx 0 }
  let buffer ← buffer.sfrom 1
  let c := { c with Reply := decide ((← buffer.idx 0) &&& 0b10000000 > 0) }
  let c := { c with res2 := (← buffer.idx 0) &&& 0b01111111 }
  let buffer ← buffer.sfrom 1
  let mac ← makeCopy 6 (← buffer.sub 0 6)
  let buffer ← buffer.sfrom 6
  let gid ← makeCopy 16 (← buffer.sub 0 16)
  let buffer ← buffer.sfrom 16
  let c := { c with SenderQP := (← buffer.idx 0).toUInt32 <<< 16 }
  let c := { c with SenderQP := c.SenderQP ||| ((← buffer.idx 1).toUInt32 <<< 8) }
  let c := { c with SenderQP := c.SenderQP ||| (← buffer.idx 2).toUInt32 }
  let buffer ← buffer.sfrom 3
  let c := { c with Link := ← buffer.idx 0 }
  let buffer ← buffer.sfrom 1
  let c := { c with SenderLinkUserID := ← read (← buffer.sub 0 4) be32 }
  let buffer ← buffer.sfrom 4
  let c := { c with MaxLinks := ← buffer.idx 0 }
  let buffer ← buffer.sfrom 1
  let c := { c with res3 := ← read buffer fun s => pure (copyInto c.res3 s.vis) }
  pure ⟨.confirmLink c, ⟨raw, mac, gid⟩⟩

/-- pkg/llc/llc_addlink.go:72-135 `AddLink.Parse`, after pkg/llc/llc_addlink.go:158-163
`ParseAddLink` has made a zero value -/
def parseAddLinkH (buffer : Ref) : HGo HMsg := do
  let a : AddLink := {}
  let (b, raw) ← setBaseMsgH a.base buffer
  let a := { a with base := b }
  let buffer ← buffer.sfrom 2
  let a := { a with res1 := (← buffer.idx 0) >>> 4 }
  let a := { a with RsnCode := (← buffer.idx 0) &&& 0b00001111 }
  let buffer ← buffer.sfrom 1
  let a := { a with Reply := decide ((← buffer.idx 0) &&& 0b10000000 > 0) }
  let a := { a with Reject := decide ((← buffer.idx 0) &&& 0b01000000 > 0) }
  let a := { a with res2 := (← buffer.idx 0) &&& 0b00111111 }
  let buffer ← buffer.sfrom 1
  let mac ← makeCopy 6 (← buffer.sub 0 6)
  let buffer ← buffer.sfrom 6
  let a := { a with res5 := ← read (← buffer.sub 0 2) fun s => pure (copyInto a.res5 s.vis) }
  let buffer ← buffer.sfrom 2
  let gid ← makeCopy 16 (← buffer.sub 0 16)
  let buffer ← buffer.sfrom 16
  let a := { a with SenderQP := (← buffer.idx 0).toUInt32 <<< 16 }
  let a := { a with SenderQP := a.SenderQP ||| ((← buffer.idx 1).toUInt32 <<< 8) }
  let a := { a with SenderQP := a.SenderQP ||| (← buffer.idx 2).toUInt32 }
  let buffer ← buffer.sfrom 3
  let a := { a with Link := ← buffer.idx 0 }
  let buffer ← buffer.sfrom 1
  let a := { a with res3 := (← buffer.idx 0) >>> 4 }
  let a := { a with MTU := (← buffer.idx 0) &&& 0b00001111 }
  let buffer ← buffer.sfrom 1
  let a := { a with PSN := (← buffer.idx 0).toUInt32 <<< 16 }
  let a := { a with PSN := a.PSN ||| ((← buffer.idx 1).toUInt32 <<< 8) }
  let a := { a with PSN := a.PSN ||| (← buffer.idx 2).toUInt32 }
  let buffer ← buffer.sfrom 3
  let a := { a with res4 := ← read buffer fun s => pure (copyInto a.res4 s.vis) }
  pure ⟨.addLink a, ⟨raw, mac, gid⟩⟩

/-- The other message types have no slice-typed fields but `Raw`: `Parse` begins with `setRaw`
or `SetBaseMsg` (pkg/llc/other.go:15, llc_addlinkcont.go:49, llc_deletelink.go:55,
llc_confirmrkey.go:51, llc_confirmrkeycont.go:23, llc_deleterkey.go:26, llc_testlink.go:18,
cdc.go:34), the rest `f` computes numbers, flags and arrays. -/
def parseRawH (f : Slice → Go Msg) (buffer : Ref) : HGo HMsg := do
  let raw ← setRawH buffer
  let v ← read buffer f
  pure ⟨v, { raw := raw }⟩

/-- pkg/llc/llc.go:21-50 `ParseLLC` -/
def parseLLCH (buffer : Ref) : HGo HMsg := do
  if buffer.len ≠ LLCMsgLen then
    parseRawH (fun s => return .other (← parseOther s)) buffer
  else
    let t ← buffer.idx 0
    if t = 1 then parseConfirmH buffer
    else if t = 2 then parseAddLinkH buffer
    else if t = 3 then parseRawH (fun s => return .addLinkCont (← parseAddLinkCont s)) buffer
    else if t = 4 then parseRawH (fun s => return .deleteLink (← parseDeleteLink s)) buffer
    else if t = 6 then parseRawH (fun s => return .confirmRKey (← parseConfirmRKey s)) buffer
    else if t = 8 then parseRawH (fun s => return .confirmRKeyCont (← parseConfirmRKeyCont s)) buffer
    else if t = 9 then parseRawH (fun s => return .deleteRKey (← parseDeleteRKey s)) buffer
    else if t = 7 then parseRawH (fun s => return .testLink (← parseTestLink s)) buffer
    else if t = 0xFE then parseRawH (fun s => return .cdc (← parseCDC s)) buffer
    else parseRawH (fun s => return .other (← parseOther s)) buffer

end LLC

/-! ## pkg/roce -/

namespace RoCE
open HGo

/-- A BTH in memory; the slice `Raw` (pkg/roce/bth.go:181) is a reference. -/
structure HBTH where
  v : BTH
  raw : Ref
deriving DecidableEq, Repr

/-- A GRH in memory; `SrcIP`, `DstIP` and `Contents` of `layers.IPv6` are references. -/
structure HGRH where
  v : GRH
  src : Ref := .nil
  dst : Ref := .nil
  contents : Ref := .nil
deriving DecidableEq, Repr

/-- pkg/roce/roce.go:13-20 `RoCE` in memory -/
structure HRoCE where
  Typ : Bytes
  GRH : Option HGRH
  BTH : HBTH
  LLC : LLC.HMsg
  ICRC : Ref
deriving DecidableEq, Repr

/-- What a BTH is with memory `h`. -/
def HBTH.view (h : Heap) (b : HBTH) : BTH := { b.v with Raw := h.bytes b.raw }

/-- What a GRH is with memory `h`. -/
def HGRH.view (h : Heap) (g : HGRH) : GRH :=
  { g.v with SrcIP := h.bytes g.src, DstIP := h.bytes g.dst, Contents := h.bytes g.contents }

/-- What a RoCE message is with memory `h`. -/
def HRoCE.view (h : Heap) (r : HRoCE) : RoCE :=
  { Typ := r.Typ, GRH := r.GRH.map (HGRH.view h), BTH := r.BTH.view h, LLC := r.LLC.view h,
    ICRC := h.slice r.ICRC }

/-- pkg/roce/bth.go:197-251 `BTH.Parse`, after pkg/roce/bth.go:280-285 `ParseBTH` has made a
zero value: `Raw` is made and filled first (lines 199-201), the rest are numbers and flags. -/
def parseBTHH (buffer : Ref) : HGo HBTH := do
  let raw ← makeCopy buffer.len buffer
  let v ← read buffer parseBTH
  pure ⟨v, raw⟩

/-- pkg/roce/grh.go:66-71 `ParseGRH`, pkg/roce/grh.go:22-33 `GRH.Parse`: `gopacket.NewPacket`
with `gopacket.Default` copies the data into an array of its own; the IPv6 decoder slices this
copy (gopacket is not part of /repo, see `decodeIPv6`). -/
def parseGRHH (buffer : Ref) : HGo HGRH := do
  let data ← makeCopy buffer.len buffer
  let v ← read buffer parseGRH
  if buffer.len < 40 then pure { v := v }
  else pure { v := v, src := ← data.sub 8 24, dst := ← data.sub 24 40, contents := ← data.sub 0 40 }

/-- `buffer[len(buffer)-4:]` of pkg/roce/roce.go:38,59 -/
def icrcH (buffer : Ref) : HGo Ref :=
  if buffer.len < 4 then lift (.panic []) else buffer.sfrom (buffer.len - 4)

/-- `buffer[:len(buffer)-4]` of pkg/roce/roce.go:39,60 -/
def payloadH (buffer : Ref) : HGo Ref :=
  if buffer.len < 4 then lift (.panic []) else buffer.sto (buffer.len - 4)

/-- pkg/roce/roce.go:22-45 `ParseRoCEv1` -/
def parseRoCEv1H (buffer : Ref) : HGo HRoCE := do
  let grh ← parseGRHH (← buffer.sto GRHLen)
  let buffer ← buffer.sfrom GRHLen
  let bth ← parseBTHH (← buffer.sto BTHLen)
  let buffer ← buffer.sfrom BTHLen
  let crc ← icrcH buffer
  let buffer ← payloadH buffer
  let llc ← LLC.parseLLCH buffer
  pure { Typ := go! "RoCEv1", GRH := some grh, BTH := bth, LLC := llc, ICRC := crc }

/-- pkg/roce/roce.go:47-66 `ParseRoCEv2` -/
def parseRoCEv2H (buffer : Ref) : HGo HRoCE := do
  let bth ← parseBTHH (← buffer.sto BTHLen)
  let buffer ← buffer.sfrom BTHLen
  let crc ← icrcH buffer
  let buffer ← payloadH buffer
  let llc ← LLC.parseLLCH buffer
  pure { Typ := go! "RoCEv2", GRH := none, BTH := bth, LLC := llc, ICRC := crc }

end RoCE

/-! ## pkg/clc -/

namespace CLC
open HGo

/-- The slice-typed fields of CLC messages: `Raw` (pkg/clc/raw.go:6), `IBGID`, `IBMAC`
(pkg/clc/clc_accept_smcr.go:49-50, clc_proposal.go:33-34, clc_proposal_v2.go:53-54), `Prefix` and
the prefixes of `IPv6Prefixes` with their lengths (clc_proposal.go:42,46,17-21,
clc_proposal_v2.go:64,68). -/
structure Refs where
  raw : Ref := .nil
  ibgid : Ref := .nil
  ibmac : Ref := .nil
  pfx : Ref := .nil
  prefixes : List (Ref × UInt8) := []
deriving DecidableEq, Repr

/-- A message in memory: the fields that are not slices are those of `v`, the slices are `s`
(the slice-typed fields of `v` have no meaning). -/
structure HMessage where
  v : Message
  s : Refs := {}
deriving DecidableEq, Repr

/-- the list `IPv6Prefixes` with memory `h` -/
def prefixesOn (h : Heap) (ps : List (Ref × UInt8)) : List IPv6Prefix :=
  ps.map fun p => { pfx := h.bytes p.1, prefixLen := p.2 }

/-- What `AcceptSMCR` is with memory `h`. -/
def AcceptSMCR.on (h : Heap) (m : AcceptSMCR) (s : Refs) : AcceptSMCR :=
  { m with raw := h.slice s.raw, IBGID := h.bytes s.ibgid, IBMAC := h.bytes s.ibmac }

/-- What `Proposal` is with memory `h`. -/
def Proposal.on (h : Heap) (m : Proposal) (s : Refs) : Proposal :=
  { m with raw := h.slice s.raw, IBGID := h.bytes s.ibgid, IBMAC := h.bytes s.ibmac,
           Prefix := h.bytes s.pfx, IPv6Prefixes := prefixesOn h s.prefixes }

/-- What `ProposalV2` is with memory `h`. -/
def ProposalV2.on (h : Heap) (m : ProposalV2) (s : Refs) : ProposalV2 :=
  { m with raw := h.slice s.raw, IBGID := h.bytes s.ibgid, IBMAC := h.bytes s.ibmac,
           Prefix := h.bytes s.pfx, IPv6Prefixes := prefixesOn h s.prefixes }

/-- What a message is with memory `h`. -/
def HMessage.view (h : Heap) (m : HMessage) : Message :=
  match m.v with
  | .proposal p => .proposal (p.on h m.s)
  | .proposalV2 p => .proposalV2 (p.on h m.s)
  | .acceptSMCR a => .acceptSMCR (a.on h m.s)
  | .acceptSMCD a => .acceptSMCD { a with raw := h.slice m.s.raw }
  | .acceptSMCDv2 a => .acceptSMCDv2 { a with raw := h.slice m.s.raw }
  | .confirmSMCR a => .confirmSMCR (a.on h m.s)
  | .confirmSMCD a => .confirmSMCD { a with raw := h.slice m.s.raw }
  | .confirmSMCDv2 a => .confirmSMCDv2 { a with raw := h.slice m.s.raw }
  | .decline d => .decline { d with raw := h.slice m.s.raw }
  | .declineV2 d => .declineV2 { d with raw := h.slice m.s.raw }

/-- pkg/clc/clc_accept_smcr.go:99-178 `AcceptSMCR.Parse` -/
def AcceptSMCR.parseH (ac : AcceptSMCR) (s : Refs) (buf : Ref) : HGo (AcceptSMCR × Refs) := do
  let s := { s with raw := buf }
  let ac := { ac with hdr := ← read buf ac.hdr.parse }
  if ac.hdr.Length.toNat < AcceptSMCRLen then
    lift (Go.log (if ac.hdr.Typ = TypeConfirm then go! "Error parsing CLC Confirm: message too short"
      else go! "Error parsing CLC Accept: message too short"))
    read (← buf.sto ac.hdr.Length.toNat) errDump
    pure (ac, s)
  else
    let buf ← buf.sfrom HeaderLen
    let ac := { ac with SenderPeerID := ← read (← buf.sto PeerIDLen) fun b => pure (copyInto ac.SenderPeerID b.vis) }
    let buf ← buf.sfrom PeerIDLen
    let s := { s with ibgid := ← makeCopy 16 (← buf.sto 16) }
    let buf ← buf.sfrom 16
    let s := { s with ibmac := ← makeCopy 6 (← buf.sto 6) }
    let buf ← buf.sfrom 6
    let ac := { ac with QPN := (← buf.idx 0).toNat <<< 16 }
    let ac := { ac with QPN := ac.QPN ||| ((← buf.idx 1).toNat <<< 8) }
    let ac := { ac with QPN := ac.QPN ||| (← buf.idx 2).toNat }
    let buf ← buf.sfrom 3
    let ac := { ac with RMBRKey := ← read (← buf.sto 4) be32 }
    let buf ← buf.sfrom 4
    let ac := { ac with RMBEIdx := ← buf.idx 0 }
    let buf ← buf.sfrom 1
    let ac := { ac with RMBEAlertToken := ← read (← buf.sto 4) be32 }
    let buf ← buf.sfrom 4
    let ac := { ac with RMBESize := ((← buf.idx 0) &&& 0b11110000) >>> 4 }
    let ac := { ac with QPMTU := (← buf.idx 0) &&& 0b00001111 }
    let buf ← buf.sfrom 1
    let ac := { ac with rsv := ← buf.idx 0 }
    let buf ← buf.sfrom 1
    let ac := { ac with RMBDMAAddr := ← read (← buf.sto 8) be64 }
    let buf ← buf.sfrom 8
    let ac := { ac with rsv2 := ← buf.idx 0 }
    let buf ← buf.sfrom 1
    let ac := { ac with PSN := (← buf.idx 0).toNat <<< 16 }
    let ac := { ac with PSN := ac.PSN ||| ((← buf.idx 1).toNat <<< 8) }
    let ac := { ac with PSN := ac.PSN ||| (← buf.idx 2).toNat }
    let buf ← buf.sfrom 3
    let ac := { ac with trailer := ← read buf (trailerParse ac.trailer) }
    pure (ac, s)

/-- pkg/clc/clc_proposal.go:178-203: the loop over the IPv6 prefixes with `n` rounds to go -/
def parsePrefixesH (length : UInt16) (buf : Ref) :
    Nat → Nat → List (Ref × UInt8) → HGo (List (Ref × UInt8))
  | 0, _, ps => pure ps
  | n + 1, skip, ps => do
    let skip := skip + 1
    if (length.toNat : Int) - skip < IPv6PrefixLen + TrailerLen then
      lift (Go.log (go! "Error parsing CLC Proposal: IPv6 prefix count too big"))
      read (← buf.sto length.toNat) errDump
      pure ps
    else
      let pfx ← makeCopy 16 (← buf.sub skip (skip + 16))
      let skip := skip + 16
      let prefixLen ← buf.idx skip
      parsePrefixesH length buf n skip (ps ++ [(pfx, prefixLen)])

/-- pkg/clc/clc_proposal.go:105-207 `Proposal.Parse` -/
def Proposal.parseH (p : Proposal) (s : Refs) (buf : Ref) : HGo (Proposal × Refs) := do
  let s := { s with raw := buf }
  let p := { p with hdr := ← read buf p.hdr.parse }
  if p.hdr.Length.toNat < ProposalLen then
    lift (Go.log (go! "Error parsing CLC Proposal: message too short"))
    read (← buf.sto p.hdr.Length.toNat) errDump
    pure (p, s)
  else
    let skip := HeaderLen
    let p := { p with SenderPeerID := ← read (← buf.sub skip (skip + PeerIDLen)) fun b => pure (copyInto p.SenderPeerID b.vis) }
    let skip := skip + PeerIDLen
    let s := { s with ibgid := ← makeCopy 16 (← buf.sub skip (skip + 16)) }
    let skip := skip + 16
    let s := { s with ibmac := ← makeCopy 6 (← buf.sub skip (skip + 6)) }
    let skip := skip + 6
    let p := { p with IPAreaOffset := ← read (← buf.sub skip (skip + 2)) be16 }
    let skip := skip + 2
    let (p, skip) ← read buf fun b => p.parseSMCD b skip
    if (p.hdr.Length.toNat : Int) - skip < 4 + 1 + 2 + 1 + TrailerLen then
      lift (Go.log (go! "Error parsing CLC Proposal: IP Area Offset too big"))
      read (← buf.sto p.hdr.Length.toNat) errDump
      pure (p, s)
    else
      let s := { s with pfx := ← makeCopy 4 (← buf.sub skip (skip + 4)) }
      let skip := skip + 4
      let p := { p with PrefixLen := ← buf.idx skip }
      let skip := skip + 1
      let p := { p with rsv2 := ← read (← buf.sub skip (skip + 2)) fun b => pure (copyInto p.rsv2 b.vis) }
      let skip := skip + 2
      let p := { p with IPv6PrefixesCnt := ← buf.idx skip }
      let s := { s with prefixes := ← parsePrefixesH p.hdr.Length buf p.IPv6PrefixesCnt.toNat skip s.prefixes }
      let p := { p with trailer := ← read buf (trailerParse p.trailer) }
      pure (p, s)

/-- pkg/clc/clc_proposal_v2.go:361-384: the loop over the IPv6 prefixes with `n` rounds to go -/
def parsePrefixesV2H (length : UInt16) (buf : Ref) :
    Nat → Nat → List (Ref × UInt8) → HGo (List (Ref × UInt8) × Nat)
  | 0, skip, ps => pure (ps, skip)
  | n + 1, skip, ps => do
    if (length.toNat : Int) - skip < IPv6PrefixLen + TrailerLen then
      lift (Go.log (go! "Error parsing CLC Proposal v2: IPv6 prefix count too big"))
      read (← buf.sto length.toNat) errDump
      pure (ps, skip)
    else
      let pfx ← makeCopy 16 (← buf.sub skip (skip + 16))
      let skip := skip + 16
      let prefixLen ← buf.idx skip
      let skip := skip + 1
      parsePrefixesV2H length buf n skip (ps ++ [(pfx, prefixLen)])

/-- pkg/clc/clc_proposal_v2.go:334-385: the optional IP/prefix info -/
def ProposalV2.parseIPAreaH (p : ProposalV2) (s : Refs) (buf : Ref) (skip : Nat) :
    HGo ((ProposalV2 × Refs) × Option Nat) := do
  if p.hdr.Path ≠ SMCTypeN then
    if (p.hdr.Length.toNat : Int) - skip < 4 + 1 + 2 + 1 + TrailerLen then
      lift (Go.log (go! "Error parsing CLC Proposal v2: IP Area Offset too big"))
      read (← buf.sto p.hdr.Length.toNat) errDump
      pure ((p, s), none)
    else
      let s := { s with pfx := ← makeCopy 4 (← buf.sub skip (skip + 4)) }
      let skip := skip + 4
      let p := { p with PrefixLen := ← buf.idx skip }
      let skip := skip + 1
      let p := { p with rsv2 := ← read (← buf.sub skip (skip + 2)) fun b => pure (copyInto p.rsv2 b.vis) }
      let skip := skip + 2
      let p := { p with IPv6PrefixesCnt := ← buf.idx skip }
      let skip := skip + 1
      let (ps, skip) ← parsePrefixesV2H p.hdr.Length buf p.IPv6PrefixesCnt.toNat skip s.prefixes
      let s := { s with prefixes := ps }
      pure ((p, s), some skip)
  else
    pure ((p, s), some skip)

/-- pkg/clc/clc_proposal_v2.go:300-332: the fields up to byte 80 -/
def ProposalV2.parseFixedH (p : ProposalV2) (s : Refs) (buf : Ref) : HGo ((ProposalV2 × Refs) × Nat) := do
  let skip := HeaderLen
  let p := { p with SenderPeerID := ← read (← buf.sub skip (skip + PeerIDLen)) fun b => pure (copyInto p.SenderPeerID b.vis) }
  let skip := skip + PeerIDLen
  let s := { s with ibgid := ← makeCopy 16 (← buf.sub skip (skip + 16)) }
  let skip := skip + 16
  let s := { s with ibmac := ← makeCopy 6 (← buf.sub skip (skip + 6)) }
  let skip := skip + 6
  let p := { p with IPAreaOffset := ← read (← buf.sub skip (skip + 2)) be16 }
  let skip := skip + 2
  let p := { p with SMCDGID := ← read (← buf.sub skip (skip + 8)) be64 }
  let skip := skip + 8
  let p := { p with ISMv2VCHID := ← read (← buf.sub skip (skip + 2)) be16 }
  let skip := skip + 2
  let p := { p with SMCv2Offset := ← read (← buf.sub skip (skip + 2)) be16 }
  let skip := skip + 2
  let p := { p with rsv := ← read (← buf.sub skip (skip + 28)) fun b => pure (copyInto p.rsv b.vis) }
  let skip := skip + 28
  pure ((p, s), skip)

/-- pkg/clc/clc_proposal_v2.go:282-487 `ProposalV2.Parse`. The extensions of lines 387-483 have
no slice-typed fields. -/
def ProposalV2.parseH (p : ProposalV2) (s : Refs) (buf : Ref) : HGo (ProposalV2 × Refs) := do
  let s := { s with raw := buf }
  let p := { p with hdr := ← read buf p.hdr.parse }
  if p.hdr.Length.toNat < ProposalV2Len then
    lift (Go.log (go! "Error parsing CLC Proposal v2: message too short"))
    read (← buf.sto p.hdr.Length.toNat) errDump
    pure (p, s)
  else
    let ((p, s), skip) ← p.parseFixedH s buf
    match ← p.parseIPAreaH s buf skip with
    | ((p, s), none) => pure (p, s)
    | ((p, s), some skip) =>
      match ← read buf fun b => p.parseV2Ext b skip with
      | (p, none) => pure (p, s)
      | (p, some skip) =>
        match ← read buf fun b => p.parseSMCDExt b skip with
        | (p, none) => pure (p, s)
        | (p, some _) =>
          let p := { p with trailer := ← read buf (trailerParse p.trailer) }
          pure (p, s)

/-- `Parse` of the interface (pkg/clc/message.go:16). The messages of SMC-D and Decline have no
slice-typed field but `Raw`, which is set to the argument (clc_accept_smcd.go:59,
clc_accept_smcd_v2.go:96, clc_decline.go:160, clc_decline_v2.go:75). -/
def HMessage.parse (m : HMessage) (buf : Ref) : HGo HMessage :=
  match m.v with
  | .proposal p => do
    let r ← p.parseH m.s buf
    pure ⟨.proposal r.1, r.2⟩
  | .proposalV2 p => do
    let r ← p.parseH m.s buf
    pure ⟨.proposalV2 r.1, r.2⟩
  | .acceptSMCR a => do
    let r ← a.parseH m.s buf
    pure ⟨.acceptSMCR r.1, r.2⟩
  | .confirmSMCR a => do
    let r ← a.parseH m.s buf
    pure ⟨.confirmSMCR r.1, r.2⟩
  | .acceptSMCD a => do pure ⟨.acceptSMCD (← read buf a.parse), { m.s with raw := buf }⟩
  | .acceptSMCDv2 a => do pure ⟨.acceptSMCDv2 (← read buf a.parse), { m.s with raw := buf }⟩
  | .confirmSMCD a => do pure ⟨.confirmSMCD (← read buf a.parse), { m.s with raw := buf }⟩
  | .confirmSMCDv2 a => do pure ⟨.confirmSMCDv2 (← read buf a.parse), { m.s with raw := buf }⟩
  | .decline d => do pure ⟨.decline (← read buf d.parse), { m.s with raw := buf }⟩
  | .declineV2 d => do pure ⟨.declineV2 (← read buf d.parse), { m.s with raw := buf }⟩

end CLC

end SMC
