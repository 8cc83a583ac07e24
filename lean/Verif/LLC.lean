import Verif.Fmt
/-!
# Model of pkg/llc

Arrays `[n]byte` are byte lists of length `n` (the default values below are Go's zero
values); `net.IP` and `net.HardwareAddr` are byte lists, `nil` being `[]`.
`int` fields hold only values converted from a byte or a length, hence `Nat`.
-/

namespace SMC.LLC

/-- pkg/llc/llc.go:6 `LLCMsgLen` -/
def LLCMsgLen : Nat := 44

/-- pkg/llc/other.go:5 `TypeOther` -/
def TypeOther : Nat := 0x101

/-- pkg/llc/base.go:5-10 `BaseMsg` -/
structure BaseMsg where
  Raw : Bytes := []
  Typ : Nat := 0
  Length : Nat := 0
deriving DecidableEq, Repr

/-- pkg/llc/base.go:12-16 `setRaw`: a fresh copy of the visible bytes. -/
def BaseMsg.setRaw (b : BaseMsg) (buffer : Slice) : BaseMsg :=
  { b with Raw := copyInto (zeros buffer.len) buffer.vis }

/-- pkg/llc/base.go:18-29 `SetBaseMsg` -/
def BaseMsg.setBaseMsg (b : BaseMsg) (buffer : Slice) : Go BaseMsg := do
  let b := b.setRaw buffer
  let b := { b with Typ := (← buffer.idx 0).toNat }
  let buffer ← buffer.sfrom 1
  let b := { b with Length := (← buffer.idx 0).toNat }
  pure b

/-- pkg/llc/base.go:31-34 `Hex` -/
def BaseMsg.hex (b : BaseMsg) : Bytes := hexDump b.Raw

/-- pkg/llc/base.go:36-39 `GetType` -/
def BaseMsg.getType (b : BaseMsg) : Nat := b.Typ

/-! ## Other -/

/-- pkg/llc/other.go:8-11 `Other` -/
structure Other where
  base : BaseMsg := {}
deriving DecidableEq, Repr

/-- pkg/llc/other.go:13-18 `Other.Parse` -/
def Other.parse (o : Other) (buffer : Slice) : Go Other :=
  pure { o with base := { o.base.setRaw buffer with Typ := TypeOther, Length := buffer.len } }

/-- pkg/llc/other.go:20-23 `Other.String` -/
def Other.string (_ : Other) : Bytes := go! "Other Payload\n"

/-- pkg/llc/other.go:25-28 `Other.Reserved` -/
def Other.reserved (o : Other) : Bytes := o.string

/-- pkg/llc/other.go:30-35 `ParseOther` -/
def parseOther (buffer : Slice) : Go Other := Other.parse {} buffer

/-! ## Confirm Link -/

/-- pkg/llc/llc_confirmlink.go:9-22 `ConfirmLink` -/
structure ConfirmLink where
  base : BaseMsg := {}
  res1 : UInt8 := 0
  Reply : Bool := false
  res2 : UInt8 := 0
  SenderMAC : Bytes := []
  SenderGID : Bytes := []
  SenderQP : UInt32 := 0
  Link : UInt8 := 0
  SenderLinkUserID : UInt32 := 0
  MaxLinks : UInt8 := 0
  res3 : Bytes := zeros 9
deriving DecidableEq, Repr

/-- pkg/llc/llc_confirmlink.go:24-72 `ConfirmLink.Parse` -/
def ConfirmLink.parse (c : ConfirmLink) (buffer : Slice) : Go ConfirmLink := do
  let c := { c with base := ← c.base.setBaseMsg buffer }
  let buffer ← buffer.sfrom 2
  let c := { c with res1 := ← buffer.idx 0 }
  let buffer ← buffer.sfrom 1
  let c := { c with Reply := decide ((← buffer.idx 0) &&& 0b10000000 > 0) }
  let c := { c with res2 := (← buffer.idx 0) &&& 0b01111111 }
  let buffer ← buffer.sfrom 1
  let c := { c with SenderMAC := copyInto (zeros 6) (← buffer.sub 0 6).vis }
  let buffer ← buffer.sfrom 6
  let c := { c with SenderGID := copyInto (zeros 16) (← buffer.sub 0 16).vis }
  let buffer ← buffer.sfrom 16
  let c := { c with SenderQP := (← buffer.idx 0).toUInt32 <<< 16 }
  let c := { c with SenderQP := c.SenderQP ||| ((← buffer.idx 1).toUInt32 <<< 8) }
  let c := { c with SenderQP := c.SenderQP ||| (← buffer.idx 2).toUInt32 }
  let buffer ← buffer.sfrom 3
  let c := { c with Link := ← buffer.idx 0 }
  let buffer ← buffer.sfrom 1
  let c := { c with SenderLinkUserID := ← be32 (← buffer.sub 0 4) }
  let buffer ← buffer.sfrom 4
  let c := { c with MaxLinks := ← buffer.idx 0 }
  let buffer ← buffer.sfrom 1
  let c := { c with res3 := copyInto c.res3 buffer.vis }
  pure c

/-- pkg/llc/llc_confirmlink.go:74-82 `ConfirmLink.String` -/
def ConfirmLink.string (c : ConfirmLink) : Bytes :=
  sprintf (go! "LLC Confirm Link: Type: %d, Length: %d, Reply: %t, Sender MAC: %s, Sender GID: %s, Sender QP: %d, Link: %d, Sender Link UserID: %d, Max Links: %d\n")
    [.num c.base.Typ, .num c.base.Length, .bool c.Reply, .str (macStr c.SenderMAC), .str (ipStr c.SenderGID),
     .num c.SenderQP.toNat, .num c.Link.toNat, .num c.SenderLinkUserID.toNat, .num c.MaxLinks.toNat]

/-- pkg/llc/llc_confirmlink.go:84-94 `ConfirmLink.Reserved` -/
def ConfirmLink.reserved (c : ConfirmLink) : Bytes :=
  sprintf (go! "LLC Confirm Link: Type: %d, Length: %d, Reserved: %#x, Reply: %t, Reserved: %#x, Sender MAC: %s, Sender GID: %s, Sender QP: %d, Link: %d, Sender Link UserID: %d, Max Links: %d, Reserved: %#x\n")
    [.num c.base.Typ, .num c.base.Length, .num c.res1.toNat, .bool c.Reply, .num c.res2.toNat,
     .str (macStr c.SenderMAC), .str (ipStr c.SenderGID), .num c.SenderQP.toNat, .num c.Link.toNat,
     .num c.SenderLinkUserID.toNat, .num c.MaxLinks.toNat, .arr c.res3]

/-- pkg/llc/llc_confirmlink.go:96-101 `ParseConfirm` -/
def parseConfirm (buffer : Slice) : Go ConfirmLink := ConfirmLink.parse {} buffer

/-! ## Add Link -/

/-- pkg/llc/llc_addlink.go:11-32 `QPMTU.String` -/
def qpmtuStr (m : UInt8) : Bytes :=
  let mtu :=
    if m = 1 then go! "256"
    else if m = 2 then go! "512"
    else if m = 3 then go! "1024"
    else if m = 4 then go! "2048"
    else if m = 5 then go! "4096"
    else go! "reserved"
  sprintf (go! "%d (%s)") [.num m.toNat, .str mtu]

/-- pkg/llc/llc_addlink.go:37-51 `AddLinkRsnCode.String` -/
def addLinkRsnStr (r : UInt8) : Bytes :=
  let rsn :=
    if r = 1 then go! "no alternate path available"
    else if r = 2 then go! "invalid MTU value specified"
    else go! "unknown"
  sprintf (go! "%d (%s)") [.num r.toNat, .str rsn]

/-- pkg/llc/llc_addlink.go:53-70 `AddLink` -/
structure AddLink where
  base : BaseMsg := {}
  res1 : UInt8 := 0
  RsnCode : UInt8 := 0
  Reply : Bool := false
  Reject : Bool := false
  res2 : UInt8 := 0
  SenderMAC : Bytes := []
  res5 : Bytes := zeros 2
  SenderGID : Bytes := []
  SenderQP : UInt32 := 0
  Link : UInt8 := 0
  res3 : UInt8 := 0
  MTU : UInt8 := 0
  PSN : UInt32 := 0
  res4 : Bytes := zeros 10
deriving DecidableEq, Repr

/-- pkg/llc/llc_addlink.go:72-135 `AddLink.Parse` -/
def AddLink.parse (a : AddLink) (buffer : Slice) : Go AddLink := do
  let a := { a with base := ← a.base.setBaseMsg buffer }
  let buffer ← buffer.sfrom 2
  let a := { a with res1 := (← buffer.idx 0) >>> 4 }
  let a := { a with RsnCode := (← buffer.idx 0) &&& 0b00001111 }
  let buffer ← buffer.sfrom 1
  let a := { a with Reply := decide ((← buffer.idx 0) &&& 0b10000000 > 0) }
  let a := { a with Reject := decide ((← buffer.idx 0) &&& 0b01000000 > 0) }
  let a := { a with res2 := (← buffer.idx 0) &&& 0b00111111 }
  let buffer ← buffer.sfrom 1
  let a := { a with SenderMAC := copyInto (zeros 6) (← buffer.sub 0 6).vis }
  let buffer ← buffer.sfrom 6
  let a := { a with res5 := copyInto a.res5 (← buffer.sub 0 2).vis }
  let buffer ← buffer.sfrom 2
  let a := { a with SenderGID := copyInto (zeros 16) (← buffer.sub 0 16).vis }
  let buffer ← buffer.sfrom 16
  let a := { a with SenderQP := (← buffer.idx 0).toUInt32 <<< 16 }
  let a := { a with SenderQP := a.SenderQP ||| ((← buffer.idx 1).toUInt32 <<< 8) }
  let a := { a with SenderQP := a.SenderQP ||| (← buffer.idx 2).toUInt32 }
  let buffer ← buffer.sfrom 3
  let a := { a with Link := ← buffer.idx 0 }
  let buffer ← buffer.sfrom 1
  let a := { a with res3 := (← buffer.idx 0) >>> 4 }
  let a := { a with MTU := (← buffer.idx 0) &&& 0b00001111 }
  let buffer ← buffer.sfrom 1
  let a := { a with PSN := (← buffer.idx 0).toUInt32 <<< 16 }
  let a := { a with PSN := a.PSN ||| ((← buffer.idx 1).toUInt32 <<< 8) }
  let a := { a with PSN := a.PSN ||| (← buffer.idx 2).toUInt32 }
  let buffer ← buffer.sfrom 3
  let a := { a with res4 := copyInto a.res4 buffer.vis }
  pure a

/-- pkg/llc/llc_addlink.go:137-144 `AddLink.String` -/
def AddLink.string (a : AddLink) : Bytes :=
  sprintf (go! "LLC Add Link: Type: %d, Length: %d, Reason Code: %s, Reply: %t, Rejection: %t, Sender MAC: %s, Sender GID: %s, Sender QP: %d, Link: %d, MTU: %s, Initial PSN: %d\n")
    [.num a.base.Typ, .num a.base.Length, .str (addLinkRsnStr a.RsnCode), .bool a.Reply, .bool a.Reject,
     .str (macStr a.SenderMAC), .str (ipStr a.SenderGID), .num a.SenderQP.toNat, .num a.Link.toNat,
     .str (qpmtuStr a.MTU), .num a.PSN.toNat]

/-- pkg/llc/llc_addlink.go:146-156 `AddLink.Reserved` -/
def AddLink.reserved (a : AddLink) : Bytes :=
  sprintf (go! "LLC Add Link: Type: %d, Length: %d, Reserved: %#x, Reason Code: %s, Reply: %t, Rejection: %t, Reserved: %#x, Sender MAC: %s, Sender GID: %s, Sender QP: %d, Link: %d, Reserved: %#x, MTU: %s, Initial PSN: %d, Reserved: %#x\n")
    [.num a.base.Typ, .num a.base.Length, .num a.res1.toNat, .str (addLinkRsnStr a.RsnCode), .bool a.Reply,
     .bool a.Reject, .num a.res2.toNat, .str (macStr a.SenderMAC), .str (ipStr a.SenderGID),
     .num a.SenderQP.toNat, .num a.Link.toNat, .num a.res3.toNat, .str (qpmtuStr a.MTU), .num a.PSN.toNat,
     .arr a.res4]

/-- pkg/llc/llc_addlink.go:158-163 `ParseAddLink` -/
def parseAddLink (buffer : Slice) : Go AddLink := AddLink.parse {} buffer

/-! ## Add Link Continuation -/

/-- pkg/llc/llc_addlinkcont.go:8-13 `RKeyPair` -/
structure RKeyPair where
  ReferenceRKey : UInt32 := 0
  NewRKey : UInt32 := 0
  NewVAddr : UInt64 := 0
deriving DecidableEq, Repr

/-- pkg/llc/llc_addlinkcont.go:15-24 `RKeyPair.Parse` -/
def RKeyPair.parse (r : RKeyPair) (buffer : Slice) : Go RKeyPair := do
  let r := { r with ReferenceRKey := ← be32 (← buffer.sub 0 4) }
  let r := { r with NewRKey := ← be32 (← buffer.sub 4 8) }
  let r := { r with NewVAddr := ← be64 (← buffer.sub 8 16) }
  pure r

/-- pkg/llc/llc_addlinkcont.go:26-30 `RKeyPair.String` -/
def RKeyPair.string (r : RKeyPair) : Bytes :=
  sprintf (go! "[Reference RKey: %d, New RKey: %d, New Virtual Address: %#x]")
    [.num r.ReferenceRKey.toNat, .num r.NewRKey.toNat, .num r.NewVAddr.toNat]

/-- pkg/llc/llc_addlinkcont.go:32-43 `AddLinkCont`; the array `[2]RKeyPair` is a list -/
structure AddLinkCont where
  base : BaseMsg := {}
  res1 : UInt8 := 0
  Reply : Bool := false
  res2 : UInt8 := 0
  Link : UInt8 := 0
  NumRTokens : UInt8 := 0
  res3 : Bytes := zeros 2
  RKeyPairs : List RKeyPair := [{}, {}]
  res4 : Bytes := zeros 4
deriving DecidableEq, Repr

/-- pkg/llc/llc_addlinkcont.go:79-82: the loop over `RKeyPairs`; returns the new pairs and
the advanced buffer -/
def parsePairs : List RKeyPair → Slice → Go (List RKeyPair × Slice)
  | [], buffer => pure ([], buffer)
  | r :: rs, buffer => do
    let r ← r.parse buffer
    let buffer ← buffer.sfrom 16
    let (rs, buffer) ← parsePairs rs buffer
    pure (r :: rs, buffer)

/-- pkg/llc/llc_addlinkcont.go:45-86 `AddLinkCont.Parse` -/
def AddLinkCont.parse (a : AddLinkCont) (buffer : Slice) : Go AddLinkCont := do
  let a := { a with base := ← a.base.setBaseMsg buffer }
  let buffer ← buffer.sfrom 2
  let a := { a with res1 := ← buffer.idx 0 }
  let buffer ← buffer.sfrom 1
  let a := { a with Reply := decide ((← buffer.idx 0) &&& 0b10000000 > 0) }
  let a := { a with res2 := (← buffer.idx 0) &&& 0b01111111 }
  let buffer ← buffer.sfrom 1
  let a := { a with Link := ← buffer.idx 0 }
  let buffer ← buffer.sfrom 1
  let a := { a with NumRTokens := ← buffer.idx 0 }
  let buffer ← buffer.sfrom 1
  let a := { a with res3 := copyInto a.res3 (← buffer.sub 0 2).vis }
  let buffer ← buffer.sfrom 2
  let (pairs, buffer) ← parsePairs a.RKeyPairs buffer
  let a := { a with RKeyPairs := pairs }
  let a := { a with res4 := copyInto a.res4 buffer.vis }
  pure a

/-- pkg/llc/llc_addlinkcont.go:90-95: `pairs` is assigned, not appended to, in each round,
so only the last pair remains. `i` is the loop index. -/
def pairsStr : Nat → List RKeyPair → Bytes → Bytes
  | _, [], pairs => pairs
  | i, r :: rs, _ =>
    pairsStr (i + 1) rs (sprintf (go! ", RKey Pair %d: %s") [.num (i + 1), .str r.string])

/-- pkg/llc/llc_addlinkcont.go:88-101 `AddLinkCont.String` -/
def AddLinkCont.string (a : AddLinkCont) : Bytes :=
  let pairs := pairsStr 0 a.RKeyPairs []
  sprintf (go! "LLC Add Link Continuation: Type: %d, Length: %d, Reply: %t, Link: %d, Number of RTokens: %d%s\n")
    [.num a.base.Typ, .num a.base.Length, .bool a.Reply, .num a.Link.toNat, .num a.NumRTokens.toNat, .str pairs]

/-- pkg/llc/llc_addlinkcont.go:106-111: again assigned in each round -/
def pairsRes : Nat → List RKeyPair → Bytes → Bytes
  | _, [], pairs => pairs
  | i, r :: rs, _ =>
    pairsRes (i + 1) rs (sprintf (go! "RKey Pair %d: %s, ") [.num (i + 1), .str r.string])

/-- pkg/llc/llc_addlinkcont.go:103-118 `AddLinkCont.Reserved` -/
def AddLinkCont.reserved (a : AddLinkCont) : Bytes :=
  let pairs := pairsRes 0 a.RKeyPairs []
  sprintf (go! "LLC Add Link Continuation: Type: %d, Length: %d, Reserved: %#x, Reply: %t, Reserved: %#x, Link: %d, Number of RTokens: %d, Reserved: %#x, %sReserved: %#x\n")
    [.num a.base.Typ, .num a.base.Length, .num a.res1.toNat, .bool a.Reply, .num a.res2.toNat,
     .num a.Link.toNat, .num a.NumRTokens.toNat, .arr a.res3, .str pairs, .arr a.res4]

/-- pkg/llc/llc_addlinkcont.go:120-125 `ParseAddLinkCont` -/
def parseAddLinkCont (buffer : Slice) : Go AddLinkCont := AddLinkCont.parse {} buffer

/-! ## Delete Link -/

/-- pkg/llc/llc_deletelink.go:11-37 `DelLinkRsnCode.String` -/
def delLinkRsnStr (d : UInt32) : Bytes :=
  let rsn :=
    if d = 0x00010000 then go! "Lost path"
    else if d = 0x00020000 then go! "Operator initiated termination"
    else if d = 0x00030000 then go! "Program initiated termination (link inactivity)"
    else if d = 0x00040000 then go! "LLC protocol violation"
    else if d = 0x00050000 then go! "Asymmetric link no longer needed"
    else if d = 0x00100000 then go! "Unknown link ID (no link)"
    else go! "unknown"
  sprintf (go! "%d (%s)") [.num d.toNat, .str rsn]

/-- pkg/llc/llc_deletelink.go:39-50 `DeleteLink` -/
structure DeleteLink where
  base : BaseMsg := {}
  res1 : UInt8 := 0
  Reply : Bool := false
  All : Bool := false
  Orderly : Bool := false
  res2 : UInt8 := 0
  Link : UInt8 := 0
  RsnCode : UInt32 := 0
  res3 : Bytes := zeros 35
deriving DecidableEq, Repr

/-- pkg/llc/llc_deletelink.go:52-85 `DeleteLink.Parse` -/
def DeleteLink.parse (d : DeleteLink) (buffer : Slice) : Go DeleteLink := do
  let d := { d with base := ← d.base.setBaseMsg buffer }
  let buffer ← buffer.sfrom 2
  let d := { d with res1 := ← buffer.idx 0 }
  let buffer ← buffer.sfrom 1
  let d := { d with Reply := decide ((← buffer.idx 0) &&& 0b10000000 > 0) }
  let d := { d with All := decide ((← buffer.idx 0) &&& 0b01000000 > 0) }
  let d := { d with Orderly := decide ((← buffer.idx 0) &&& 0b00100000 > 0) }
  let d := { d with res2 := (← buffer.idx 0) &&& 0b00011111 }
  let buffer ← buffer.sfrom 1
  let d := { d with Link := ← buffer.idx 0 }
  let buffer ← buffer.sfrom 1
  let d := { d with RsnCode := ← be32 (← buffer.sub 0 4) }
  let buffer ← buffer.sfrom 4
  let d := { d with res3 := copyInto d.res3 buffer.vis }
  pure d

/-- pkg/llc/llc_deletelink.go:87-93 `DeleteLink.String` -/
def DeleteLink.string (d : DeleteLink) : Bytes :=
  sprintf (go! "LLC Delete Link: Type: %d, Length: %d, Reply: %t, All: %t, Orderly: %t, Link: %d, Reason Code: %s\n")
    [.num d.base.Typ, .num d.base.Length, .bool d.Reply, .bool d.All, .bool d.Orderly, .num d.Link.toNat,
     .str (delLinkRsnStr d.RsnCode)]

/-- pkg/llc/llc_deletelink.go:95-103 `DeleteLink.Reserved` -/
def DeleteLink.reserved (d : DeleteLink) : Bytes :=
  sprintf (go! "LLC Delete Link: Type: %d, Length: %d, Reserved: %#x, Reply: %t, All: %t, Orderly: %t, Reserved: %#x, Link: %d, Reason Code: %s, Reserved: %#x\n")
    [.num d.base.Typ, .num d.base.Length, .num d.res1.toNat, .bool d.Reply, .bool d.All, .bool d.Orderly,
     .num d.res2.toNat, .num d.Link.toNat, .str (delLinkRsnStr d.RsnCode), .arr d.res3]

/-- pkg/llc/llc_deletelink.go:105-110 `ParseDeleteLink` -/
def parseDeleteLink (buffer : Slice) : Go DeleteLink := DeleteLink.parse {} buffer

/-! ## Confirm RKey -/

/-- pkg/llc/llc_confirmrkey.go:8-13 `RMBSpec` -/
structure RMBSpec where
  Link : UInt8 := 0
  RKey : UInt32 := 0
  VAddr : UInt64 := 0
deriving DecidableEq, Repr

/-- pkg/llc/llc_confirmrkey.go:15-24 `RMBSpec.Parse` -/
def RMBSpec.parse (r : RMBSpec) (buffer : Slice) : Go RMBSpec := do
  let r := { r with Link := ← buffer.idx 0 }
  let r := { r with RKey := ← be32 (← buffer.sub 1 5) }
  let r := { r with VAddr := ← be64 (← buffer.sub 5 13) }
  pure r

/-- pkg/llc/llc_confirmrkey.go:26-30 `RMBSpec.String` -/
def RMBSpec.string (r : RMBSpec) : Bytes :=
  sprintf (go! "[Link: %d, RKey: %d, Virtual Address: %#x]")
    [.num r.Link.toNat, .num r.RKey.toNat, .num r.VAddr.toNat]

/-- pkg/llc/llc_confirmrkey.go:32-46 `ConfirmRKey` -/
structure ConfirmRKey where
  base : BaseMsg := {}
  res1 : UInt8 := 0
  Reply : Bool := false
  res2 : UInt8 := 0
  Reject : Bool := false
  Retry : Bool := false
  res3 : UInt8 := 0
  NumTkns : UInt8 := 0
  RKey : UInt32 := 0
  VAddr : UInt64 := 0
  OtherRMBs : List RMBSpec := [{}, {}]
  res4 : UInt8 := 0
deriving DecidableEq, Repr

/-- pkg/llc/llc_confirmrkey.go:90-93 and llc_confirmrkeycont.go:52-55: the loop over
`OtherRMBs`; returns the new entries and the advanced buffer -/
def parseRMBs : List RMBSpec → Slice → Go (List RMBSpec × Slice)
  | [], buffer => pure ([], buffer)
  | r :: rs, buffer => do
    let r ← r.parse buffer
    let buffer ← buffer.sfrom 13
    let (rs, buffer) ← parseRMBs rs buffer
    pure (r :: rs, buffer)

/-- pkg/llc/llc_confirmrkey.go:48-97 `ConfirmRKey.Parse` -/
def ConfirmRKey.parse (c : ConfirmRKey) (buffer : Slice) : Go ConfirmRKey := do
  let c := { c with base := ← c.base.setBaseMsg buffer }
  let buffer ← buffer.sfrom 2
  let c := { c with res1 := ← buffer.idx 0 }
  let buffer ← buffer.sfrom 1
  let c := { c with Reply := decide ((← buffer.idx 0) &&& 0b10000000 > 0) }
  let c := { c with res2 := ((← buffer.idx 0) &&& 0b01000000) >>> 6 }
  let c := { c with Reject := decide ((← buffer.idx 0) &&& 0b00100000 > 0) }
  let c := { c with Retry := decide ((← buffer.idx 0) &&& 0b00010000 > 0) }
  let c := { c with res3 := (← buffer.idx 0) &&& 0b00001111 }
  let buffer ← buffer.sfrom 1
  let c := { c with NumTkns := ← buffer.idx 0 }
  let buffer ← buffer.sfrom 1
  let c := { c with RKey := ← be32 (← buffer.sub 0 4) }
  let buffer ← buffer.sfrom 4
  let c := { c with VAddr := ← be64 (← buffer.sub 0 8) }
  let buffer ← buffer.sfrom 8
  let (rmbs, buffer) ← parseRMBs c.OtherRMBs buffer
  let c := { c with OtherRMBs := rmbs }
  let c := { c with res4 := ← buffer.idx 0 }
  pure c

/-- pkg/llc/llc_confirmrkey.go:103-106, llc_confirmrkeycont.go:65-68: the loop building
`others` in `String`; `i` is the loop index -/
def rmbsStr : Nat → List RMBSpec → Bytes
  | _, [] => []
  | i, r :: rs =>
    sprintf (go! ", Other Link RMB %d: %s") [.num (i + 1), .str r.string] ++ rmbsStr (i + 1) rs

/-- pkg/llc/llc_confirmrkey.go:120-123, llc_confirmrkeycont.go:81-84: the loop building
`others` in `Reserved` -/
def rmbsRes : Nat → List RMBSpec → Bytes
  | _, [] => []
  | i, r :: rs =>
    sprintf (go! "Other Link RMB %d: %s, ") [.num (i + 1), .str r.string] ++ rmbsRes (i + 1) rs

/-- pkg/llc/llc_confirmrkey.go:99-113 `ConfirmRKey.String` -/
def ConfirmRKey.string (c : ConfirmRKey) : Bytes :=
  let others := rmbsStr 0 c.OtherRMBs
  sprintf (go! "LLC Confirm RKey: Type: %d, Length: %d, Reply: %t, Negative Response: %t, Configuration Retry: %t, Number of Tokens: %d, This RKey: %d, This VAddr: %#x%s\n")
    [.num c.base.Typ, .num c.base.Length, .bool c.Reply, .bool c.Reject, .bool c.Retry, .num c.NumTkns.toNat,
     .num c.RKey.toNat, .num c.VAddr.toNat, .str others]

/-- pkg/llc/llc_confirmrkey.go:115-133 `ConfirmRKey.Reserved` -/
def ConfirmRKey.reserved (c : ConfirmRKey) : Bytes :=
  let others := rmbsRes 0 c.OtherRMBs
  sprintf (go! "LLC Confirm RKey: Type: %d, Length: %d, Reserved: %#x, Reply: %t, Reserved: %#x, Negative Response: %t, Configuration Retry: %t, Reserved: %#x, Number of Tokens: %d, This RKey: %d, This VAddr: %#x, %sReserved: %#x\n")
    [.num c.base.Typ, .num c.base.Length, .num c.res1.toNat, .bool c.Reply, .num c.res2.toNat, .bool c.Reject,
     .bool c.Retry, .num c.res3.toNat, .num c.NumTkns.toNat, .num c.RKey.toNat, .num c.VAddr.toNat, .str others,
     .num c.res4.toNat]

/-- pkg/llc/llc_confirmrkey.go:135-140 `ParseConfirmRKey` -/
def parseConfirmRKey (buffer : Slice) : Go ConfirmRKey := ConfirmRKey.parse {} buffer

/-! ## Confirm RKey Continuation -/

/-- pkg/llc/llc_confirmrkeycont.go:5-16 `ConfirmRKeyCont` -/
structure ConfirmRKeyCont where
  base : BaseMsg := {}
  res1 : UInt8 := 0
  Reply : Bool := false
  res2 : UInt8 := 0
  Reject : Bool := false
  res3 : UInt8 := 0
  NumTkns : UInt8 := 0
  OtherRMBs : List RMBSpec := [{}, {}, {}]
  res4 : UInt8 := 0
deriving DecidableEq, Repr

/-- pkg/llc/llc_confirmrkeycont.go:18-59 `ConfirmRKeyCont.Parse` -/
def ConfirmRKeyCont.parse (c : ConfirmRKeyCont) (buffer : Slice) : Go ConfirmRKeyCont := do
  let c := { c with base := ← c.base.setBaseMsg buffer }
  let buffer ← buffer.sfrom 2
  let c := { c with res1 := ← buffer.idx 0 }
  let buffer ← buffer.sfrom 1
  let c := { c with Reply := decide ((← buffer.idx 0) &&& 0b10000000 > 0) }
  let c := { c with res2 := ((← buffer.idx 0) &&& 0b01000000) >>> 6 }
  let c := { c with Reject := decide ((← buffer.idx 0) &&& 0b00100000 > 0) }
  let c := { c with res3 := (← buffer.idx 0) &&& 0b00011111 }
  let buffer ← buffer.sfrom 1
  let c := { c with NumTkns := ← buffer.idx 0 }
  let buffer ← buffer.sfrom 1
  let (rmbs, buffer) ← parseRMBs c.OtherRMBs buffer
  let c := { c with OtherRMBs := rmbs }
  let c := { c with res4 := ← buffer.idx 0 }
  pure c

/-- pkg/llc/llc_confirmrkeycont.go:61-74 `ConfirmRKeyCont.String` -/
def ConfirmRKeyCont.string (c : ConfirmRKeyCont) : Bytes :=
  let others := rmbsStr 0 c.OtherRMBs
  sprintf (go! "LLC Confirm RKey Continuation: Type: %d, Length: %d, Reply: %t, Negative Response: %t, Number of Tokens: %d%s\n")
    [.num c.base.Typ, .num c.base.Length, .bool c.Reply, .bool c.Reject, .num c.NumTkns.toNat, .str others]

/-- pkg/llc/llc_confirmrkeycont.go:76-92 `ConfirmRKeyCont.Reserved` -/
def ConfirmRKeyCont.reserved (c : ConfirmRKeyCont) : Bytes :=
  let others := rmbsRes 0 c.OtherRMBs
  sprintf (go! "LLC Confirm RKey Continuation: Type: %d, Length: %d, Reserved: %#x, Reply: %t, Reserved: %#x, Negative Response: %t, Reserved: %#x, Number of Tokens: %d, %sReserved: %#x\n")
    [.num c.base.Typ, .num c.base.Length, .num c.res1.toNat, .bool c.Reply, .num c.res2.toNat, .bool c.Reject,
     .num c.res3.toNat, .num c.NumTkns.toNat, .str others, .num c.res4.toNat]

/-- pkg/llc/llc_confirmrkeycont.go:94-100 `ParseConfirmRKeyCont` -/
def parseConfirmRKeyCont (buffer : Slice) : Go ConfirmRKeyCont := ConfirmRKeyCont.parse {} buffer

/-! ## Delete RKey -/

/-- pkg/llc/llc_deleterkey.go:8-21 `deleteRKey` -/
structure DeleteRKey where
  base : BaseMsg := {}
  res1 : UInt8 := 0
  reply : Bool := false
  res2 : UInt8 := 0
  reject : Bool := false
  res3 : UInt8 := 0
  count : UInt8 := 0
  errorMask : UInt8 := 0
  res4 : Bytes := zeros 2
  rkeys : List UInt32 := [0, 0, 0, 0, 0, 0, 0, 0]
  res5 : Bytes := zeros 4
deriving DecidableEq, Repr

/-- pkg/llc/llc_deleterkey.go:68-71: the loop over `rkeys`; returns the new keys and the
advanced buffer -/
def parseRKeys : List UInt32 → Slice → Go (List UInt32 × Slice)
  | [], buffer => pure ([], buffer)
  | _ :: rs, buffer => do
    let r ← be32 (← buffer.sub 0 4)
    let buffer ← buffer.sfrom 4
    let (rs, buffer) ← parseRKeys rs buffer
    pure (r :: rs, buffer)

/-- pkg/llc/llc_deleterkey.go:23-75 `deleteRKey.Parse` -/
def DeleteRKey.parse (d : DeleteRKey) (buffer : Slice) : Go DeleteRKey := do
  let d := { d with base := ← d.base.setBaseMsg buffer }
  let buffer ← buffer.sfrom 2
  let d := { d with res1 := ← buffer.idx 0 }
  let buffer ← buffer.sfrom 1
  let d := { d with reply := decide ((← buffer.idx 0) &&& 0b10000000 > 0) }
  let d := { d with res2 := ((← buffer.idx 0) &&& 0b01000000) >>> 6 }
  let d := { d with reject := decide ((← buffer.idx 0) &&& 0b00100000 > 0) }
  let d := { d with res3 := (← buffer.idx 0) &&& 0b00011111 }
  let buffer ← buffer.sfrom 1
  let d := { d with count := ← buffer.idx 0 }
  let buffer ← buffer.sfrom 1
  let d := { d with errorMask := ← buffer.idx 0 }
  let buffer ← buffer.sfrom 1
  let d := { d with res4 := copyInto d.res4 (← buffer.sub 0 2).vis }
  let buffer ← buffer.sfrom 2
  let (rkeys, buffer) ← parseRKeys d.rkeys buffer
  let d := { d with rkeys := rkeys }
  let d := { d with res5 := copyInto d.res5 buffer.vis }
  pure d

/-- pkg/llc/llc_deleterkey.go:81-83: the loop building `rkeys` in `String` -/
def rkeysStr : Nat → List UInt32 → Bytes
  | _, [] => []
  | i, r :: rs => sprintf (go! ", RKey %d: %d") [.num i, .num r.toNat] ++ rkeysStr (i + 1) rs

/-- pkg/llc/llc_deleterkey.go:97-99: the loop building `rkeys` in `Reserved` -/
def rkeysRes : Nat → List UInt32 → Bytes
  | _, [] => []
  | i, r :: rs => sprintf (go! "RKey %d: %d, ") [.num i, .num r.toNat] ++ rkeysRes (i + 1) rs

/-- pkg/llc/llc_deleterkey.go:77-90 `deleteRKey.String` -/
def DeleteRKey.string (d : DeleteRKey) : Bytes :=
  let rkeys := rkeysStr 0 d.rkeys
  sprintf (go! "LLC Delete RKey: Type: %d, Length: %d, Reply: %t, Negative Response: %t, Count: %d, Error Mask: %#b%s\n")
    [.num d.base.Typ, .num d.base.Length, .bool d.reply, .bool d.reject, .num d.count.toNat,
     .num d.errorMask.toNat, .str rkeys]

/-- pkg/llc/llc_deleterkey.go:92-107 `deleteRKey.Reserved` -/
def DeleteRKey.reserved (d : DeleteRKey) : Bytes :=
  let rkeys := rkeysRes 0 d.rkeys
  sprintf (go! "LLC Delete RKey: Type: %d, Length: %d, Reserved: %#x, Reply: %t, Reserved: %#x, Negative Response: %t, Reserved: %#x, Count: %d, Error Mask: %#b, Reserved: %#x, %sReserved: %#x\n")
    [.num d.base.Typ, .num d.base.Length, .num d.res1.toNat, .bool d.reply, .num d.res2.toNat, .bool d.reject,
     .num d.res3.toNat, .num d.count.toNat, .num d.errorMask.toNat, .arr d.res4, .str rkeys, .arr d.res5]

/-- pkg/llc/llc_deleterkey.go:109-114 `parseDeleteRKey` -/
def parseDeleteRKey (buffer : Slice) : Go DeleteRKey := DeleteRKey.parse {} buffer

/-! ## Test Link -/

/-- pkg/llc/llc_testlink.go:5-13 `TestLink` -/
structure TestLink where
  base : BaseMsg := {}
  res1 : UInt8 := 0
  Reply : Bool := false
  res2 : UInt8 := 0
  UserData : Bytes := zeros 16
  res3 : Bytes := zeros 24
deriving DecidableEq, Repr

/-- pkg/llc/llc_testlink.go:15-38 `TestLink.Parse` -/
def TestLink.parse (t : TestLink) (buffer : Slice) : Go TestLink := do
  let t := { t with base := ← t.base.setBaseMsg buffer }
  let buffer ← buffer.sfrom 2
  let t := { t with res1 := ← buffer.idx 0 }
  let buffer ← buffer.sfrom 1
  let t := { t with Reply := decide ((← buffer.idx 0) &&& 0b10000000 > 0) }
  let t := { t with res2 := (← buffer.idx 0) &&& 0b01111111 }
  let buffer ← buffer.sfrom 1
  let t := { t with UserData := copyInto t.UserData (← buffer.sub 0 16).vis }
  let buffer ← buffer.sfrom 16
  let t := { t with res3 := copyInto t.res3 buffer.vis }
  pure t

/-- pkg/llc/llc_testlink.go:40-45 `TestLink.String` -/
def TestLink.string (t : TestLink) : Bytes :=
  sprintf (go! "LLC Test Link: Type %d, Length: %d, Reply: %t, User Data: %#x\n")
    [.num t.base.Typ, .num t.base.Length, .bool t.Reply, .arr t.UserData]

/-- pkg/llc/llc_testlink.go:47-54 `TestLink.Reserved` -/
def TestLink.reserved (t : TestLink) : Bytes :=
  sprintf (go! "LLC Test Link: Type %d, Length: %d, Reserved: %#x, Reply: %t, Reserved: %#x, User Data: %#x, Reserved: %#x\n")
    [.num t.base.Typ, .num t.base.Length, .num t.res1.toNat, .bool t.Reply, .num t.res2.toNat, .arr t.UserData,
     .arr t.res3]

/-- pkg/llc/llc_testlink.go:56-61 `ParseTestLink` -/
def parseTestLink (buffer : Slice) : Go TestLink := TestLink.parse {} buffer

/-! ## CDC -/

/-- pkg/llc/cdc.go:8-29 `CDC` -/
structure CDC where
  base : BaseMsg := {}
  SeqNum : UInt16 := 0
  AlertTkn : UInt32 := 0
  res1 : Bytes := zeros 2
  ProdWrap : UInt16 := 0
  ProdCurs : UInt32 := 0
  res2 : Bytes := zeros 2
  ConsWrap : UInt16 := 0
  ConsCurs : UInt32 := 0
  B : Bool := false
  P : Bool := false
  U : Bool := false
  R : Bool := false
  F : Bool := false
  res3 : UInt8 := 0
  D : Bool := false
  C : Bool := false
  A : Bool := false
  res4 : Bytes := zeros 19
deriving DecidableEq, Repr

/-- pkg/llc/cdc.go:31-110 `CDC.Parse`. `c.res4[0] = x` replaces the first element of the
array, `copy(c.res4[1:], …)` the rest. -/
def CDC.parse (c : CDC) (buffer : Slice) : Go CDC := do
  let c := { c with base := c.base.setRaw buffer }
  let c := { c with base := { c.base with Typ := (← buffer.idx 0).toNat } }
  let buffer ← buffer.sfrom 1
  let c := { c with base := { c.base with Length := (← buffer.idx 0).toNat } }
  let buffer ← buffer.sfrom 1
  let c := { c with SeqNum := ← be16 (← buffer.sub 0 2) }
  let buffer ← buffer.sfrom 2
  let c := { c with AlertTkn := ← be32 (← buffer.sub 0 4) }
  let buffer ← buffer.sfrom 4
  let c := { c with res1 := copyInto c.res1 (← buffer.sub 0 2).vis }
  let buffer ← buffer.sfrom 2
  let c := { c with ProdWrap := ← be16 (← buffer.sub 0 2) }
  let buffer ← buffer.sfrom 2
  let c := { c with ProdCurs := ← be32 (← buffer.sub 0 4) }
  let buffer ← buffer.sfrom 4
  let c := { c with res2 := copyInto c.res2 (← buffer.sub 0 2).vis }
  let buffer ← buffer.sfrom 2
  let c := { c with ConsWrap := ← be16 (← buffer.sub 0 2) }
  let buffer ← buffer.sfrom 2
  let c := { c with ConsCurs := ← be32 (← buffer.sub 0 4) }
  let buffer ← buffer.sfrom 4
  let c := { c with B := decide ((← buffer.idx 0) &&& 0b10000000 > 0) }
  let c := { c with P := decide ((← buffer.idx 0) &&& 0b01000000 > 0) }
  let c := { c with U := decide ((← buffer.idx 0) &&& 0b00100000 > 0) }
  let c := { c with R := decide ((← buffer.idx 0) &&& 0b00010000 > 0) }
  let c := { c with F := decide ((← buffer.idx 0) &&& 0b00001000 > 0) }
  let c := { c with res3 := (← buffer.idx 0) &&& 0b00000111 }
  let buffer ← buffer.sfrom 1
  let c := { c with D := decide ((← buffer.idx 0) &&& 0b10000000 > 0) }
  let c := { c with C := decide ((← buffer.idx 0) &&& 0b01000000 > 0) }
  let c := { c with A := decide ((← buffer.idx 0) &&& 0b00100000 > 0) }
  let c := { c with res4 := copyInto c.res4 [(← buffer.idx 0) &&& 0b00011111] }
  let buffer ← buffer.sfrom 1
  let c := { c with res4 := c.res4.take 1 ++ copyInto (c.res4.drop 1) buffer.vis }
  pure c

/-- pkg/llc/cdc.go:112-125 `CDC.String` -/
def CDC.string (c : CDC) : Bytes :=
  sprintf (go! "CDC: Type: %d, Length %d, Sequence Number: %d, Alert Token: %d, Producer Wrap: %d, Producer Cursor: %d, Consumer Wrap: %d, Consumer Cursor: %d, Writer Blocked: %t, Urgent Data Pending: %t, Urgent Data Present: %t, Request for Consumer Cursor Update: %t, Failover Validation: %t, Sending Done: %t, Peer Connection Closed: %t, Abnormal Close: %t\n")
    [.num c.base.Typ, .num c.base.Length, .num c.SeqNum.toNat, .num c.AlertTkn.toNat, .num c.ProdWrap.toNat,
     .num c.ProdCurs.toNat, .num c.ConsWrap.toNat, .num c.ConsCurs.toNat, .bool c.B, .bool c.P, .bool c.U,
     .bool c.R, .bool c.F, .bool c.D, .bool c.C, .bool c.A]

/-- pkg/llc/cdc.go:127-141 `CDC.Reserved` -/
def CDC.reserved (c : CDC) : Bytes :=
  sprintf (go! "CDC: Type: %d, Length %d, Sequence Number: %d, Alert Token: %d, Reserved: %#x, Producer Wrap: %d, Producer Cursor: %d, Reserved: %#x, Consumer Wrap: %d, Consumer Cursor: %d, Writer Blocked: %t, Urgent Data Pending: %t, Urgent Data Present: %t, Request for Consumer Cursor Update: %t, Failover Validation: %t, Reserved: %#x, Sending Done: %t, Peer Connection Closed: %t, Abnormal Close: %t, Reserved: %#x\n")
    [.num c.base.Typ, .num c.base.Length, .num c.SeqNum.toNat, .num c.AlertTkn.toNat, .arr c.res1,
     .num c.ProdWrap.toNat, .num c.ProdCurs.toNat, .arr c.res2, .num c.ConsWrap.toNat, .num c.ConsCurs.toNat,
     .bool c.B, .bool c.P, .bool c.U, .bool c.R, .bool c.F, .num c.res3.toNat, .bool c.D, .bool c.C, .bool c.A,
     .arr c.res4]

/-- pkg/llc/cdc.go:143-148 `ParseCDC` -/
def parseCDC (buffer : Slice) : Go CDC := CDC.parse {} buffer

/-! ## ParseLLC -/

/-- pkg/llc/message.go:3-10 `Message`: the dynamic types behind the interface -/
inductive Msg where
  | other (m : Other)
  | confirmLink (m : ConfirmLink)
  | addLink (m : AddLink)
  | addLinkCont (m : AddLinkCont)
  | deleteLink (m : DeleteLink)
  | confirmRKey (m : ConfirmRKey)
  | confirmRKeyCont (m : ConfirmRKeyCont)
  | deleteRKey (m : DeleteRKey)
  | testLink (m : TestLink)
  | cdc (m : CDC)
deriving DecidableEq, Repr

/-- the embedded `BaseMsg` of a message -/
def Msg.base : Msg → BaseMsg
  | .other m => m.base
  | .confirmLink m => m.base
  | .addLink m => m.base
  | .addLinkCont m => m.base
  | .deleteLink m => m.base
  | .confirmRKey m => m.base
  | .confirmRKeyCont m => m.base
  | .deleteRKey m => m.base
  | .testLink m => m.base
  | .cdc m => m.base

/-- method `String` through the interface (pkg/llc/message.go:6) -/
def Msg.string : Msg → Bytes
  | .other m => m.string
  | .confirmLink m => m.string
  | .addLink m => m.string
  | .addLinkCont m => m.string
  | .deleteLink m => m.string
  | .confirmRKey m => m.string
  | .confirmRKeyCont m => m.string
  | .deleteRKey m => m.string
  | .testLink m => m.string
  | .cdc m => m.string

/-- method `Reserved` through the interface (pkg/llc/message.go:7) -/
def Msg.reserved : Msg → Bytes
  | .other m => m.reserved
  | .confirmLink m => m.reserved
  | .addLink m => m.reserved
  | .addLinkCont m => m.reserved
  | .deleteLink m => m.reserved
  | .confirmRKey m => m.reserved
  | .confirmRKeyCont m => m.reserved
  | .deleteRKey m => m.reserved
  | .testLink m => m.reserved
  | .cdc m => m.reserved

/-- method `Hex` through the interface (pkg/llc/message.go:8, promoted from `BaseMsg`) -/
def Msg.hex (m : Msg) : Bytes := m.base.hex

/-- method `GetType` through the interface (pkg/llc/message.go:9, promoted from `BaseMsg`) -/
def Msg.getType (m : Msg) : Nat := m.base.getType

/-- method `Parse` through the interface (pkg/llc/message.go:5): parse into a used value -/
def Msg.parse (m : Msg) (buffer : Slice) : Go Msg :=
  match m with
  | .other m => return .other (← m.parse buffer)
  | .confirmLink m => return .confirmLink (← m.parse buffer)
  | .addLink m => return .addLink (← m.parse buffer)
  | .addLinkCont m => return .addLinkCont (← m.parse buffer)
  | .deleteLink m => return .deleteLink (← m.parse buffer)
  | .confirmRKey m => return .confirmRKey (← m.parse buffer)
  | .confirmRKeyCont m => return .confirmRKeyCont (← m.parse buffer)
  | .deleteRKey m => return .deleteRKey (← m.parse buffer)
  | .testLink m => return .testLink (← m.parse buffer)
  | .cdc m => return .cdc (← m.parse buffer)

/-- pkg/llc/llc.go:21-50 `ParseLLC`; the case labels are the constants of llc.go:10-18 -/
def parseLLC (buffer : Slice) : Go Msg := do
  if buffer.len ≠ LLCMsgLen then
    return .other (← parseOther buffer)
  let t ← buffer.idx 0
  if t = 1 then return .confirmLink (← parseConfirm buffer)
  else if t = 2 then return .addLink (← parseAddLink buffer)
  else if t = 3 then return .addLinkCont (← parseAddLinkCont buffer)
  else if t = 4 then return .deleteLink (← parseDeleteLink buffer)
  else if t = 6 then return .confirmRKey (← parseConfirmRKey buffer)
  else if t = 8 then return .confirmRKeyCont (← parseConfirmRKeyCont buffer)
  else if t = 9 then return .deleteRKey (← parseDeleteRKey buffer)
  else if t = 7 then return .testLink (← parseTestLink buffer)
  else if t = 0xFE then return .cdc (← parseCDC buffer)
  else return .other (← parseOther buffer)

end SMC.LLC
