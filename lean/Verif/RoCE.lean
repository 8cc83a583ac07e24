import Verif.LLC
/-!
# Model of pkg/roce

The IPv6 decoder of gopacket v1.3.0 (`layers.IPv6.DecodeFromBytes`) is modelled from
RFC 8200, section 3, not from its source, which is not part of /repo. Its names for next
header values are a parameter.
-/

namespace SMC.RoCE

/-! ## BTH -/

/-- pkg/roce/bth.go:11 `typeBTH` -/
def typeBTH : Nat := 0x103
/-- pkg/roce/bth.go:14 `BTHNextHeader` -/
def BTHNextHeader : UInt8 := 0x1B
/-- pkg/roce/bth.go:17 `BTHLen` -/
def BTHLen : Nat := 12

/-- pkg/roce/bth.go:25-50 `rcStrings` -/
def rcStrings : List Bytes := [
  go! "SEND First",
  go! "SEND Middle",
  go! "SEND Last",
  go! "SEND Last with Immediate",
  go! "SEND Only",
  go! "SEND Only with Immediate",
  go! "RDMA WRITE First",
  go! "RDMA WRITE Middle",
  go! "RDMA WRITE Last",
  go! "RDMA WRITE Last with Immediate",
  go! "RDMA WRITE Only",
  go! "RDMA WRITE Only with Immediate",
  go! "RDMA READ Request",
  go! "RDMA READ response First",
  go! "RDMA READ response Middle",
  go! "RDMA READ response Last",
  go! "RDMA READ response Only",
  go! "Acknowledge",
  go! "ATOMIC Acknowledge",
  go! "CmpSwap",
  go! "FetchAdd",
  go! "Reserved",
  go! "SEND Last with Invalidate",
  go! "SEND Only with Invalidate"]

/-- pkg/roce/bth.go:61-74 `ucStrings` -/
def ucStrings : List Bytes := [
  go! "SEND First",
  go! "SEND Middle",
  go! "SEND Last",
  go! "SEND Last with Immediate",
  go! "SEND Only",
  go! "SEND Only with Immediate",
  go! "RDMA WRITE First",
  go! "RDMA WRITE Middle",
  go! "RDMA WRITE Last",
  go! "RDMA WRITE Last with Immediate",
  go! "RDMA WRITE Only",
  go! "RDMA WRITE Only with Immediate"]

/-- pkg/roce/bth.go:85-108 `rdStrings` -/
def rdStrings : List Bytes := [
  go! "SEND First",
  go! "SEND Middle",
  go! "SEND Last",
  go! "SEND Last with Immediate",
  go! "SEND Only",
  go! "SEND Only with Immediate",
  go! "RDMA WRITE First",
  go! "RDMA WRITE Middle",
  go! "RDMA WRITE Last",
  go! "RDMA WRITE Last with Immediate",
  go! "RDMA WRITE Only",
  go! "RDMA WRITE Only with Immediate",
  go! "RDMA READ Request",
  go! "RDMA READ response First",
  go! "RDMA READ response Middle",
  go! "RDMA READ response Last",
  go! "RDMA READ response Only",
  go! "Acknowledge",
  go! "ATOMIC Acknowledge",
  go! "CmpSwap",
  go! "FetchAdd",
  go! "RESYNC"]

/-- pkg/roce/bth.go:119-126 `udStrings` -/
def udStrings : List Bytes := [
  go! "Reserved",
  go! "Reserved",
  go! "Reserved",
  go! "Reserved",
  go! "SEND Only",
  go! "SEND Only with Immediate"]

/-- pkg/roce/bth.go:51-56 and the like: table look-up with the last five bits; an index
outside the table would panic -/
def lookup (table : List Bytes) (o : UInt8) : Go Bytes :=
  let op := (o &&& 0b00011111).toNat
  if op < table.length then
    match table[op]? with
    | some s => .ret [] s
    | none => .panic []
  else pure (go! "Reserved")

/-- pkg/roce/bth.go:23-57 `rcString` -/
def rcString (o : UInt8) : Go Bytes := lookup rcStrings o
/-- pkg/roce/bth.go:59-81 `ucString` -/
def ucString (o : UInt8) : Go Bytes := lookup ucStrings o
/-- pkg/roce/bth.go:83-115 `rdString` -/
def rdString (o : UInt8) : Go Bytes := lookup rdStrings o
/-- pkg/roce/bth.go:117-133 `udString` -/
def udString (o : UInt8) : Go Bytes := lookup udStrings o
/-- pkg/roce/bth.go:135-142 `cnpString` -/
def cnpString (o : UInt8) : Go Bytes :=
  let op := (o &&& 0b00011111).toNat
  pure (if op = 0 then go! "CNP" else go! "Reserved")
/-- pkg/roce/bth.go:144-148 `xrcString` -/
def xrcString (o : UInt8) : Go Bytes := rcString o

/-- pkg/roce/bth.go:150-177 `Opcode.String` -/
def opcodeStr (o : UInt8) : Go Bytes := do
  let op ←
    if o >>> 5 = 0b000 then do pure (go! "RC " ++ (← rcString o))
    else if o >>> 5 = 0b001 then do pure (go! "UC " ++ (← ucString o))
    else if o >>> 5 = 0b010 then do pure (go! "RD " ++ (← rdString o))
    else if o >>> 5 = 0b011 then do pure (go! "UD " ++ (← udString o))
    else if o >>> 5 = 0b100 then do pure (go! "CNP " ++ (← cnpString o))
    else if o >>> 5 = 0b101 then do pure (go! "XRC " ++ (← xrcString o))
    else pure (go! "Manufacturer Specific")
  pure (sprintf (go! "%#b (%s)") [.num o.toNat, .str op])

/-- pkg/roce/bth.go:179-195 `BTH` -/
structure BTH where
  Raw : Bytes := []
  Opcode : UInt8 := 0
  SE : Bool := false
  M : Bool := false
  Pad : UInt8 := 0
  TVer : UInt8 := 0
  PKey : UInt16 := 0
  FECN : Bool := false
  BECN : Bool := false
  res1 : UInt8 := 0
  DestQP : UInt32 := 0
  A : Bool := false
  res2 : UInt8 := 0
  PSN : UInt32 := 0
deriving DecidableEq, Repr

/-- pkg/roce/bth.go:197-251 `BTH.Parse` -/
def BTH.parse (b : BTH) (buffer : Slice) : Go BTH := do
  let b := { b with Raw := copyInto (zeros buffer.len) buffer.vis }
  let b := { b with Opcode := ← buffer.idx 0 }
  let buffer ← buffer.sfrom 1
  let b := { b with SE := decide ((← buffer.idx 0) &&& 0b10000000 > 0) }
  let b := { b with M := decide ((← buffer.idx 0) &&& 0b01000000 > 0) }
  let b := { b with Pad := ((← buffer.idx 0) &&& 0b00110000) >>> 4 }
  let b := { b with TVer := (← buffer.idx 0) &&& 0b00001111 }
  let buffer ← buffer.sfrom 1
  let b := { b with PKey := ← be16 (← buffer.sub 0 2) }
  let buffer ← buffer.sfrom 2
  let b := { b with FECN := decide ((← buffer.idx 0) &&& 0b10000000 > 0) }
  let b := { b with BECN := decide ((← buffer.idx 0) &&& 0b01000000 > 0) }
  let b := { b with res1 := (← buffer.idx 0) &&& 0b00111111 }
  let buffer ← buffer.sfrom 1
  let b := { b with DestQP := (← buffer.idx 0).toUInt32 <<< 16 }
  let b := { b with DestQP := b.DestQP ||| ((← buffer.idx 1).toUInt32 <<< 8) }
  let b := { b with DestQP := b.DestQP ||| (← buffer.idx 2).toUInt32 }
  let buffer ← buffer.sfrom 3
  let b := { b with A := decide ((← buffer.idx 0) &&& 0b10000000 > 0) }
  let b := { b with res2 := (← buffer.idx 0) &&& 0b01111111 }
  let buffer ← buffer.sfrom 1
  let b := { b with PSN := (← buffer.idx 0).toUInt32 <<< 16 }
  let b := { b with PSN := b.PSN ||| ((← buffer.idx 1).toUInt32 <<< 8) }
  let b := { b with PSN := b.PSN ||| (← buffer.idx 2).toUInt32 }
  pure b

/-- pkg/roce/bth.go:253-259 `BTH.String` -/
def BTH.string (b : BTH) : Go Bytes := do
  let opcode ← opcodeStr b.Opcode
  pure (sprintf (go! "BTH: OpCode: %s, SE: %t, M: %t, Pad: %d, TVer: %d, PKey: %d, FECN: %t, BECN: %t, DestQP: %d, A: %t, PSN: %d\n")
    [.str opcode, .bool b.SE, .bool b.M, .num b.Pad.toNat, .num b.TVer.toNat, .num b.PKey.toNat, .bool b.FECN,
     .bool b.BECN, .num b.DestQP.toNat, .bool b.A, .num b.PSN.toNat])

/-- pkg/roce/bth.go:261-268 `BTH.Reserved` -/
def BTH.reserved (b : BTH) : Go Bytes := do
  let opcode ← opcodeStr b.Opcode
  pure (sprintf (go! "BTH: OpCode: %s, SE: %t, M: %t, Pad: %d, TVer: %d, PKey: %d, FECN: %t, BECN: %t, Res: %#x, DestQP: %d, A: %t, Res: %#x, PSN: %d\n")
    [.str opcode, .bool b.SE, .bool b.M, .num b.Pad.toNat, .num b.TVer.toNat, .num b.PKey.toNat, .bool b.FECN,
     .bool b.BECN, .num b.res1.toNat, .num b.DestQP.toNat, .bool b.A, .num b.res2.toNat, .num b.PSN.toNat])

/-- pkg/roce/bth.go:270-273 `BTH.Hex` -/
def BTH.hex (b : BTH) : Bytes := hexDump b.Raw

/-- pkg/roce/bth.go:275-278 `BTH.GetType` -/
def BTH.getType (_ : BTH) : Nat := typeBTH

/-- pkg/roce/bth.go:280-285 `ParseBTH` -/
def parseBTH (buffer : Slice) : Go BTH := BTH.parse {} buffer

/-! ## GRH -/

/-- pkg/roce/grh.go:13 `typeGRH` -/
def typeGRH : Nat := 0x102
/-- pkg/roce/grh.go:16 `GRHLen` -/
def GRHLen : Nat := 40

/-- pkg/roce/grh.go:19-20 `GRH`: the fields of `layers.IPv6` that are used -/
structure GRH where
  Version : UInt8 := 0
  TrafficClass : UInt8 := 0
  FlowLabel : UInt32 := 0
  Length : UInt16 := 0
  NextHeader : UInt8 := 0
  HopLimit : UInt8 := 0
  SrcIP : Bytes := []
  DstIP : Bytes := []
  Contents : Bytes := []
deriving DecidableEq, Repr

/-- `layers.IPv6.DecodeFromBytes` of gopacket, called by pkg/roce/grh.go:25: the fixed header
of RFC 8200, section 3. Shorter data leaves the zero value, longer data is payload. NewPacket
copies the data first (`gopacket.Default`). -/
def decodeIPv6 (data : Bytes) : GRH :=
  match data with
  | b0 :: b1 :: b2 :: b3 :: b4 :: b5 :: b6 :: b7 :: r =>
    if data.length < 40 then {}
    else {
      Version := b0 >>> 4
      TrafficClass := (b0 <<< 4) ||| (b1 >>> 4)
      FlowLabel := ((b1 &&& 0x0f).toUInt32 <<< 16) ||| (b2.toUInt32 <<< 8) ||| b3.toUInt32
      Length := b5.toUInt16 ||| (b4.toUInt16 <<< 8)
      NextHeader := b6
      HopLimit := b7
      SrcIP := r.take 16
      DstIP := (r.drop 16).take 16
      Contents := data.take 40 }
  | _ => {}

/-- The layer that pkg/roce/grh.go:25-27 gets from gopacket. It is there also if the header is too short or
wrong. The options in a Hop-by-Hop header behind the IPv6 header are decoded together with it. gopacket
recovers from panics of this decoder, and then there is no layer; `panics` tells for which options this
happens, which depends on the version of gopacket. -/
def ipv6Layer (panics : Bytes → Bool) (data : Bytes) : Option GRH :=
  if (decodeIPv6 data).NextHeader = 0 ∧ 40 < data.length ∧ panics (data.drop 40) = true then none else some (decodeIPv6 data)

/-- pkg/roce/grh.go:22-33 `GRH.Parse` -/
def GRH.parse (panics : Bytes → Bool) (g : GRH) (buffer : Slice) : Go GRH :=
  match ipv6Layer panics buffer.vis with
  | some ipv6 => pure ipv6
  | none => pure g

/-- pkg/roce/grh.go:66-71 `ParseGRH` with pkg/roce/grh.go:22-33 `GRH.Parse` on the zero value.
Simplification: gopacket does not panic on Hop-by-Hop options, see `ipv6Layer` and C110. -/
def parseGRH (buffer : Slice) : Go GRH := pure (decodeIPv6 buffer.vis)

/-- pkg/roce/grh.go:35-48 `GRH.String`; `protoName` is `layers.IPProtocol.String` -/
def GRH.string (protoName : UInt8 → Bytes) (g : GRH) : Bytes :=
  let nextHeader := if g.NextHeader ≠ BTHNextHeader then protoName g.NextHeader else go! "BTH"
  sprintf (go! "GRH: Version: %d, Traffic Class: %d, Flow Label: %d, Length: %d, Next Header: %s, Hop Limit: %d, Source: %s, Destination: %s\n")
    [.num g.Version.toNat, .num g.TrafficClass.toNat, .num g.FlowLabel.toNat, .num g.Length.toNat,
     .str nextHeader, .num g.HopLimit.toNat, .str (ipStr g.SrcIP), .str (ipStr g.DstIP)]

/-- pkg/roce/grh.go:50-54 `GRH.Reserved` -/
def GRH.reserved (protoName : UInt8 → Bytes) (g : GRH) : Bytes := g.string protoName

/-- pkg/roce/grh.go:56-59 `GRH.Hex` -/
def GRH.hex (g : GRH) : Bytes := hexDump g.Contents

/-- pkg/roce/grh.go:61-64 `GRH.GetType` -/
def GRH.getType (_ : GRH) : Nat := typeGRH

/-! ## RoCE -/

/-- pkg/roce/roce.go:13-20 `RoCE`; a nil GRH is `none`. The slice ICRC shares memory with the
packet, see `Verif/Heap.lean`. -/
structure RoCE where
  Typ : Bytes
  GRH : Option GRH
  BTH : BTH
  LLC : LLC.Msg
  ICRC : Slice
deriving DecidableEq, Repr

/-- `buffer[len(buffer)-4:]` of pkg/roce/roce.go:38,59; a negative bound panics -/
def icrc (buffer : Slice) : Go Slice :=
  if buffer.len < 4 then .panic [] else buffer.sfrom (buffer.len - 4)

/-- `buffer[:len(buffer)-4]` of pkg/roce/roce.go:39,60; a negative bound panics -/
def payload (buffer : Slice) : Go Slice :=
  if buffer.len < 4 then .panic [] else buffer.sto (buffer.len - 4)

/-- pkg/roce/roce.go:22-45 `ParseRoCEv1` -/
def parseRoCEv1 (buffer : Slice) : Go RoCE := do
  let grh ← parseGRH (← buffer.sto GRHLen)
  let buffer ← buffer.sfrom GRHLen
  let bth ← parseBTH (← buffer.sto BTHLen)
  let buffer ← buffer.sfrom BTHLen
  let crc ← icrc buffer
  let buffer ← payload buffer
  let llc ← LLC.parseLLC buffer
  pure { Typ := go! "RoCEv1", GRH := some grh, BTH := bth, LLC := llc, ICRC := crc }

/-- pkg/roce/roce.go:47-66 `ParseRoCEv2` -/
def parseRoCEv2 (buffer : Slice) : Go RoCE := do
  let bth ← parseBTH (← buffer.sto BTHLen)
  let buffer ← buffer.sfrom BTHLen
  let crc ← icrc buffer
  let buffer ← payload buffer
  let llc ← LLC.parseLLC buffer
  pure { Typ := go! "RoCEv2", GRH := none, BTH := bth, LLC := llc, ICRC := crc }

end SMC.RoCE
