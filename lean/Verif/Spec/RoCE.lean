import Verif.RoCE
import Verif.Spec.Wire
/-!
# Wire formats of RoCE headers

BTH: InfiniBand Architecture Specification, section 9.2; GRH: IPv6 header of RFC 8200,
section 3. Only the record types of the model are used here, not its parsers.
-/

namespace SMC.Spec

open RoCE

structure WireBTH (bs : Bytes) (b : BTH) : Prop where
  raw : b.Raw = bs
  opcode : b.Opcode.toNat = num bs 0 0 8
  se : b.SE = flag bs 1 0
  m : b.M = flag bs 1 1
  pad : b.Pad.toNat = num bs 1 2 2
  tver : b.TVer.toNat = num bs 1 4 4
  pkey : b.PKey.toNat = num bs 2 0 16
  fecn : b.FECN = flag bs 4 0
  becn : b.BECN = flag bs 4 1
  res1 : b.res1.toNat = num bs 4 2 6
  destQP : b.DestQP.toNat = num bs 5 0 24
  a : b.A = flag bs 8 0
  res2 : b.res2.toNat = num bs 8 1 7
  psn : b.PSN.toNat = num bs 9 0 24

/-- The bits of a BTH in wire order. -/
def bitsBTH (b : BTH) : List Bool :=
  natBits 8 b.Opcode.toNat ++ [b.SE] ++ [b.M] ++ natBits 2 b.Pad.toNat ++ natBits 4 b.TVer.toNat
    ++ natBits 16 b.PKey.toNat ++ [b.FECN] ++ [b.BECN] ++ natBits 6 b.res1.toNat ++ natBits 24 b.DestQP.toNat
    ++ [b.A] ++ natBits 7 b.res2.toNat ++ natBits 24 b.PSN.toNat

/-- Field values that fit into their bits. -/
structure FitsBTH (b : BTH) : Prop where
  pad : b.Pad.toNat < 2 ^ 2
  tver : b.TVer.toNat < 2 ^ 4
  res1 : b.res1.toNat < 2 ^ 6
  destQP : b.DestQP.toNat < 2 ^ 24
  res2 : b.res2.toNat < 2 ^ 7
  psn : b.PSN.toNat < 2 ^ 24

structure WireGRH (bs : Bytes) (g : GRH) : Prop where
  version : g.Version.toNat = num bs 0 0 4
  trafficClass : g.TrafficClass.toNat = num bs 0 4 8
  flowLabel : g.FlowLabel.toNat = num bs 1 4 20
  length : g.Length.toNat = num bs 4 0 16
  nextHeader : g.NextHeader.toNat = num bs 6 0 8
  hopLimit : g.HopLimit.toNat = num bs 7 0 8
  src : g.SrcIP = raw bs 8 16
  dst : g.DstIP = raw bs 24 16
  contents : g.Contents = raw bs 0 40

/-- The text of a GRH whose next header is shown as `next`. -/
def grhText (next : Bytes) (g : GRH) : Bytes :=
  go! "GRH: Version: " ++ dec g.Version.toNat ++ go! ", Traffic Class: " ++ dec g.TrafficClass.toNat
    ++ go! ", Flow Label: " ++ dec g.FlowLabel.toNat ++ go! ", Length: " ++ dec g.Length.toNat
    ++ go! ", Next Header: " ++ next ++ go! ", Hop Limit: " ++ dec g.HopLimit.toNat
    ++ go! ", Source: " ++ ipStr g.SrcIP ++ go! ", Destination: " ++ ipStr g.DstIP ++ go! "\n"

/-! ## Opcodes

InfiniBand Architecture Specification, table "OpCode field", read by columns: for every
operation code the transport services that have it. -/

/-- Transport services: the upper three bits. -/
def services : List (Nat × Bytes) :=
  [(0, go! "RC"), (1, go! "UC"), (2, go! "RD"), (3, go! "UD"), (4, go! "CNP"), (5, go! "XRC")]

/-- Operations: the lower five bits, the name, the services that know the operation. -/
def operations : List (Nat × Bytes × List Bytes) :=
  let rd_uc := [go! "RC", go! "UC", go! "RD", go! "XRC"]
  let all := [go! "RC", go! "UC", go! "RD", go! "UD", go! "XRC"]
  let rel := [go! "RC", go! "RD", go! "XRC"]
  [(0, go! "SEND First", rd_uc), (1, go! "SEND Middle", rd_uc), (2, go! "SEND Last", rd_uc),
   (3, go! "SEND Last with Immediate", rd_uc), (4, go! "SEND Only", all),
   (5, go! "SEND Only with Immediate", all), (6, go! "RDMA WRITE First", rd_uc),
   (7, go! "RDMA WRITE Middle", rd_uc), (8, go! "RDMA WRITE Last", rd_uc),
   (9, go! "RDMA WRITE Last with Immediate", rd_uc), (10, go! "RDMA WRITE Only", rd_uc),
   (11, go! "RDMA WRITE Only with Immediate", rd_uc), (12, go! "RDMA READ Request", rel),
   (13, go! "RDMA READ response First", rel), (14, go! "RDMA READ response Middle", rel),
   (15, go! "RDMA READ response Last", rel), (16, go! "RDMA READ response Only", rel),
   (17, go! "Acknowledge", rel), (18, go! "ATOMIC Acknowledge", rel), (19, go! "CmpSwap", rel),
   (20, go! "FetchAdd", rel), (21, go! "RESYNC", [go! "RD"]),
   (22, go! "SEND Last with Invalidate", [go! "RC", go! "XRC"]),
   (23, go! "SEND Only with Invalidate", [go! "RC", go! "XRC"]), (0, go! "CNP", [go! "CNP"])]

/-- The name of an opcode. -/
def opcodeName (o : UInt8) : Bytes :=
  match services.lookup (num [o] 0 0 3) with
  | none => go! "Manufacturer Specific"
  | some service =>
    let op := operations.find? fun (code, _, known) => code == num [o] 0 3 5 && known.contains service
    service ++ go! " " ++ (op.map (·.2.1)).getD (go! "Reserved")

/-- A number in base two, without leading zeros. -/
def binaryText (o : UInt8) : Bytes :=
  let digits := (byteBits o).map fun b => if b then 49 else (48 : UInt8)
  if o = 0 then go! "0" else digits.dropWhile (· == 48)

#guard opcodeName 0b10000000 = go! "CNP CNP" && opcodeName 0b01110100 = go! "UD Reserved"
#guard opcodeName 0b11000000 = go! "Manufacturer Specific" && opcodeName 0b01010101 = go! "RD RESYNC"

end SMC.Spec
