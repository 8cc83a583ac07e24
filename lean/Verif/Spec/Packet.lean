import Verif.Spec.RoCE
import Verif.Spec.LLCBits
/-!
# RoCE packets as bytes

What an encoder would write: GRH, BTH, payload and ICRC, one after the other.
-/

namespace SMC.Spec

open RoCE

/-- The bits of a GRH in wire order: the IPv6 header of RFC 8200, section 3. -/
def bitsGRH (g : GRH) : List Bool :=
  natBits 4 g.Version.toNat ++ natBits 8 g.TrafficClass.toNat ++ natBits 20 g.FlowLabel.toNat ++
    natBits 16 g.Length.toNat ++ natBits 8 g.NextHeader.toNat ++ natBits 8 g.HopLimit.toNat ++
    toBits g.SrcIP ++ toBits g.DstIP

/-- Field values that fit into their bits. -/
structure FitsGRH (g : GRH) : Prop where
  version : g.Version.toNat < 2 ^ 4
  flowLabel : g.FlowLabel.toNat < 2 ^ 20
  src : g.SrcIP.length = 16
  dst : g.DstIP.length = 16

/-- The bytes of a packet. -/
def bytesRoCE (r : RoCE) : Bytes :=
  (match r.GRH with
   | none => []
   | some g => pack (bitsGRH g)) ++ pack (bitsBTH r.BTH) ++ pack (bitsMsg r.LLC) ++ r.ICRC.vis

end SMC.Spec
