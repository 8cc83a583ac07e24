import Verif.Spec.LLC
import Verif.Spec.LLCText
/-!
# LLC and CDC messages as bit strings

What an encoder would write: the fields in wire order (RFC 7609, appendix A.3 and A.4),
reserved ones included.
-/

namespace SMC.Spec

open LLC

def bitsBase (b : BaseMsg) : List Bool := natBits 8 b.Typ ++ natBits 8 b.Length

def bitsConfirmLink (m : ConfirmLink) : List Bool :=
  bitsBase m.base ++ natBits 8 m.res1.toNat ++ [m.Reply] ++ natBits 7 m.res2.toNat ++ toBits m.SenderMAC
    ++ toBits m.SenderGID ++ natBits 24 m.SenderQP.toNat ++ natBits 8 m.Link.toNat
    ++ natBits 32 m.SenderLinkUserID.toNat ++ natBits 8 m.MaxLinks.toNat ++ toBits m.res3

/-- Only eight of the ten bytes of `res4` are part of the message. -/
def bitsAddLink (m : AddLink) : List Bool :=
  bitsBase m.base ++ natBits 4 m.res1.toNat ++ natBits 4 m.RsnCode.toNat ++ [m.Reply] ++ [m.Reject]
    ++ natBits 6 m.res2.toNat ++ toBits m.SenderMAC ++ toBits m.res5 ++ toBits m.SenderGID
    ++ natBits 24 m.SenderQP.toNat ++ natBits 8 m.Link.toNat ++ natBits 4 m.res3.toNat ++ natBits 4 m.MTU.toNat
    ++ natBits 24 m.PSN.toNat ++ toBits (m.res4.take 8)

def bitsRKeyPair (r : RKeyPair) : List Bool :=
  natBits 32 r.ReferenceRKey.toNat ++ natBits 32 r.NewRKey.toNat ++ natBits 64 r.NewVAddr.toNat

def bitsAddLinkCont (m : AddLinkCont) : List Bool :=
  bitsBase m.base ++ natBits 8 m.res1.toNat ++ [m.Reply] ++ natBits 7 m.res2.toNat ++ natBits 8 m.Link.toNat
    ++ natBits 8 m.NumRTokens.toNat ++ toBits m.res3 ++ m.RKeyPairs.flatMap bitsRKeyPair ++ toBits m.res4

def bitsDeleteLink (m : DeleteLink) : List Bool :=
  bitsBase m.base ++ natBits 8 m.res1.toNat ++ [m.Reply] ++ [m.All] ++ [m.Orderly] ++ natBits 5 m.res2.toNat
    ++ natBits 8 m.Link.toNat ++ natBits 32 m.RsnCode.toNat ++ toBits m.res3

def bitsRMBSpec (r : RMBSpec) : List Bool :=
  natBits 8 r.Link.toNat ++ natBits 32 r.RKey.toNat ++ natBits 64 r.VAddr.toNat

def bitsConfirmRKey (m : ConfirmRKey) : List Bool :=
  bitsBase m.base ++ natBits 8 m.res1.toNat ++ [m.Reply] ++ natBits 1 m.res2.toNat ++ [m.Reject] ++ [m.Retry]
    ++ natBits 4 m.res3.toNat ++ natBits 8 m.NumTkns.toNat ++ natBits 32 m.RKey.toNat ++ natBits 64 m.VAddr.toNat
    ++ m.OtherRMBs.flatMap bitsRMBSpec ++ natBits 8 m.res4.toNat

/-- 44 bytes; `res4` is not part of the message. -/
def bitsConfirmRKeyCont (m : ConfirmRKeyCont) : List Bool :=
  bitsBase m.base ++ natBits 8 m.res1.toNat ++ [m.Reply] ++ natBits 1 m.res2.toNat ++ [m.Reject]
    ++ natBits 5 m.res3.toNat ++ natBits 8 m.NumTkns.toNat ++ m.OtherRMBs.flatMap bitsRMBSpec

def bitsDeleteRKey (m : DeleteRKey) : List Bool :=
  bitsBase m.base ++ natBits 8 m.res1.toNat ++ [m.reply] ++ natBits 1 m.res2.toNat ++ [m.reject]
    ++ natBits 5 m.res3.toNat ++ natBits 8 m.count.toNat ++ natBits 8 m.errorMask.toNat ++ toBits m.res4
    ++ m.rkeys.flatMap (fun k => natBits 32 k.toNat) ++ toBits m.res5

def bitsTestLink (m : TestLink) : List Bool :=
  bitsBase m.base ++ natBits 8 m.res1.toNat ++ [m.Reply] ++ natBits 7 m.res2.toNat ++ toBits m.UserData ++ toBits m.res3

/-- The first element of `res4` stands for five bits. -/
def bitsCDC (m : CDC) : List Bool :=
  bitsBase m.base ++ natBits 16 m.SeqNum.toNat ++ natBits 32 m.AlertTkn.toNat ++ toBits m.res1
    ++ natBits 16 m.ProdWrap.toNat ++ natBits 32 m.ProdCurs.toNat ++ toBits m.res2 ++ natBits 16 m.ConsWrap.toNat
    ++ natBits 32 m.ConsCurs.toNat ++ [m.B] ++ [m.P] ++ [m.U] ++ [m.R] ++ [m.F] ++ natBits 3 m.res3.toNat
    ++ [m.D] ++ [m.C] ++ [m.A] ++ natBits 5 (m.res4.headD 0).toNat ++ toBits (m.res4.drop 1)

/-- The message as it is on the wire. -/
def bitsMsg : Msg → List Bool
  | .other m => toBits m.base.Raw
  | .confirmLink m => bitsConfirmLink m
  | .addLink m => bitsAddLink m
  | .addLinkCont m => bitsAddLinkCont m
  | .deleteLink m => bitsDeleteLink m
  | .confirmRKey m => bitsConfirmRKey m
  | .confirmRKeyCont m => bitsConfirmRKeyCont m
  | .deleteRKey m => bitsDeleteRKey m
  | .testLink m => bitsTestLink m
  | .cdc m => bitsCDC m

/-- Field values that fit into their bits: arrays have the sizes of their Go types, addresses
6 and 16 bytes, numbers the bits of their fields. -/
def Fits : Msg → Prop
  | .other m => m.base.Typ = 0x101 ∧ m.base.Length = m.base.Raw.length
  | .confirmLink m => m.base.Length < 2 ^ 8 ∧ m.res2.toNat < 2 ^ 7 ∧ m.SenderMAC.length = 6 ∧
      m.SenderGID.length = 16 ∧ m.SenderQP.toNat < 2 ^ 24 ∧ m.res3.length = 9
  | .addLink m => m.base.Length < 2 ^ 8 ∧ m.res1.toNat < 2 ^ 4 ∧ m.RsnCode.toNat < 2 ^ 4 ∧ m.res2.toNat < 2 ^ 6 ∧
      m.SenderMAC.length = 6 ∧ m.res5.length = 2 ∧ m.SenderGID.length = 16 ∧ m.SenderQP.toNat < 2 ^ 24 ∧
      m.res3.toNat < 2 ^ 4 ∧ m.MTU.toNat < 2 ^ 4 ∧ m.PSN.toNat < 2 ^ 24 ∧ m.res4.length = 10 ∧
      m.res4.drop 8 = [0, 0]
  | .addLinkCont m => m.base.Length < 2 ^ 8 ∧ m.res2.toNat < 2 ^ 7 ∧ m.res3.length = 2 ∧ m.RKeyPairs.length = 2 ∧
      m.res4.length = 4
  | .deleteLink m => m.base.Length < 2 ^ 8 ∧ m.res2.toNat < 2 ^ 5 ∧ m.res3.length = 35
  | .confirmRKey m => m.base.Length < 2 ^ 8 ∧ m.res2.toNat < 2 ^ 1 ∧ m.res3.toNat < 2 ^ 4 ∧ m.OtherRMBs.length = 2
  | .confirmRKeyCont m => m.base.Length < 2 ^ 8 ∧ m.res2.toNat < 2 ^ 1 ∧ m.res3.toNat < 2 ^ 5 ∧
      m.OtherRMBs.length = 3
  | .deleteRKey m => m.base.Length < 2 ^ 8 ∧ m.res2.toNat < 2 ^ 1 ∧ m.res3.toNat < 2 ^ 5 ∧ m.res4.length = 2 ∧
      m.rkeys.length = 8 ∧ m.res5.length = 4
  | .testLink m => m.base.Length < 2 ^ 8 ∧ m.res2.toNat < 2 ^ 7 ∧ m.UserData.length = 16 ∧ m.res3.length = 24
  | .cdc m => m.base.Length < 2 ^ 8 ∧ m.res1.length = 2 ∧ m.res2.length = 2 ∧ m.res3.toNat < 2 ^ 3 ∧
      m.res4.length = 19 ∧ (m.res4.headD 0).toNat < 2 ^ 5

end SMC.Spec
