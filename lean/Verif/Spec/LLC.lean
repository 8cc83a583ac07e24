import Verif.LLC
import Verif.Spec.Wire
/-!
# Wire formats of LLC and CDC messages

Field positions from RFC 7609 (appendix A.3, "Link Layer Control Messages", and A.4,
"Connection Data Control"), byte and bit numbers counted from the start of the message; for
Add Link the position used by Linux, which has two more reserved bytes after the MAC.
`num bs k i w` is the number in `w` bits from bit `i` of byte `k`, `flag bs k i` one bit,
`raw bs k n` are `n` bytes from byte `k`. Only the record types of the model are used here,
not its parsers.
-/

namespace SMC.Spec

open LLC

/-! ## Sizes of arrays

Fixed by the Go types; in the model arrays are lists, so the sizes are stated here. -/

abbrev SizedConfirmLink (c : ConfirmLink) : Prop := c.res3.length = 9
abbrev SizedAddLink (a : AddLink) : Prop := a.res5.length = 2 ∧ a.res4.length = 10
abbrev SizedAddLinkCont (a : AddLinkCont) : Prop :=
  a.res3.length = 2 ∧ a.RKeyPairs.length = 2 ∧ a.res4.length = 4
abbrev SizedDeleteLink (d : DeleteLink) : Prop := d.res3.length = 35
abbrev SizedConfirmRKey (c : ConfirmRKey) : Prop := c.OtherRMBs.length = 2
abbrev SizedConfirmRKeyCont (c : ConfirmRKeyCont) : Prop := c.OtherRMBs.length = 3
abbrev SizedDeleteRKey (d : DeleteRKey) : Prop := d.res4.length = 2 ∧ d.rkeys.length = 8 ∧ d.res5.length = 4
abbrev SizedTestLink (t : TestLink) : Prop := t.UserData.length = 16 ∧ t.res3.length = 24
abbrev SizedCDC (c : CDC) : Prop := c.res1.length = 2 ∧ c.res2.length = 2 ∧ c.res4.length = 19

/-- sizes of a message of any kind -/
def SizedMsg : Msg → Prop
  | .other _ => True
  | .confirmLink m => SizedConfirmLink m
  | .addLink m => SizedAddLink m
  | .addLinkCont m => SizedAddLinkCont m
  | .deleteLink m => SizedDeleteLink m
  | .confirmRKey m => SizedConfirmRKey m
  | .confirmRKeyCont m => SizedConfirmRKeyCont m
  | .deleteRKey m => SizedDeleteRKey m
  | .testLink m => SizedTestLink m
  | .cdc m => SizedCDC m

/-! ## Field positions -/

/-- The first two bytes. -/
structure WireBase (bs : Bytes) (b : BaseMsg) : Prop where
  raw : b.Raw = bs
  typ : b.Typ = num bs 0 0 8
  length : b.Length = num bs 1 0 8

structure WireConfirmLink (bs : Bytes) (m : ConfirmLink) : Prop where
  base : WireBase bs m.base
  res1 : m.res1.toNat = num bs 2 0 8
  reply : m.Reply = flag bs 3 0
  res2 : m.res2.toNat = num bs 3 1 7
  mac : m.SenderMAC = raw bs 4 6
  gid : m.SenderGID = raw bs 10 16
  qp : m.SenderQP.toNat = num bs 26 0 24
  link : m.Link.toNat = num bs 29 0 8
  userID : m.SenderLinkUserID.toNat = num bs 30 0 32
  maxLinks : m.MaxLinks.toNat = num bs 34 0 8
  res3 : m.res3 = raw bs 35 9

/-- `tail` are the two bytes of `res4` beyond the end of the message. -/
structure WireAddLink (bs tail : Bytes) (m : AddLink) : Prop where
  base : WireBase bs m.base
  res1 : m.res1.toNat = num bs 2 0 4
  rsnCode : m.RsnCode.toNat = num bs 2 4 4
  reply : m.Reply = flag bs 3 0
  reject : m.Reject = flag bs 3 1
  res2 : m.res2.toNat = num bs 3 2 6
  mac : m.SenderMAC = raw bs 4 6
  res5 : m.res5 = raw bs 10 2
  gid : m.SenderGID = raw bs 12 16
  qp : m.SenderQP.toNat = num bs 28 0 24
  link : m.Link.toNat = num bs 31 0 8
  res3 : m.res3.toNat = num bs 32 0 4
  mtu : m.MTU.toNat = num bs 32 4 4
  psn : m.PSN.toNat = num bs 33 0 24
  res4 : m.res4 = raw bs 36 8 ++ tail

/-- An RKey/RToken pair at byte `k`. -/
structure WireRKeyPair (bs : Bytes) (k : Nat) (r : RKeyPair) : Prop where
  ref : r.ReferenceRKey.toNat = num bs k 0 32
  key : r.NewRKey.toNat = num bs (k + 4) 0 32
  addr : r.NewVAddr.toNat = num bs (k + 8) 0 64

structure WireAddLinkCont (bs : Bytes) (m : AddLinkCont) : Prop where
  base : WireBase bs m.base
  res1 : m.res1.toNat = num bs 2 0 8
  reply : m.Reply = flag bs 3 0
  res2 : m.res2.toNat = num bs 3 1 7
  link : m.Link.toNat = num bs 4 0 8
  numRTokens : m.NumRTokens.toNat = num bs 5 0 8
  res3 : m.res3 = raw bs 6 2
  pairs : ∃ r₁ r₂, m.RKeyPairs = [r₁, r₂] ∧ WireRKeyPair bs 8 r₁ ∧ WireRKeyPair bs 24 r₂
  res4 : m.res4 = raw bs 40 4

structure WireDeleteLink (bs : Bytes) (m : DeleteLink) : Prop where
  base : WireBase bs m.base
  res1 : m.res1.toNat = num bs 2 0 8
  reply : m.Reply = flag bs 3 0
  all : m.All = flag bs 3 1
  orderly : m.Orderly = flag bs 3 2
  res2 : m.res2.toNat = num bs 3 3 5
  link : m.Link.toNat = num bs 4 0 8
  rsnCode : m.RsnCode.toNat = num bs 5 0 32
  res3 : m.res3 = raw bs 9 35

/-- An RMB specification at byte `k`. -/
structure WireRMBSpec (bs : Bytes) (k : Nat) (r : RMBSpec) : Prop where
  link : r.Link.toNat = num bs k 0 8
  key : r.RKey.toNat = num bs (k + 1) 0 32
  addr : r.VAddr.toNat = num bs (k + 5) 0 64

structure WireConfirmRKey (bs : Bytes) (m : ConfirmRKey) : Prop where
  base : WireBase bs m.base
  res1 : m.res1.toNat = num bs 2 0 8
  reply : m.Reply = flag bs 3 0
  res2 : m.res2.toNat = num bs 3 1 1
  reject : m.Reject = flag bs 3 2
  retry : m.Retry = flag bs 3 3
  res3 : m.res3.toNat = num bs 3 4 4
  numTkns : m.NumTkns.toNat = num bs 4 0 8
  rkey : m.RKey.toNat = num bs 5 0 32
  vaddr : m.VAddr.toNat = num bs 9 0 64
  rmbs : ∃ r₁ r₂, m.OtherRMBs = [r₁, r₂] ∧ WireRMBSpec bs 17 r₁ ∧ WireRMBSpec bs 30 r₂
  res4 : m.res4.toNat = num bs 43 0 8

/-- The 44 bytes of the RFC end with the third RMB; `res4` has no position there. -/
structure WireConfirmRKeyCont (bs : Bytes) (m : ConfirmRKeyCont) : Prop where
  base : WireBase bs m.base
  res1 : m.res1.toNat = num bs 2 0 8
  reply : m.Reply = flag bs 3 0
  res2 : m.res2.toNat = num bs 3 1 1
  reject : m.Reject = flag bs 3 2
  res3 : m.res3.toNat = num bs 3 3 5
  numTkns : m.NumTkns.toNat = num bs 4 0 8
  rmbs : ∃ r₁ r₂ r₃, m.OtherRMBs = [r₁, r₂, r₃] ∧ WireRMBSpec bs 5 r₁ ∧ WireRMBSpec bs 18 r₂ ∧
    WireRMBSpec bs 31 r₃

structure WireDeleteRKey (bs : Bytes) (m : DeleteRKey) : Prop where
  base : WireBase bs m.base
  res1 : m.res1.toNat = num bs 2 0 8
  reply : m.reply = flag bs 3 0
  res2 : m.res2.toNat = num bs 3 1 1
  reject : m.reject = flag bs 3 2
  res3 : m.res3.toNat = num bs 3 3 5
  count : m.count.toNat = num bs 4 0 8
  errorMask : m.errorMask.toNat = num bs 5 0 8
  res4 : m.res4 = raw bs 6 2
  rkeysLen : m.rkeys.length = 8
  rkeys : ∀ i, i < 8 → (m.rkeys.map UInt32.toNat)[i]? = some (num bs (8 + 4 * i) 0 32)
  res5 : m.res5 = raw bs 40 4

structure WireTestLink (bs : Bytes) (m : TestLink) : Prop where
  base : WireBase bs m.base
  res1 : m.res1.toNat = num bs 2 0 8
  reply : m.Reply = flag bs 3 0
  res2 : m.res2.toNat = num bs 3 1 7
  userData : m.UserData = raw bs 4 16
  res3 : m.res3 = raw bs 20 24

/-- `res4` has one element for the five low bits of byte 25 and 18 for the rest. -/
structure WireCDC (bs : Bytes) (m : CDC) : Prop where
  base : WireBase bs m.base
  seqNum : m.SeqNum.toNat = num bs 2 0 16
  alertTkn : m.AlertTkn.toNat = num bs 4 0 32
  res1 : m.res1 = raw bs 8 2
  prodWrap : m.ProdWrap.toNat = num bs 10 0 16
  prodCurs : m.ProdCurs.toNat = num bs 12 0 32
  res2 : m.res2 = raw bs 16 2
  consWrap : m.ConsWrap.toNat = num bs 18 0 16
  consCurs : m.ConsCurs.toNat = num bs 20 0 32
  b : m.B = flag bs 24 0
  p : m.P = flag bs 24 1
  u : m.U = flag bs 24 2
  r : m.R = flag bs 24 3
  f : m.F = flag bs 24 4
  res3 : m.res3.toNat = num bs 24 5 3
  d : m.D = flag bs 25 0
  c : m.C = flag bs 25 1
  a : m.A = flag bs 25 2
  res4 : ∃ x, x.toNat = num bs 25 3 5 ∧ m.res4 = x :: raw bs 26 18

/-! ## Message kinds -/

/-- The kinds of LLC messages. -/
inductive Kind where
  | other | confirmLink | addLink | addLinkCont | deleteLink | confirmRKey | confirmRKeyCont
  | deleteRKey | testLink | cdc
deriving DecidableEq, Repr

/-- The Go type of a message. -/
def kindOf : Msg → Kind
  | .other _ => .other
  | .confirmLink _ => .confirmLink
  | .addLink _ => .addLink
  | .addLinkCont _ => .addLinkCont
  | .deleteLink _ => .deleteLink
  | .confirmRKey _ => .confirmRKey
  | .confirmRKeyCont _ => .confirmRKeyCont
  | .deleteRKey _ => .deleteRKey
  | .testLink _ => .testLink
  | .cdc _ => .cdc

/-- The zero value of each message type (`var m T`). -/
def fresh : Kind → Msg
  | .other => .other {}
  | .confirmLink => .confirmLink {}
  | .addLink => .addLink {}
  | .addLinkCont => .addLinkCont {}
  | .deleteLink => .deleteLink {}
  | .confirmRKey => .confirmRKey {}
  | .confirmRKeyCont => .confirmRKeyCont {}
  | .deleteRKey => .deleteRKey {}
  | .testLink => .testLink {}
  | .cdc => .cdc {}

/-- Message type codes (RFC 7609, A.3; CDC 0xFE). -/
def codes : List (Nat × Kind) :=
  [(1, .confirmLink), (2, .addLink), (3, .addLinkCont), (4, .deleteLink), (6, .confirmRKey),
   (7, .testLink), (8, .confirmRKeyCont), (9, .deleteRKey), (0xFE, .cdc)]

/-- The kind of message a buffer holds: 44 bytes starting with a type code, or other. -/
def expectedKind (bs : Bytes) : Kind :=
  if bs.length = 44 then ((bs.head?.bind fun b => codes.lookup b.toNat)).getD .other else .other

/-- All fields of a message parsed from `bs` into a fresh value. -/
def WireMsg (bs : Bytes) : Msg → Prop
  | .other m => m.base.Raw = bs ∧ m.base.Typ = 0x101 ∧ m.base.Length = bs.length
  | .confirmLink m => WireConfirmLink bs m
  | .addLink m => WireAddLink bs [0, 0] m
  | .addLinkCont m => WireAddLinkCont bs m
  | .deleteLink m => WireDeleteLink bs m
  | .confirmRKey m => WireConfirmRKey bs m
  | .confirmRKeyCont m => WireConfirmRKeyCont bs m
  | .deleteRKey m => WireDeleteRKey bs m
  | .testLink m => WireTestLink bs m
  | .cdc m => WireCDC bs m

end SMC.Spec
