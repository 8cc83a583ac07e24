import Verif.Crash.Basic
/-!
# What a panic leaves behind: pkg/llc and pkg/roce
-/

namespace SMC.LLC
open SGo

/-- pkg/llc/base.go:18-29 `SetBaseMsg` with pkg/llc/base.go:12-16 `setRaw` -/
def BaseMsg.setBaseMsgS (buffer : Slice) : SGo BaseMsg Unit := do
  assign fun b => b.setRaw buffer
  let x ← buffer.idx 0
  assign ({ · with Typ := x.toNat })
  let buffer ← buffer.sfrom 1
  let x ← buffer.idx 0
  assign ({ · with Length := x.toNat })

/-- pkg/llc/other.go:13-18 `Other.Parse` -/
def Other.parseS (buffer : Slice) : SGo Other Unit := do
  assign fun o => { o with base := o.base.setRaw buffer }
  assign fun o => { o with base := { o.base with Typ := TypeOther } }
  assign fun o => { o with base := { o.base with Length := buffer.len } }

/-- pkg/llc/llc_confirmlink.go:24-72 `ConfirmLink.Parse` -/
def ConfirmLink.parseS (buffer : Slice) : SGo ConfirmLink Unit := do
  within (·.base) (fun b m => { m with base := b }) (BaseMsg.setBaseMsgS buffer)
  let buffer ← buffer.sfrom 2
  let x ← buffer.idx 0
  assign ({ · with res1 := x })
  let buffer ← buffer.sfrom 1
  let x ← buffer.idx 0
  assign ({ · with Reply := decide (x &&& 0b10000000 > 0) })
  let x ← buffer.idx 0
  assign ({ · with res2 := x &&& 0b01111111 })
  let buffer ← buffer.sfrom 1
  assign ({ · with SenderMAC := zeros 6 })
  let b ← buffer.sub 0 6
  assign fun c => { c with SenderMAC := copyInto c.SenderMAC b.vis }
  let buffer ← buffer.sfrom 6
  assign ({ · with SenderGID := zeros 16 })
  let b ← buffer.sub 0 16
  assign fun c => { c with SenderGID := copyInto c.SenderGID b.vis }
  let buffer ← buffer.sfrom 16
  let x ← buffer.idx 0
  assign ({ · with SenderQP := x.toUInt32 <<< 16 })
  let x ← buffer.idx 1
  assign fun c => { c with SenderQP := c.SenderQP ||| (x.toUInt32 <<< 8) }
  let x ← buffer.idx 2
  assign fun c => { c with SenderQP := c.SenderQP ||| x.toUInt32 }
  let buffer ← buffer.sfrom 3
  let x ← buffer.idx 0
  assign ({ · with Link := x })
  let buffer ← buffer.sfrom 1
  let x ← be32 (← buffer.sub 0 4)
  assign ({ · with SenderLinkUserID := x })
  let buffer ← buffer.sfrom 4
  let x ← buffer.idx 0
  assign ({ · with MaxLinks := x })
  let buffer ← buffer.sfrom 1
  assign fun c => { c with res3 := copyInto c.res3 buffer.vis }

/-- pkg/llc/llc_addlink.go:72-135 `AddLink.Parse` -/
def AddLink.parseS (buffer : Slice) : SGo AddLink Unit := do
  within (·.base) (fun b m => { m with base := b }) (BaseMsg.setBaseMsgS buffer)
  let buffer ← buffer.sfrom 2
  let x ← buffer.idx 0
  assign ({ · with res1 := x >>> 4 })
  let x ← buffer.idx 0
  assign ({ · with RsnCode := x &&& 0b00001111 })
  let buffer ← buffer.sfrom 1
  let x ← buffer.idx 0
  assign ({ · with Reply := decide (x &&& 0b10000000 > 0) })
  let x ← buffer.idx 0
  assign ({ · with Reject := decide (x &&& 0b01000000 > 0) })
  let x ← buffer.idx 0
  assign ({ · with res2 := x &&& 0b00111111 })
  let buffer ← buffer.sfrom 1
  assign ({ · with SenderMAC := zeros 6 })
  let b ← buffer.sub 0 6
  assign fun a => { a with SenderMAC := copyInto a.SenderMAC b.vis }
  let buffer ← buffer.sfrom 6
  let x ← buffer.sub 0 2
  assign fun a => { a with res5 := copyInto a.res5 x.vis }
  let buffer ← buffer.sfrom 2
  assign ({ · with SenderGID := zeros 16 })
  let b ← buffer.sub 0 16
  assign fun a => { a with SenderGID := copyInto a.SenderGID b.vis }
  let buffer ← buffer.sfrom 16
  let x ← buffer.idx 0
  assign ({ · with SenderQP := x.toUInt32 <<< 16 })
  let x ← buffer.idx 1
  assign fun a => { a with SenderQP := a.SenderQP ||| (x.toUInt32 <<< 8) }
  let x ← buffer.idx 2
  assign fun a => { a with SenderQP := a.SenderQP ||| x.toUInt32 }
  let buffer ← buffer.sfrom 3
  let x ← buffer.idx 0
  assign ({ · with Link := x })
  let buffer ← buffer.sfrom 1
  let x ← buffer.idx 0
  assign ({ · with res3 := x >>> 4 })
  let x ← buffer.idx 0
  assign ({ · with MTU := x &&& 0b00001111 })
  let buffer ← buffer.sfrom 1
  let x ← buffer.idx 0
  assign ({ · with PSN := x.toUInt32 <<< 16 })
  let x ← buffer.idx 1
  assign fun a => { a with PSN := a.PSN ||| (x.toUInt32 <<< 8) }
  let x ← buffer.idx 2
  assign fun a => { a with PSN := a.PSN ||| x.toUInt32 }
  let buffer ← buffer.sfrom 3
  assign fun a => { a with res4 := copyInto a.res4 buffer.vis }

/-- pkg/llc/llc_addlinkcont.go:15-24 `RKeyPair.Parse` -/
def RKeyPair.parseS (buffer : Slice) : SGo RKeyPair Unit := do
  let x ← be32 (← buffer.sub 0 4)
  assign ({ · with ReferenceRKey := x })
  let x ← be32 (← buffer.sub 4 8)
  assign ({ · with NewRKey := x })
  let x ← be64 (← buffer.sub 8 16)
  assign ({ · with NewVAddr := x })

/-- pkg/llc/llc_addlinkcont.go:79-82: the loop over the pairs from number `i` on, `n` rounds to go;
returns the rest of the buffer -/
def parsePairsS : Nat → Nat → Slice → SGo AddLinkCont Slice
  | 0, _, buffer => pure buffer
  | n + 1, i, buffer => do
    within (·.RKeyPairs.getD i {}) (fun r a => { a with RKeyPairs := a.RKeyPairs.set i r }) (RKeyPair.parseS buffer)
    let buffer ← buffer.sfrom 16
    parsePairsS n (i + 1) buffer

/-- pkg/llc/llc_addlinkcont.go:45-86 `AddLinkCont.Parse` -/
def AddLinkCont.parseS (buffer : Slice) : SGo AddLinkCont Unit := do
  within (·.base) (fun b m => { m with base := b }) (BaseMsg.setBaseMsgS buffer)
  let buffer ← buffer.sfrom 2
  let x ← buffer.idx 0
  assign ({ · with res1 := x })
  let buffer ← buffer.sfrom 1
  let x ← buffer.idx 0
  assign ({ · with Reply := decide (x &&& 0b10000000 > 0) })
  let x ← buffer.idx 0
  assign ({ · with res2 := x &&& 0b01111111 })
  let buffer ← buffer.sfrom 1
  let x ← buffer.idx 0
  assign ({ · with Link := x })
  let buffer ← buffer.sfrom 1
  let x ← buffer.idx 0
  assign ({ · with NumRTokens := x })
  let buffer ← buffer.sfrom 1
  let x ← buffer.sub 0 2
  assign fun a => { a with res3 := copyInto a.res3 x.vis }
  let buffer ← buffer.sfrom 2
  let n ← gets (·.RKeyPairs.length)
  let buffer ← parsePairsS n 0 buffer
  assign fun a => { a with res4 := copyInto a.res4 buffer.vis }

/-- pkg/llc/llc_deletelink.go:52-85 `DeleteLink.Parse` -/
def DeleteLink.parseS (buffer : Slice) : SGo DeleteLink Unit := do
  within (·.base) (fun b m => { m with base := b }) (BaseMsg.setBaseMsgS buffer)
  let buffer ← buffer.sfrom 2
  let x ← buffer.idx 0
  assign ({ · with res1 := x })
  let buffer ← buffer.sfrom 1
  let x ← buffer.idx 0
  assign ({ · with Reply := decide (x &&& 0b10000000 > 0) })
  let x ← buffer.idx 0
  assign ({ · with All := decide (x &&& 0b01000000 > 0) })
  let x ← buffer.idx 0
  assign ({ · with Orderly := decide (x &&& 0b00100000 > 0) })
  let x ← buffer.idx 0
  assign ({ · with res2 := x &&& 0b00011111 })
  let buffer ← buffer.sfrom 1
  let x ← buffer.idx 0
  assign ({ · with Link := x })
  let buffer ← buffer.sfrom 1
  let x ← be32 (← buffer.sub 0 4)
  assign ({ · with RsnCode := x })
  let buffer ← buffer.sfrom 4
  assign fun d => { d with res3 := copyInto d.res3 buffer.vis }

/-- pkg/llc/llc_confirmrkey.go:15-24 `RMBSpec.Parse` -/
def RMBSpec.parseS (buffer : Slice) : SGo RMBSpec Unit := do
  let x ← buffer.idx 0
  assign ({ · with Link := x })
  let x ← be32 (← buffer.sub 1 5)
  assign ({ · with RKey := x })
  let x ← be64 (← buffer.sub 5 13)
  assign ({ · with VAddr := x })

/-- pkg/llc/llc_confirmrkey.go:90-93: the loop over the RMBs from number `i` on -/
def parseRMBsS : Nat → Nat → Slice → SGo ConfirmRKey Slice
  | 0, _, buffer => pure buffer
  | n + 1, i, buffer => do
    within (·.OtherRMBs.getD i {}) (fun r c => { c with OtherRMBs := c.OtherRMBs.set i r }) (RMBSpec.parseS buffer)
    let buffer ← buffer.sfrom 13
    parseRMBsS n (i + 1) buffer

/-- pkg/llc/llc_confirmrkey.go:48-97 `ConfirmRKey.Parse` -/
def ConfirmRKey.parseS (buffer : Slice) : SGo ConfirmRKey Unit := do
  within (·.base) (fun b m => { m with base := b }) (BaseMsg.setBaseMsgS buffer)
  let buffer ← buffer.sfrom 2
  let x ← buffer.idx 0
  assign ({ · with res1 := x })
  let buffer ← buffer.sfrom 1
  let x ← buffer.idx 0
  assign ({ · with Reply := decide (x &&& 0b10000000 > 0) })
  let x ← buffer.idx 0
  assign ({ · with res2 := (x &&& 0b01000000) >>> 6 })
  let x ← buffer.idx 0
  assign ({ · with Reject := decide (x &&& 0b00100000 > 0) })
  let x ← buffer.idx 0
  assign ({ · with Retry := decide (x &&& 0b00010000 > 0) })
  let x ← buffer.idx 0
  assign ({ · with res3 := x &&& 0b00001111 })
  let buffer ← buffer.sfrom 1
  let x ← buffer.idx 0
  assign ({ · with NumTkns := x })
  let buffer ← buffer.sfrom 1
  let x ← be32 (← buffer.sub 0 4)
  assign ({ · with RKey := x })
  let buffer ← buffer.sfrom 4
  let x ← be64 (← buffer.sub 0 8)
  assign ({ · with VAddr := x })
  let buffer ← buffer.sfrom 8
  let n ← gets (·.OtherRMBs.length)
  let buffer ← parseRMBsS n 0 buffer
  let x ← buffer.idx 0
  assign ({ · with res4 := x })

/-- pkg/llc/llc_confirmrkeycont.go:52-55: the loop over the RMBs from number `i` on -/
def parseRMBsContS : Nat → Nat → Slice → SGo ConfirmRKeyCont Slice
  | 0, _, buffer => pure buffer
  | n + 1, i, buffer => do
    within (·.OtherRMBs.getD i {}) (fun r c => { c with OtherRMBs := c.OtherRMBs.set i r }) (RMBSpec.parseS buffer)
    let buffer ← buffer.sfrom 13
    parseRMBsContS n (i + 1) buffer

/-- pkg/llc/llc_confirmrkeycont.go:18-59 `ConfirmRKeyCont.Parse` -/
def ConfirmRKeyCont.parseS (buffer : Slice) : SGo ConfirmRKeyCont Unit := do
  within (·.base) (fun b m => { m with base := b }) (BaseMsg.setBaseMsgS buffer)
  let buffer ← buffer.sfrom 2
  let x ← buffer.idx 0
  assign ({ · with res1 := x })
  let buffer ← buffer.sfrom 1
  let x ← buffer.idx 0
  assign ({ · with Reply := decide (x &&& 0b10000000 > 0) })
  let x ← buffer.idx 0
  assign ({ · with res2 := (x &&& 0b01000000) >>> 6 })
  let x ← buffer.idx 0
  assign ({ · with Reject := decide (x &&& 0b00100000 > 0) })
  let x ← buffer.idx 0
  assign ({ · with res3 := x &&& 0b00011111 })
  let buffer ← buffer.sfrom 1
  let x ← buffer.idx 0
  assign ({ · with NumTkns := x })
  let buffer ← buffer.sfrom 1
  let n ← gets (·.OtherRMBs.length)
  let buffer ← parseRMBsContS n 0 buffer
  let x ← buffer.idx 0
  assign ({ · with res4 := x })

/-- pkg/llc/llc_deleterkey.go:68-71: the loop over the keys from number `i` on -/
def parseRKeysS : Nat → Nat → Slice → SGo DeleteRKey Slice
  | 0, _, buffer => pure buffer
  | n + 1, i, buffer => do
    let x ← be32 (← buffer.sub 0 4)
    assign fun d => { d with rkeys := d.rkeys.set i x }
    let buffer ← buffer.sfrom 4
    parseRKeysS n (i + 1) buffer

/-- pkg/llc/llc_deleterkey.go:23-75 `deleteRKey.Parse` -/
def DeleteRKey.parseS (buffer : Slice) : SGo DeleteRKey Unit := do
  within (·.base) (fun b m => { m with base := b }) (BaseMsg.setBaseMsgS buffer)
  let buffer ← buffer.sfrom 2
  let x ← buffer.idx 0
  assign ({ · with res1 := x })
  let buffer ← buffer.sfrom 1
  let x ← buffer.idx 0
  assign ({ · with reply := decide (x &&& 0b10000000 > 0) })
  let x ← buffer.idx 0
  assign ({ · with res2 := (x &&& 0b01000000) >>> 6 })
  let x ← buffer.idx 0
  assign ({ · with reject := decide (x &&& 0b00100000 > 0) })
  let x ← buffer.idx 0
  assign ({ · with res3 := x &&& 0b00011111 })
  let buffer ← buffer.sfrom 1
  let x ← buffer.idx 0
  assign ({ · with count := x })
  let buffer ← buffer.sfrom 1
  let x ← buffer.idx 0
  assign ({ · with errorMask := x })
  let buffer ← buffer.sfrom 1
  let x ← buffer.sub 0 2
  assign fun d => { d with res4 := copyInto d.res4 x.vis }
  let buffer ← buffer.sfrom 2
  let n ← gets (·.rkeys.length)
  let buffer ← parseRKeysS n 0 buffer
  assign fun d => { d with res5 := copyInto d.res5 buffer.vis }

/-- pkg/llc/llc_testlink.go:15-38 `TestLink.Parse` -/
def TestLink.parseS (buffer : Slice) : SGo TestLink Unit := do
  within (·.base) (fun b m => { m with base := b }) (BaseMsg.setBaseMsgS buffer)
  let buffer ← buffer.sfrom 2
  let x ← buffer.idx 0
  assign ({ · with res1 := x })
  let buffer ← buffer.sfrom 1
  let x ← buffer.idx 0
  assign ({ · with Reply := decide (x &&& 0b10000000 > 0) })
  let x ← buffer.idx 0
  assign ({ · with res2 := x &&& 0b01111111 })
  let buffer ← buffer.sfrom 1
  let x ← buffer.sub 0 16
  assign fun t => { t with UserData := copyInto t.UserData x.vis }
  let buffer ← buffer.sfrom 16
  assign fun t => { t with res3 := copyInto t.res3 buffer.vis }

/-- pkg/llc/cdc.go:31-110 `CDC.Parse`. `c.res4[0] = x` replaces the first element of the
array, `copy(c.res4[1:], …)` the rest. -/
def CDC.parseS (buffer : Slice) : SGo CDC Unit := do
  assign fun c => { c with base := c.base.setRaw buffer }
  let x ← buffer.idx 0
  assign fun c => { c with base := { c.base with Typ := x.toNat } }
  let buffer ← buffer.sfrom 1
  let x ← buffer.idx 0
  assign fun c => { c with base := { c.base with Length := x.toNat } }
  let buffer ← buffer.sfrom 1
  let x ← be16 (← buffer.sub 0 2)
  assign ({ · with SeqNum := x })
  let buffer ← buffer.sfrom 2
  let x ← be32 (← buffer.sub 0 4)
  assign ({ · with AlertTkn := x })
  let buffer ← buffer.sfrom 4
  let x ← buffer.sub 0 2
  assign fun c => { c with res1 := copyInto c.res1 x.vis }
  let buffer ← buffer.sfrom 2
  let x ← be16 (← buffer.sub 0 2)
  assign ({ · with ProdWrap := x })
  let buffer ← buffer.sfrom 2
  let x ← be32 (← buffer.sub 0 4)
  assign ({ · with ProdCurs := x })
  let buffer ← buffer.sfrom 4
  let x ← buffer.sub 0 2
  assign fun c => { c with res2 := copyInto c.res2 x.vis }
  let buffer ← buffer.sfrom 2
  let x ← be16 (← buffer.sub 0 2)
  assign ({ · with ConsWrap := x })
  let buffer ← buffer.sfrom 2
  let x ← be32 (← buffer.sub 0 4)
  assign ({ · with ConsCurs := x })
  let buffer ← buffer.sfrom 4
  let x ← buffer.idx 0
  assign ({ · with B := decide (x &&& 0b10000000 > 0) })
  let x ← buffer.idx 0
  assign ({ · with P := decide (x &&& 0b01000000 > 0) })
  let x ← buffer.idx 0
  assign ({ · with U := decide (x &&& 0b00100000 > 0) })
  let x ← buffer.idx 0
  assign ({ · with R := decide (x &&& 0b00010000 > 0) })
  let x ← buffer.idx 0
  assign ({ · with F := decide (x &&& 0b00001000 > 0) })
  let x ← buffer.idx 0
  assign ({ · with res3 := x &&& 0b00000111 })
  let buffer ← buffer.sfrom 1
  let x ← buffer.idx 0
  assign ({ · with D := decide (x &&& 0b10000000 > 0) })
  let x ← buffer.idx 0
  assign ({ · with C := decide (x &&& 0b01000000 > 0) })
  let x ← buffer.idx 0
  assign ({ · with A := decide (x &&& 0b00100000 > 0) })
  let x ← buffer.idx 0
  assign fun c => { c with res4 := copyInto c.res4 [x &&& 0b00011111] }
  let buffer ← buffer.sfrom 1
  assign fun c => { c with res4 := c.res4.take 1 ++ copyInto (c.res4.drop 1) buffer.vis }

end SMC.LLC

namespace SMC.RoCE
open SGo

/-- pkg/roce/bth.go:197-251 `BTH.Parse` -/
def BTH.parseS (buffer : Slice) : SGo BTH Unit := do
  assign fun b => { b with Raw := copyInto (zeros buffer.len) buffer.vis }
  let x ← buffer.idx 0
  assign ({ · with Opcode := x })
  let buffer ← buffer.sfrom 1
  let x ← buffer.idx 0
  assign ({ · with SE := decide (x &&& 0b10000000 > 0) })
  let x ← buffer.idx 0
  assign ({ · with M := decide (x &&& 0b01000000 > 0) })
  let x ← buffer.idx 0
  assign ({ · with Pad := (x &&& 0b00110000) >>> 4 })
  let x ← buffer.idx 0
  assign ({ · with TVer := x &&& 0b00001111 })
  let buffer ← buffer.sfrom 1
  let x ← be16 (← buffer.sub 0 2)
  assign ({ · with PKey := x })
  let buffer ← buffer.sfrom 2
  let x ← buffer.idx 0
  assign ({ · with FECN := decide (x &&& 0b10000000 > 0) })
  let x ← buffer.idx 0
  assign ({ · with BECN := decide (x &&& 0b01000000 > 0) })
  let x ← buffer.idx 0
  assign ({ · with res1 := x &&& 0b00111111 })
  let buffer ← buffer.sfrom 1
  let x ← buffer.idx 0
  assign ({ · with DestQP := x.toUInt32 <<< 16 })
  let x ← buffer.idx 1
  assign fun b => { b with DestQP := b.DestQP ||| (x.toUInt32 <<< 8) }
  let x ← buffer.idx 2
  assign fun b => { b with DestQP := b.DestQP ||| x.toUInt32 }
  let buffer ← buffer.sfrom 3
  let x ← buffer.idx 0
  assign ({ · with A := decide (x &&& 0b10000000 > 0) })
  let x ← buffer.idx 0
  assign ({ · with res2 := x &&& 0b01111111 })
  let buffer ← buffer.sfrom 1
  let x ← buffer.idx 0
  assign ({ · with PSN := x.toUInt32 <<< 16 })
  let x ← buffer.idx 1
  assign fun b => { b with PSN := b.PSN ||| (x.toUInt32 <<< 8) }
  let x ← buffer.idx 2
  assign fun b => { b with PSN := b.PSN ||| x.toUInt32 }

end SMC.RoCE
