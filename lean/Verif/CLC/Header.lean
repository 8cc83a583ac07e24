import Verif.Fmt
/-!
# Model of pkg/clc: common parts

Raw bytes, eyecatcher, header, trailer, peer ID, RMBE size, TCP option. The exported
variables `SMCREyecatcher`, `SMCDEyecatcher` and `SMCOption` are taken as constants: nothing
in the module assigns to them.
-/

namespace SMC.CLC

/-- pkg/clc/message.go:11 `MaxMessageSize` -/
def MaxMessageSize : Nat := 1024

/-- pkg/clc/errdump.go:8-11 `errDump` -/
def errDump (buf : Slice) : Go Unit :=
  Go.log (sprintf (go! "Message Buffer Hex Dump:\n%s") [.str (hexDump buf.vis)])

/-! ## Raw -/

/-- pkg/clc/raw.go:8-11 `Raw.Parse`: the slice itself is kept. That it shares its memory
with the caller's buffer is expressed in `Verif/Heap.lean`. -/
def rawParse (buf : Slice) : Slice := buf

/-- pkg/clc/raw.go:13-16 `Raw.Dump` -/
def rawDump (r : Slice) : Bytes := hexDump r.vis

/-! ## Eyecatcher -/

/-- pkg/clc/eyecatcher.go:7 `SMCREyecatcher` -/
def SMCREyecatcher : Bytes := [0xE2, 0xD4, 0xC3, 0xD9]
/-- pkg/clc/eyecatcher.go:8 `SMCDEyecatcher` -/
def SMCDEyecatcher : Bytes := [0xE2, 0xD4, 0xC3, 0xC4]
/-- pkg/clc/eyecatcher.go:13 `EyecatcherLen` -/
def EyecatcherLen : Nat := 4

/-- pkg/clc/eyecatcher.go:19-28 `Eyecatcher.String`; `bytes.Compare(a, b) == 0` is equality
of contents -/
def eyecatcherStr (e : Bytes) : Bytes :=
  if e = SMCREyecatcher then go! "SMC-R"
  else if e = SMCDEyecatcher then go! "SMC-D"
  else go! "Unknown"

/-- pkg/clc/eyecatcher.go:30-39 `HasEyecatcher` -/
def hasEyecatcher (buf : Slice) : Go Bool := do
  if (← buf.sto EyecatcherLen).vis = SMCREyecatcher then
    pure true
  else if (← buf.sto EyecatcherLen).vis = SMCDEyecatcher then
    pure true
  else
    pure false

/-! ## Header -/

/-- pkg/clc/header.go:11 `SMCv1` -/
def SMCv1 : UInt8 := 1
/-- pkg/clc/header.go:12 `SMCv2` -/
def SMCv2 : UInt8 := 2
/-- pkg/clc/header.go:15 `SMCTypeR` -/
def SMCTypeR : UInt8 := 0
/-- pkg/clc/header.go:16 `SMCTypeD` -/
def SMCTypeD : UInt8 := 1
/-- pkg/clc/header.go:17 `SMCTypeN` -/
def SMCTypeN : UInt8 := 2
/-- pkg/clc/header.go:18 `SMCTypeB` -/
def SMCTypeB : UInt8 := 3
/-- pkg/clc/header.go:21 `HeaderLen` -/
def HeaderLen : Nat := 8
/-- pkg/clc/header.go:24 `TypeProposal` -/
def TypeProposal : UInt8 := 1
/-- pkg/clc/header.go:25 `TypeAccept` -/
def TypeAccept : UInt8 := 2
/-- pkg/clc/header.go:26 `TypeConfirm` -/
def TypeConfirm : UInt8 := 3
/-- pkg/clc/header.go:27 `TypeDecline` -/
def TypeDecline : UInt8 := 4

/-- pkg/clc/header.go:33-47 `MsgType.String` -/
def msgTypeStr (t : UInt8) : Bytes :=
  if t = TypeProposal then go! "Proposal"
  else if t = TypeAccept then go! "Accept"
  else if t = TypeConfirm then go! "Confirm"
  else if t = TypeDecline then go! "Decline"
  else go! "Unknown"

/-- pkg/clc/header.go:52-66 `Path.String` -/
def pathStr (p : UInt8) : Bytes :=
  if p = SMCTypeR then go! "SMC-R"
  else if p = SMCTypeD then go! "SMC-D"
  else if p = SMCTypeN then go! "No SMC-R/SMC-D"
  else if p = SMCTypeB then go! "SMC-R + SMC-D"
  else go! "unknown"

/-- pkg/clc/header.go:68-85 `Header`; `rsv` is the field `reserved` -/
structure Header where
  Eyecatcher : Bytes := zeros 4
  Typ : UInt8 := 0
  Length : UInt16 := 0
  Version : UInt8 := 0
  Flag : UInt8 := 0
  rsv : UInt8 := 0
  Pathv2 : UInt8 := 0
  Path : UInt8 := 0
deriving DecidableEq, Repr

/-- pkg/clc/header.go:87-105 `Header.Parse` -/
def Header.parse (h : Header) (buf : Slice) : Go Header := do
  let h := { h with Eyecatcher := copyInto h.Eyecatcher (← buf.sto EyecatcherLen).vis }
  let h := { h with Typ := ← buf.idx 4 }
  let h := { h with Length := ← be16 (← buf.sub 5 7) }
  let bitfield ← buf.idx 7
  let h := { h with Version := (bitfield &&& 0b11110000) >>> 4 }
  let h := { h with Flag := (bitfield &&& 0b00001000) >>> 3 }
  let h := { h with rsv := (bitfield &&& 0b00000100) >>> 2 }
  let h := { h with Pathv2 := (bitfield &&& 0b00001100) >>> 2 }
  let h := { h with Path := bitfield &&& 0b00000011 }
  pure h

/-- pkg/clc/header.go:107-130 `Header.flagString` -/
def Header.flagString (h : Header) : Bytes :=
  if h.Typ = TypeProposal then
    if h.Version = SMCv2 then sprintf (go! "Pathv2: %s") [.str (pathStr h.Pathv2)]
    else sprintf (go! "Flag: %d") [.num h.Flag.toNat]
  else if h.Typ = TypeAccept then sprintf (go! "First Contact: %d") [.num h.Flag.toNat]
  else if h.Typ = TypeConfirm then
    if h.Version = SMCv2 ∧ h.Path = SMCTypeD then sprintf (go! "First Contact: %d") [.num h.Flag.toNat]
    else sprintf (go! "Flag: %d") [.num h.Flag.toNat]
  else if h.Typ = TypeDecline then sprintf (go! "Out of Sync: %d") [.num h.Flag.toNat]
  else sprintf (go! "Flag: %d") [.num h.Flag.toNat]

/-- pkg/clc/header.go:132-139 `Header.String` -/
def Header.string (h : Header) : Bytes :=
  sprintf (go! "%s: Eyecatcher: %s, Type: %d (%s), Length: %d, Version: %d, %s, Path: %s")
    [.str (msgTypeStr h.Typ), .str (eyecatcherStr h.Eyecatcher), .num h.Typ.toNat, .str (msgTypeStr h.Typ),
     .num h.Length.toNat, .num h.Version.toNat, .str h.flagString, .str (pathStr h.Path)]

/-- pkg/clc/header.go:141-158 `Header.Reserved` -/
def Header.reserved (h : Header) : Bytes :=
  if h.Typ = TypeProposal ∧ h.Version = SMCv2 then
    sprintf (go! "%s: Eyecatcher: %s, Type: %d (%s), Length: %d, Version: %d, %s, Path: %s")
      [.str (msgTypeStr h.Typ), .str (eyecatcherStr h.Eyecatcher), .num h.Typ.toNat, .str (msgTypeStr h.Typ),
       .num h.Length.toNat, .num h.Version.toNat, .str h.flagString, .str (pathStr h.Path)]
  else
    sprintf (go! "%s: Eyecatcher: %s, Type: %d (%s), Length: %d, Version: %d, %s, Reserved: %#x, Path: %s")
      [.str (msgTypeStr h.Typ), .str (eyecatcherStr h.Eyecatcher), .num h.Typ.toNat, .str (msgTypeStr h.Typ),
       .num h.Length.toNat, .num h.Version.toNat, .str h.flagString, .num h.rsv.toNat, .str (pathStr h.Path)]

/-! ## Trailer -/

/-- pkg/clc/trailer.go:7 `TrailerLen` -/
def TrailerLen : Nat := EyecatcherLen

/-- `buf[len(buf)-TrailerLen:]` of pkg/clc/trailer.go:15,18; a negative bound panics -/
def lastBytes (buf : Slice) : Go Slice :=
  if buf.len < TrailerLen then .panic [] else buf.sfrom (buf.len - TrailerLen)

/-- pkg/clc/trailer.go:13-21 `Trailer.Parse`; `t[:]` of an array has no spare capacity -/
def trailerParse (t : Bytes) (buf : Slice) : Go Bytes := do
  let t := copyInto t (← lastBytes buf).vis
  if (← hasEyecatcher ⟨t, []⟩) = false then
    Go.log (go! "Error parsing CLC message: invalid trailer")
    errDump (← lastBytes buf)
    pure t
  else
    pure t

/-- pkg/clc/trailer.go:23-26 `Trailer.String` -/
def trailerStr (t : Bytes) : Bytes := eyecatcherStr t

/-! ## Peer ID and RMBE size -/

/-- pkg/clc/peerid.go:11 `PeerIDLen` -/
def PeerIDLen : Nat := 8

/-- pkg/clc/peerid.go:17-22 `PeerID.String`. The slices of the 8 byte array cannot panic;
the two bytes of the instance are read with default 0. -/
def peerIDStr (p : Bytes) : Bytes :=
  let instance_ := (p.getD 1 0).toUInt16 ||| ((p.getD 0 0).toUInt16 <<< 8)
  let roceMAC := (p.drop 2).take 6
  sprintf (go! "%d@%s") [.num instance_.toNat, .str (macStr roceMAC)]

/-- `1 << c` as an `int` of 64 bits, printed with `%d` -/
def shiftStr (c : Nat) : Bytes :=
  if c < 63 then dec (2 ^ c) else if c = 63 then go! "-" ++ dec (2 ^ 63) else dec 0

/-- pkg/clc/rmbesize.go:8-12 `RMBESize.String`; `s + 14` is computed in 8 bits, `size` is an
`int`, printed by `shiftStr` -/
def rmbeSizeStr (s : UInt8) : Bytes :=
  sprintf (go! "%d (%s)") [.num s.toNat, .str (shiftStr (s + 14).toNat)]

/-! ## TCP option -/

/-- the fields of `layers.TCPOption` (gopacket) used -/
structure TCPOption where
  OptionType : UInt8
  OptionLength : UInt8
  OptionData : Bytes
deriving DecidableEq, Repr

/-- pkg/clc/tcp_option.go:11 `SMCOption` -/
def SMCOption : Bytes := SMCREyecatcher

/-- pkg/clc/tcp_option.go:14-25 `CheckSMCOption`; the argument is `tcp.Options` -/
def checkSMCOption : List TCPOption → Bool
  | [] => false
  | opt :: opts =>
    if opt.OptionType = 254 ∧ opt.OptionLength = 6 ∧ opt.OptionData = SMCOption then true
    else checkSMCOption opts

end SMC.CLC
