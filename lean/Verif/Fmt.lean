import Lean.Elab.Term
import Lean.ToExpr
import Verif.Go
/-!
# Text output: `fmt.Sprintf`, `encoding/hex.Dump`, `net.IP`, `net.HardwareAddr`

Trusted models of the standard library functions the code prints with (Go 1.23).
-/

namespace SMC

open Lean Elab Term in
/-- `go! "text"` is the byte string of a Go string literal. -/
elab "go! " s:str : term => return toExpr s.getString.toUTF8.toList

open Lean Elab Term in
/-- `hex! "0a 0b"` is the byte string written in hex; blanks are ignored. -/
elab "hex! " s:str : term => do
  let val (c : Char) : TermElabM Nat :=
    if c.isDigit then pure (c.toNat - 48)
    else if 'a' ≤ c ∧ c ≤ 'f' then pure (c.toNat - 87)
    else throwError "bad hex digit"
  let rec go : List Char → TermElabM (List UInt8)
    | a :: b :: r => do return UInt8.ofNat ((← val a) * 16 + (← val b)) :: (← go r)
    | [] => return []
    | _ => throwError "odd number of hex digits"
  return toExpr (← go (s.getString.toList.filter (· ≠ ' ')))

/-- The character of one digit, `ldigits` of package fmt. -/
def digit (n : Nat) : UInt8 :=
  if n < 10 then UInt8.ofNat (48 + n) else UInt8.ofNat (87 + n)

/-- Digits of `n` in a base, most significant first; the first argument bounds the
number of further digits. -/
def digitsAux : Nat → Nat → Nat → Bytes
  | 0, _, n => [digit n]
  | fuel + 1, base, n =>
    if n < base then [digit n] else digitsAux fuel base (n / base) ++ [digit (n % base)]

/-- Digits of `n` in a base, most significant first; `0` is a single zero digit. -/
def digits (base n : Nat) : Bytes := digitsAux n base n

/-- `%d` of an unsigned value -/
def dec (n : Nat) : Bytes := digits 10 n

/-- two lower case hex digits of a byte -/
def hex2 (b : UInt8) : Bytes := [digit (b.toNat / 16), digit (b.toNat % 16)]

/-- `%#x` of an unsigned integer -/
def hexInt (n : Nat) : Bytes := go! "0x" ++ digits 16 n

/-- `%#x` of a byte array or slice (`fmtSbx`): nothing for the empty one -/
def hexBytes (bs : Bytes) : Bytes :=
  if bs = [] then [] else go! "0x" ++ bs.flatMap hex2

/-- `%#b` of an unsigned integer -/
def binInt (n : Nat) : Bytes := go! "0b" ++ digits 2 n

/-- `%t` -/
def boolStr (b : Bool) : Bytes := if b then go! "true" else go! "false"

/-- An argument of `Sprintf`. -/
inductive Arg where
  /-- an integer value (`%d`, `%#x`, `%#b`) -/
  | num (n : Nat)
  /-- a byte array (`%#x`) -/
  | arr (bs : Bytes)
  /-- a boolean (`%t`) -/
  | bool (b : Bool)
  /-- a string, or the result of the value's `String()` method (`%s`) -/
  | str (s : Bytes)
deriving DecidableEq, Repr

/-- Verbs that occur in the format strings of the code. -/
inductive Verb where
  | d | s | t | hx | hb
deriving DecidableEq, Repr

/-- Text of one argument; combinations that do not occur in the code print nothing
(Go would print an error text there). -/
def fmtArg : Verb → Arg → Bytes
  | .d, .num n => dec n
  | .hx, .num n => hexInt n
  | .hx, .arr bs => hexBytes bs
  | .hb, .num n => binInt n
  | .t, .bool b => boolStr b
  | .s, .str s => s
  | _, _ => []

/-- Pieces of a format string. -/
inductive Seg where
  | lit (b : UInt8)
  | verb (v : Verb)
deriving DecidableEq, Repr

/-- Splits a format string at its verbs. -/
def parseFmt : Bytes → List Seg
  | 37 :: 100 :: r => .verb .d :: parseFmt r                 -- %d
  | 37 :: 115 :: r => .verb .s :: parseFmt r                 -- %s
  | 37 :: 116 :: r => .verb .t :: parseFmt r                 -- %t
  | 37 :: 35 :: 120 :: r => .verb .hx :: parseFmt r          -- %#x
  | 37 :: 35 :: 98 :: r => .verb .hb :: parseFmt r           -- %#b
  | b :: r => .lit b :: parseFmt r
  | [] => []

/-- Writes the pieces of a format string with their arguments. -/
def render : List Seg → List Arg → Bytes
  | [], _ => []
  | .lit b :: r, as => b :: render r as
  | .verb v :: r, a :: as => fmtArg v a ++ render r as
  | .verb _ :: r, [] => render r []

/-- `fmt.Sprintf(format, args...)` -/
def sprintf (format : Bytes) (args : List Arg) : Bytes := render (parseFmt format) args

/-! ## encoding/hex.Dump -/

/-- `toChar` of encoding/hex: non-printable bytes are shown as a dot -/
def toChar (b : UInt8) : UInt8 := if b < 32 ∨ b > 126 then 46 else b

/-- The eight hex digits of a line offset (`h.n` modulo 2^32). -/
def offset8 (n : Nat) : Bytes :=
  [digit (n / 16 ^ 7 % 16), digit (n / 16 ^ 6 % 16), digit (n / 16 ^ 5 % 16), digit (n / 16 ^ 4 % 16),
   digit (n / 16 ^ 3 % 16), digit (n / 16 ^ 2 % 16), digit (n / 16 % 16), digit (n % 16)]

/-- What is written for the byte in column `used`: two digits and a blank, an extra
blank after the eighth, an extra blank and the bar after the sixteenth. -/
def dumpCell (used : Nat) (cell : Bytes) : Bytes :=
  cell ++ (if used = 7 then go! "  " else if used = 15 then go! "  |" else go! " ")

/-- The hex columns of a line, from column `used` on; missing bytes are blanks. -/
def dumpCols : Nat → Nat → Bytes → Bytes
  | 0, _, _ => []
  | k + 1, used, [] => dumpCell used (go! "  ") ++ dumpCols k (used + 1) []
  | k + 1, used, b :: bs => dumpCell used (hex2 b) ++ dumpCols k (used + 1) bs

/-- One line of at most 16 bytes. -/
def dumpLine (n : Nat) (bs : Bytes) : Bytes :=
  offset8 n ++ go! "  " ++ dumpCols 16 0 bs ++ bs.map toChar ++ go! "|\n"

/-- Lines of the dump from offset `n` on; the first argument bounds their number. -/
def dumpFrom : Nat → Nat → Bytes → Bytes
  | 0, _, _ => []
  | _ + 1, _, [] => []
  | fuel + 1, n, bs => dumpLine n (bs.take 16) ++ dumpFrom fuel (n + 16) (bs.drop 16)

/-- `hex.Dump(data)`. The `dumper` of the library writes byte by byte; this is its
output line by line. -/
def hexDump (bs : Bytes) : Bytes := dumpFrom bs.length 0 bs

/-! ## net.HardwareAddr, net.IP -/

/-- joins texts with a separator -/
def joinSep (sep : Bytes) : List Bytes → Bytes
  | [] => []
  | [x] => x
  | x :: y :: r => x ++ sep ++ joinSep sep (y :: r)

/-- `net.HardwareAddr.String` -/
def macStr (mac : Bytes) : Bytes := joinSep (go! ":") (mac.map hex2)

/-- `net.IP.To4`: four byte slices and IPv4-mapped sixteen byte slices -/
def to4 (ip : Bytes) : Option Bytes :=
  if ip.length = 4 then some ip
  else if ip.length = 16 ∧ ip.take 10 = zeros 10 ∧ (ip.drop 10).take 2 = [255, 255] then
    some (ip.drop 12)
  else none

/-- `net.IP.To16` -/
def to16 (ip : Bytes) : Option Bytes :=
  if ip.length = 4 then some (zeros 10 ++ [255, 255] ++ ip)
  else if ip.length = 16 then some ip
  else none

/-- `netip.Addr.String` of an IPv4 address -/
def ip4Str (ip : Bytes) : Bytes := joinSep (go! ".") (ip.map fun b => dec b.toNat)

/-- The sixteen bit groups of an IPv6 address. -/
def groups : Bytes → List Nat
  | a :: b :: r => (a.toNat * 256 + b.toNat) :: groups r
  | _ => []

/-- number of leading zero groups -/
def zeroRun : List Nat → Nat
  | 0 :: r => zeroRun r + 1
  | _ => 0

/-- `zeroStart`, `zeroEnd` of `netip.Addr.appendTo6`: the first longest run of at least
two zero groups; the accumulator is (start, length), length 0 for none. -/
def bestRun : Nat → List Nat → Nat × Nat → Nat × Nat
  | _, [], best => best
  | i, g :: gs, best =>
    let l := zeroRun (g :: gs)
    bestRun (i + 1) gs (if l ≥ 2 ∧ l > best.2 then (i, l) else best)

/-- `netip.Addr.appendTo6` -/
def ip6Str (gs : List Nat) : Bytes :=
  let (st, l) := bestRun 0 gs (0, 0)
  let hexs := gs.map (digits 16)
  if l = 0 then joinSep (go! ":") hexs
  else joinSep (go! ":") (hexs.take st) ++ go! "::" ++ joinSep (go! ":") (hexs.drop (st + l))

/-- `net.IP.String` -/
def ipStr (ip : Bytes) : Bytes :=
  if ip = [] then go! "<nil>"
  else if ip.length ≠ 4 ∧ ip.length ≠ 16 then go! "?" ++ ip.flatMap hex2
  else match to4 ip with
    | some p4 => ip4Str p4
    | none => ip6Str (groups ip)

end SMC
