import Verif.Spec.Wire
import Verif.Fmt
/-!
# How values and messages are meant to be shown

Numerals are those of Lean's own `Nat.toDigits`, IPv6 addresses those of RFC 5952. Of
`Verif/Fmt.lean` only the notation for literals is used here.
-/

namespace SMC.Spec

/-- a numeral in some base, without leading zeros -/
def numeral (base n : Nat) : Bytes := (Nat.toDigits base n).map fun c => UInt8.ofNat c.toNat

/-- `255` -/
def decimal (n : Nat) : Bytes := numeral 10 n
/-- `0xff` -/
def hexadecimal (n : Nat) : Bytes := go! "0x" ++ numeral 16 n
/-- `0b11111111` -/
def binary (n : Nat) : Bytes := go! "0b" ++ numeral 2 n
/-- `true`, `false` -/
def truth (b : Bool) : Bytes := if b then go! "true" else go! "false"

/-- a byte in two hexadecimal digits -/
def octet (b : UInt8) : Bytes := if b.toNat < 16 then go! "0" ++ numeral 16 b.toNat else numeral 16 b.toNat

/-- `0x00ff`: two digits per byte -/
def octets (bs : Bytes) : Bytes := if bs.isEmpty then [] else go! "0x" ++ (bs.map octet).flatten

/-- `00:ff:…`, IEEE 802 hardware addresses -/
def hardware (bs : Bytes) : Bytes := (go! ":").intercalate (bs.map octet)

/-- `192.0.2.1` -/
def dotted (bs : Bytes) : Bytes := (go! ".").intercalate (bs.map fun b => decimal b.toNat)

/-- the zero groups an IPv6 address is shortened by (RFC 5952, 4.2): the first of the longest
runs of at least two; position and length -/
def shortened (gs : List Nat) : Option (Nat × Nat) :=
  [8, 7, 6, 5, 4, 3, 2].findSome? fun n =>
    ((List.range (9 - n)).find? fun i => (gs.drop i).take n == List.replicate n 0).map fun i => (i, n)

/-- the eight groups of an IPv6 address -/
def groups8 (bs : Bytes) : List Nat := (List.range 8).map fun i => num bs (2 * i) 0 16

/-- IP addresses of four or sixteen bytes; IPv4-mapped ones are shown as IPv4 addresses -/
def address (bs : Bytes) : Bytes :=
  if bs.length = 4 then dotted bs
  else if bs.take 12 = [0, 0, 0, 0, 0, 0, 0, 0, 0, 0, 255, 255] then dotted (bs.drop 12)
  else
    let hs := (groups8 bs).map (numeral 16)
    match shortened (groups8 bs) with
    | none => (go! ":").intercalate hs
    | some (i, n) => (go! ":").intercalate (hs.take i) ++ go! "::" ++ (go! ":").intercalate (hs.drop (i + n))

/-- a code with its name in brackets -/
def named (names : List (Nat × Bytes)) (unknown : Bytes) (n : Nat) : Bytes :=
  decimal n ++ go! " (" ++ (names.lookup n).getD unknown ++ go! ")"

/-- a field of a message as shown: label, value, and what is between them -/
structure Item where
  label : Bytes
  value : Bytes
  reserved : Bool := false
  sep : Bytes := go! ": "
deriving DecidableEq, Repr

/-- a field to be shown always -/
def field (label value : Bytes) : Item := { label, value }
/-- a reserved field -/
def rsvd (value : Bytes) : Item := { label := go! "Reserved", value, reserved := true }

/-- label and value -/
def Item.text (i : Item) : Bytes := i.label ++ i.sep ++ i.value

/-- items in a row -/
def row (is : List Item) : Bytes := (go! ", ").intercalate (is.map Item.text)

/-- the text of a message: heading, and its items on the same line -/
def line (heading : Bytes) (is : List Item) : Bytes := heading ++ go! ": " ++ row is ++ go! "\n"

/-- without the reserved fields -/
def visibleItems (is : List Item) : List Item := is.filter (!·.reserved)

#guard decimal 1234567890 = go! "1234567890" && hexadecimal 0xabcdef = go! "0xabcdef" && binary 5 = go! "0b101"
#guard octets [0, 255, 16] = go! "0x00ff10" && hardware [0, 255, 16] = go! "00:ff:10"
#guard address (hex! "fe 80 00 00 00 00 00 00 9a 03 9b ff fe ab cd ef") = go! "fe80::9a03:9bff:feab:cdef"
#guard address (hex! "20 01 0d b8 00 00 00 00 00 01 00 00 00 00 00 01") = go! "2001:db8::1:0:0:1"
#guard address (hex! "20 01 0d b8 00 00 00 01 00 01 00 01 00 01 00 01") = go! "2001:db8:0:1:1:1:1:1"
#guard address (hex! "00 00 00 00 00 00 00 00 00 00 ff ff c0 00 02 01") = go! "192.0.2.1"
#guard address (hex! "00 00 00 00 00 00 00 00 00 00 00 00 00 00 00 00") = go! "::"
#guard line (go! "M") [field (go! "a") (decimal 1), rsvd (go! "x")] = go! "M: a: 1, Reserved: x\n"

end SMC.Spec
