import Verif.Fmt
/-!
# encoding/hex: `Dump` byte by byte

The library's own way to write a dump: a `dumper` that is given the bytes and closed at the
end. `hexDump` of `Verif/Fmt.lean` is its result; `Verif/Props/DumpLayout.lean` proves that.
Trusted: follows encoding/hex/hex.go of Go 1.23. Writing to the `strings.Builder` cannot fail,
so the error returns are left out; `closed` is left out as `Dump` writes and closes once.
-/

namespace SMC

/-- `dumper` without `buf`, whose contents are used right after being set; `w` is what was
written so far -/
structure Dumper where
  w : Bytes := []
  rightChars : Bytes := zeros 18
  used : Nat := 0
  n : Nat := 0
deriving DecidableEq, Repr

namespace Dumper

/-- `hextable` -/
def hextable : Bytes := go! "0123456789abcdef"

/-- `Encode(dst, src)`: two characters per byte -/
def encode : Bytes → Bytes
  | [] => []
  | v :: src => hextable.getD (v >>> 4).toNat 0 :: hextable.getD (v &&& 0x0f).toNat 0 :: encode src

/-- one round of the loop of `Write` -/
def writeByte (h : Dumper) (b : UInt8) : Dumper :=
  let h := if h.used = 0 then
      { h with w := h.w ++ (encode [UInt8.ofNat (h.n >>> 24), UInt8.ofNat (h.n >>> 16), UInt8.ofNat (h.n >>> 8),
          UInt8.ofNat h.n] ++ [32, 32]) }
    else h
  let buf := encode [b] ++ [32]
  let buf := if h.used = 7 then buf ++ [32] else if h.used = 15 then buf ++ [32, 124] else buf
  let h := { h with w := h.w ++ buf }
  let h := { h with rightChars := h.rightChars.set h.used (toChar b) }
  let h := { h with used := h.used + 1 }
  let h := { h with n := h.n + 1 }
  if h.used = 16 then
    let h := { h with rightChars := h.rightChars.set 16 124 }
    let h := { h with rightChars := h.rightChars.set 17 10 }
    let h := { h with w := h.w ++ h.rightChars }
    { h with used := 0 }
  else h

/-- `Write(data)` -/
def write (h : Dumper) (data : Bytes) : Dumper := data.foldl writeByte h

/-- the loop of `Close`, with at most `k` rounds -/
def pad : Nat → Dumper → Dumper
  | 0, h => h
  | k + 1, h =>
    if h.used < 16 then
      let l := if h.used = 7 then 4 else if h.used = 15 then 5 else 3
      pad k { h with w := h.w ++ [32, 32, 32, 32, 124].take l, used := h.used + 1 }
    else h

/-- `Close` -/
def close (h : Dumper) : Dumper :=
  if h.used = 0 then h
  else
    let nBytes := h.used
    let h := pad 16 h
    let h := { h with rightChars := h.rightChars.set nBytes 124 }
    let h := { h with rightChars := h.rightChars.set (nBytes + 1) 10 }
    { h with w := h.w ++ h.rightChars.take (nBytes + 2) }

end Dumper

/-- `hex.Dump(data)` -/
def libDump (data : Bytes) : Bytes :=
  if data.length = 0 then [] else (Dumper.write {} data).close.w

end SMC
