import Verif.Fmt
/-!
# Reading a hex dump

What a reader of the output of `hex.Dump` does to get the bytes back; nothing here refers
to the model of `hex.Dump`.
-/

namespace SMC.Spec

/-- The lines of a text, without their line feeds. -/
def lines : Bytes → List Bytes
  | [] => []
  | c :: r =>
    if c = 10 then [] :: lines r
    else match lines r with
      | [] => [[c]]
      | l :: ls => (c :: l) :: ls

/-- The value of a hex digit. -/
def hexVal (c : UInt8) : Nat :=
  if 48 ≤ c ∧ c ≤ 57 then c.toNat - 48 else if 97 ≤ c ∧ c ≤ 102 then c.toNat - 87 else 0

/-- Bytes from pairs of hex digits. -/
def unhex : Bytes → Bytes
  | c :: d :: r => UInt8.ofNat (16 * hexVal c + hexVal d) :: unhex r
  | _ => []

/-- The bytes of a line: skip the offset, read up to the bar, ignore blanks. -/
def undumpLine (l : Bytes) : Bytes :=
  unhex (((l.drop 10).takeWhile (· != 124)).filter (· != 32))

/-- The bytes of a dump. -/
def undump (d : Bytes) : Bytes := (lines d).flatMap undumpLine

#guard undump (go! "00000000  61 62 7c 00 ff                                    |ab|..|\n") = hex! "61 62 7c 00 ff"

end SMC.Spec
