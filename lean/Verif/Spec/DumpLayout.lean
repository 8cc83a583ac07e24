import Verif.Fmt
/-!
# Layout of a hex dump

Which character is in which row and column; nothing here refers to the model of `hex.Dump`.
-/

namespace SMC.Spec

/-- the character of a hex digit -/
def hexChar (n : Nat) : UInt8 := (go! "0123456789abcdef").getD n 0

/-- printable ASCII characters as they are, others as a dot -/
def printable (b : UInt8) : UInt8 := if 32 ≤ b ∧ b ≤ 126 then b else 46

/-- the bytes of row `i` -/
def rowBytes (bs : Bytes) (i : Nat) : Bytes := (bs.drop (16 * i)).take 16

/-- the column of the first digit of byte `j` of a row -/
def digitCol (j : Nat) : Nat := if j < 8 then 10 + 3 * j else 11 + 3 * j

/-- the character in column `col` of row `i`: the offset of the row in columns 0 to 7, the
bytes with a gap in the middle in columns 10 to 57, and from column 61 on the printable
characters between two bars -/
def dumpAt (bs : Bytes) (i col : Nat) : UInt8 :=
  let r := rowBytes bs i
  if col < 8 then hexChar (16 * i / 16 ^ (7 - col) % 16)
  else if col < 60 then
    match (List.range r.length).find? fun j => col = digitCol j ∨ col = digitCol j + 1 with
    | some j => hexChar (if col = digitCol j then (r.getD j 0).toNat / 16 else (r.getD j 0).toNat % 16)
    | none => 32
  else if col = 60 then 124
  else if col = 61 + r.length then 124
  else printable (r.getD (col - 61) 0)

/-- row `i` of the dump, with its line feed -/
def dumpRow (bs : Bytes) (i : Nat) : Bytes :=
  (List.range (62 + (rowBytes bs i).length)).map (dumpAt bs i) ++ [10]

/-- the dump: a row for every 16 bytes, the last one can be shorter -/
def dumpRows (bs : Bytes) : Bytes := (List.range ((bs.length + 15) / 16)).flatMap (dumpRow bs)

#guard dumpRows (go! "0123456789abcdef|x\n") =
  go! "00000000  30 31 32 33 34 35 36 37  38 39 61 62 63 64 65 66  |0123456789abcdef|\n" ++
  go! "00000010  7c 78 0a                                          ||x.|\n"

end SMC.Spec
