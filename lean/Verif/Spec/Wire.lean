import Verif.Go
/-!
# Specification of bit fields

Network messages as bit strings, most significant bit first, as in the diagrams of the
RFCs. Nothing here refers to the model of the parsers.
-/

namespace SMC.Spec

/-- The eight bits of a byte, most significant first. -/
def byteBits (b : UInt8) : List Bool :=
  [b.toNat.testBit 7, b.toNat.testBit 6, b.toNat.testBit 5, b.toNat.testBit 4,
   b.toNat.testBit 3, b.toNat.testBit 2, b.toNat.testBit 1, b.toNat.testBit 0]

/-- A byte string as a bit string. -/
def toBits (bs : Bytes) : List Bool := bs.flatMap byteBits

/-- The unsigned number a bit string stands for, most significant bit first. -/
def ofBits (l : List Bool) : Nat := l.foldl (fun n b => 2 * n + b.toNat) 0

/-- The unsigned number in the `w` bits that start at bit `i` (0 = most significant) of
byte `k`. -/
def num (bs : Bytes) (k i w : Nat) : Nat := ofBits (((toBits bs).drop (8 * k + i)).take w)

/-- The flag at bit `i` of byte `k`. -/
def flag (bs : Bytes) (k i : Nat) : Bool := decide (num bs k i 1 = 1)

/-- The `n` bytes starting at byte `k`. -/
def raw (bs : Bytes) (k n : Nat) : Bytes := (bs.drop k).take n

/-- The `w` low bits of a number, most significant first. -/
def natBits : Nat → Nat → List Bool
  | 0, _ => []
  | w + 1, n => n.testBit w :: natBits w n

/-- Bytes of a bit string whose length is a multiple of eight. -/
def pack : List Bool → Bytes
  | a :: b :: c :: d :: e :: f :: g :: h :: r => UInt8.ofNat (ofBits [a, b, c, d, e, f, g, h]) :: pack r
  | _ => []

/-! Tests of the specification. -/

#guard num [0x12, 0x34, 0x56] 0 4 12 = 0x234
#guard num [0x12, 0x34, 0x56] 1 0 16 = 0x3456
#guard num [0x12, 0x34, 0x56] 2 1 3 = 5
#guard flag [0x12, 0x80] 1 0 && !flag [0x12, 0x80] 1 1
#guard pack (natBits 4 1 ++ natBits 12 0x234) = [0x12, 0x34]
#guard pack (toBits [7, 255, 0, 128]) = [7, 255, 0, 128]

end SMC.Spec
