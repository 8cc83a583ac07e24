import Verif.Spec.Left
/-!
# What a field is when `Parse` crashes, by the number of bytes

`Left` and `Between` (`Verif/Spec/Left.lean`, `Verif/Spec/LeftValue.lean`) allow several values. For a buffer without
spare capacity and a message whose fields have fixed places the number of bytes alone decides which one it is.
-/

namespace SMC.Left
open Item

/-- when a field is read -/
inductive When where
  /-- at once, when its last byte, byte `last`, is there (counted from 1) -/
  | at (last : Nat)
  /-- in two steps: new bytes when the `start` bytes before it are there, their content when byte `last` is there -/
  | fresh (start last : Nat)
  /-- in three steps: the byte after the first `start` bytes, the next one, the next one -/
  | three (start : Nat)
  /-- number by number, each when its last byte is there -/
  | entries (last : List (List Nat))
deriving DecidableEq, Repr

/-- the numbers whose last byte is among the `n` bytes are new -/
def pick (n : Nat) : (last old new : List Nat) → List Nat
  | l :: last, o :: old, x :: new => (if n < l then o else x) :: pick n last old new
  | _, _, _ => []

/-- the same for lists of numbers -/
def pickAll (n : Nat) : (last old new : List (List Nat)) → List (List Nat)
  | l :: last, o :: old, x :: new => pick n l o x :: pickAll n last old new
  | _, _, _ => []

/-- the value of the field after a crash when there are `n` bytes -/
def When.value : When → (n : Nat) → (old new : Item) → Item
  | .at last, n, old, new => if n < last then old else new
  | .fresh start last, n, old, new =>
    if n < start then old else if n < last then bytes (zeros (last - start)) else new
  | .three start, n, old, num v =>
    if n < start + 1 then old
    else if n < start + 2 then num (v / 0x10000 * 0x10000)
    else if n < start + 3 then num (v / 0x100 * 0x100)
    else num v
  | .entries last, n, nums old, nums new => nums (pickAll n last old new)
  | _, _, old, _ => old

/-- all fields -/
def values : List When → (n : Nat) → (old new : List Item) → List Item
  | w :: ws, n, o :: old, x :: new => w.value n o x :: values ws n old new
  | _, _, _, _ => []

def confirmLinkWhen : List When :=
  [.at 1, .at 2, .at 3, .at 4, .at 4, .fresh 4 10, .fresh 10 26, .three 26, .at 30, .at 34, .at 35, .at 35]

def addLinkWhen : List When :=
  [.at 1, .at 2, .at 3, .at 3, .at 4, .at 4, .at 4, .fresh 4 10, .at 12, .fresh 12 28, .three 28, .at 32, .at 33, .at 33,
   .three 33, .at 36]

def deleteLinkWhen : List When :=
  [.at 1, .at 2, .at 3, .at 4, .at 4, .at 4, .at 4, .at 5, .at 9, .at 9]

def testLinkWhen : List When := [.at 1, .at 2, .at 3, .at 4, .at 4, .at 20, .at 20]

def cdcWhen : List When :=
  [.at 1, .at 2, .at 4, .at 8, .at 10, .at 12, .at 16, .at 18, .at 20, .at 24, .at 25, .at 25, .at 25, .at 25, .at 25, .at 25,
   .at 26, .at 26, .at 26, .at 26]

def addLinkContWhen : List When :=
  [.at 1, .at 2, .at 3, .at 4, .at 4, .at 5, .at 6, .at 8, .entries [[12, 16, 24], [28, 32, 40]], .at 40]

def confirmRKeyWhen : List When :=
  [.at 1, .at 2, .at 3, .at 4, .at 4, .at 4, .at 4, .at 4, .at 5, .at 9, .at 17, .entries [[18, 22, 30], [31, 35, 43]], .at 44]

def confirmRKeyContWhen : List When :=
  [.at 1, .at 2, .at 3, .at 4, .at 4, .at 4, .at 4, .at 5, .entries [[6, 10, 18], [19, 23, 31], [32, 36, 44]], .at 45]

def deleteRKeyWhen : List When :=
  [.at 1, .at 2, .at 3, .at 4, .at 4, .at 4, .at 4, .at 5, .at 6, .at 8,
   .entries [[12], [16], [20], [24], [28], [32], [36], [40]], .at 40]

def bthWhen : List When :=
  [.at 1, .at 2, .at 2, .at 2, .at 2, .at 4, .at 5, .at 5, .at 5, .three 5, .at 9, .at 9, .three 9]

def headerWhen : List When := [.at 4, .at 5, .at 7, .at 8, .at 8, .at 8, .at 8, .at 8]

def declineWhen : List When := headerWhen ++ [.at 16, .at 20, .at 24, .at 28]

def declineV2When : List When := declineWhen

def acceptSMCRWhen : List When :=
  headerWhen ++ [.at 16, .fresh 16 32, .fresh 32 38, .three 38, .at 45, .at 46, .at 50, .at 51, .at 51, .at 52, .at 60, .at 61,
    .three 61, .at 68]

def acceptSMCDWhen : List When :=
  headerWhen ++ [.at 16, .at 24, .at 25, .at 26, .at 26, .at 28, .at 32, .at 44, .at 48]

end SMC.Left
