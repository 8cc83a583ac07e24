import Verif.Spec.Left
/-!
# What a field may be when `Parse` crashes

`Left` (`Verif/Spec/Left.lean`) allows one field any value. Here its values are listed, depending on how the field is
read.
-/

namespace SMC.Left
open Item

/-- how a field is read, if it is not read in one assignment -/
inductive Way where
  /-- a number of three bytes, one after the other -/
  | three
  /-- bytes that are copied to `n` new bytes -/
  | fresh (n : Nat)
  /-- four bits of the first byte of what has been copied move to another field -/
  | nibble
  /-- numbers, one after the other -/
  | numbers
  /-- areas, one after the other -/
  | each
  /-- areas that are appended to those that are there -/
  | appended
deriving DecidableEq, Repr

/-- number `j` of list `i` -/
def entry : Option Item → Nat → Nat → Option Nat
  | some (nums l), i, j => (l[i]?).bind (·[j]?)
  | _, _, _ => none

/-- area `i` -/
def area : Option Item → Nat → Option Bytes
  | some (areas l), i => l[i]?
  | _, _ => none

/-- What there may be besides the old and the new value. -/
def Way.between : Way → (old new got : Option Item) → Prop
  /- the last two bytes are missing, or the last one -/
  | .three, _, new, got =>
    ∃ v, new = some (num v) ∧ (got = some (num (v / 0x10000 * 0x10000)) ∨ got = some (num (v / 0x100 * 0x100)))
  /- nothing has been copied -/
  | .fresh n, _, _, got => got = some (bytes (zeros n))
  /- the four bits are still there -/
  | .nibble, old, new, got =>
    ∃ p x y z, new = some (bytes (x :: y :: z)) ∧ got = some (bytes (p :: (x <<< 4 ||| y) :: z)) ∧
      (p = x ∨ ∃ t, old = some (bytes (p :: t)))
  /- the numbers up to number `b` of list `a` are new, the others are old -/
  | .numbers, old, new, got =>
    ∃ a b, ∀ i j, entry got i j = if i < a ∨ i = a ∧ j < b then entry new i j else entry old i j
  /- the areas up to number `a` are new, the others are old -/
  | .each, old, new, got => ∃ a, ∀ i, area got i = if i < a then area new i else area old i
  /- some have been appended -/
  | .appended, old, new, got =>
    ∃ o n g, old = some (areas o) ∧ new = some (areas n) ∧ got = some (areas g) ∧ o <+: g ∧ g <+: n

/-- Every field has its old value, its new value or one in between; fields not in `ways` are read in one assignment. -/
def Between (ways : List (Nat × Way)) (old new got : List Item) : Prop :=
  ∀ n, got[n]? = old[n]? ∨ got[n]? = new[n]? ∨ ∃ w, (n, w) ∈ ways ∧ w.between old[n]? new[n]? got[n]?

/-! ## The fields that are not read in one assignment -/

def confirmLinkWays : List (Nat × Way) := [(5, .fresh 6), (6, .fresh 16), (7, .three)]

def addLinkWays : List (Nat × Way) := [(7, .fresh 6), (9, .fresh 16), (10, .three), (14, .three)]

def addLinkContWays : List (Nat × Way) := [(8, .numbers)]

def confirmRKeyWays : List (Nat × Way) := [(11, .numbers)]

def confirmRKeyContWays : List (Nat × Way) := [(8, .numbers)]

def deleteRKeyWays : List (Nat × Way) := [(10, .numbers)]

def bthWays : List (Nat × Way) := [(9, .three), (12, .three)]

def declineV2Ways : List (Nat × Way) := [(10, .nibble)]

def acceptSMCRWays : List (Nat × Way) := [(9, .fresh 16), (10, .fresh 6), (11, .three), (20, .three)]

def proposalWays : List (Nat × Way) := [(9, .fresh 16), (10, .fresh 6), (14, .fresh 4), (18, .appended)]

def proposalV2Ways : List (Nat × Way) :=
  [(9, .fresh 16), (10, .fresh 6), (16, .fresh 4), (20, .appended), (30, .each), (33, .numbers)]

end SMC.Left
