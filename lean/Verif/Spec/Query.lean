import Verif.Go
/-!
# Specification of query parameters

application/x-www-form-urlencoded as in the URL standard: parts between `&`, a key and a value
separated by the first `=`, `+` for a blank and `%xy` for the byte with hexadecimal digits xy.
-/

namespace SMC.Http

/-- `c` is a hexadecimal digit of value `n`. -/
def HexDigit (c : UInt8) (n : Nat) : Prop :=
  (n < 10 ∧ c.toNat = 0x30 + n) ∨ (10 ≤ n ∧ n < 16 ∧ (c.toNat = 0x57 + n ∨ c.toNat = 0x37 + n))

/-- The text `s` stands for the byte string `t`. -/
inductive Decodes : Bytes → Bytes → Prop where
  | nil : Decodes [] []
  | plain {c s t} : c ≠ 0x25 → c ≠ 0x2b → Decodes s t → Decodes (c :: s) (c :: t)
  | plus {s t} : Decodes s t → Decodes (0x2b :: s) (0x20 :: t)
  | hex {a b : UInt8} {x y : Nat} {s t} : HexDigit a x → HexDigit b y → Decodes s t →
      Decodes (0x25 :: a :: b :: s) (UInt8.ofNat (16 * x + y) :: t)

/-- A part of a query gives `key` the value `value`. Parts with a semicolon are ignored. -/
def GivesParam (part key value : Bytes) : Prop :=
  0x3b ∉ part ∧ part ≠ [] ∧ ∃ k w, (part = k ++ 0x3d :: w ∨ (part = k ∧ w = [])) ∧ 0x3d ∉ k ∧
    Decodes k key ∧ Decodes w value

/-- `value` is the first value of `key` in a query. -/
def FirstValue (query key value : Bytes) : Prop :=
  ∃ pre part post, query = List.intercalate [0x26] (pre ++ part :: post) ∧
    (∀ p ∈ pre ++ part :: post, 0x26 ∉ p) ∧ GivesParam part key value ∧
    ∀ p ∈ pre, ∀ v, ¬ GivesParam p key v

end SMC.Http
