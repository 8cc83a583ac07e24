import Verif.Fmt
/-!
# Paths

A path is a sequence of names. "." and empty names mean nothing, ".." means the directory above.
-/

namespace SMC.Spec

/-- Names with slashes before them. -/
def pathText : List Bytes → Bytes
  | [] => []
  | e :: es => 0x2f :: e ++ pathText es

/-- Where a sequence of names leads, from the directory `dir` (last name first). -/
def walk (dir : List Bytes) : List Bytes → List Bytes
  | [] => dir
  | e :: es =>
    if e = [] ∨ e = go! "." then walk dir es
    else if e = go! ".." then walk dir.tail es
    else walk (e :: dir) es

/-- The names of the place a path leads to. -/
def resolve (es : List Bytes) : List Bytes := (walk [] es).reverse

/-- The text of a place; the path ends with a slash if the last name is empty. -/
def canonical (es : List Bytes) : Bytes :=
  if resolve es = [] then [0x2f]
  else pathText (resolve es ++ if es.getLast? = some [] then [[]] else [])

/-- A name that means something. -/
def Name (e : Bytes) : Prop := e ≠ [] ∧ e ≠ go! "." ∧ e ≠ go! ".." ∧ 0x2f ∉ e

/-- A path without anything superfluous. -/
def CleanPath (p : Bytes) : Prop :=
  p = [0x2f] ∨ ∃ es, es ≠ [] ∧ (∀ e ∈ es, Name e) ∧ (p = pathText es ∨ p = pathText es ++ [0x2f])

/-- How characters of a path are escaped: slashes and dots stay, no other character becomes
empty or contains slashes, dots, question marks, hashes or characters that are not ASCII. -/
def Escaping (esc : UInt8 → Bytes) : Prop :=
  esc 0x2f = [0x2f] ∧ esc 0x2e = [0x2e] ∧
  ∀ c, c ≠ 0x2f → c ≠ 0x2e → esc c ≠ [] ∧ ∀ b ∈ esc c, b ≠ 0x2f ∧ b ≠ 0x2e ∧ b ≠ 0x3f ∧ b ≠ 0x23 ∧ b < 0x80

/-- the value of a hexadecimal digit in an escape -/
def digitVal (c : UInt8) : Nat :=
  if 0x30 ≤ c ∧ c ≤ 0x39 then c.toNat - 0x30 else if 0x41 ≤ c ∧ c ≤ 0x46 then c.toNat - 0x37
  else if 0x61 ≤ c ∧ c ≤ 0x66 then c.toNat - 0x57 else 0

/-- What an escaped path stands for. -/
def percent : Bytes → Bytes
  | [] => []
  | [c] => [c]
  | [c, d] => [c, d]
  | c :: a :: b :: r =>
    if c = 0x25 then UInt8.ofNat (16 * digitVal a + digitVal b) :: percent r else c :: percent (a :: b :: r)

/-- The path and the query a client asks for when it is sent to a place on the same server: what
comes after a hash stays with the client. -/
def target (location : Bytes) : Bytes × Bytes :=
  let l := location.takeWhile (· ≠ 0x23)
  (l.takeWhile (· ≠ 0x3f), (l.dropWhile (· ≠ 0x3f)).drop 1)

end SMC.Spec
