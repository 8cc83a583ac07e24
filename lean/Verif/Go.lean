/-!
# A fragment of the Go runtime

Byte slices (length and capacity), panics, the standard logger, `copy` and
`encoding/binary`. Trusted: these definitions follow the Go language
specification (sections "Slice expressions", "Index expressions", "Appending to
and copying slices") and the standard library sources of Go 1.23, the version in
/repo/go.mod.
-/

namespace SMC

/-- Byte strings: contents of Go strings, arrays and slices. -/
abbrev Bytes := List UInt8

/-- A Go `[]byte` value seen through its contents: `vis` are the `len(s)` visible
bytes and `extra` the bytes of the backing array between `len(s)` and `cap(s)`.
Sharing of the backing array is not represented here (see `Verif/Heap.lean`). -/
structure Slice where
  vis : Bytes
  extra : Bytes := []
deriving DecidableEq, Repr, Inhabited

/-- Result of running Go code: a value, or a run-time panic, together with the texts
handed to package `log` so far. The state of half-updated receivers after a panic is not
represented here (see `Verif/Crash/`). -/
inductive Go (α : Type) where
  | ret (log : List Bytes) (val : α)
  | panic (log : List Bytes)
deriving DecidableEq, Repr

namespace Go

/-- Sequencing: logs are concatenated, a panic ends the execution. -/
@[reducible] def bind {α β : Type} (x : Go α) (f : α → Go β) : Go β :=
  match x with
  | .panic l => .panic l
  | .ret l a =>
    match f a with
    | .panic l' => .panic (l ++ l')
    | .ret l' b => .ret (l ++ l') b

instance : Monad Go where
  pure a := .ret [] a
  bind := Go.bind

/-- The execution ended in a run-time panic. -/
def Panics {α : Type} (x : Go α) : Prop := ∃ l, x = .panic l

/-- The value, if there is one. -/
def val? {α : Type} : Go α → Option α
  | .ret _ a => some a
  | .panic _ => none

/-- The log of an execution. -/
def logOf {α : Type} : Go α → List Bytes
  | .ret l _ => l
  | .panic l => l

/-- `log.Println` / `log.Printf` (the time stamp and final newline are left out). -/
def log (msg : Bytes) : Go Unit := .ret [msg] ()

end Go

namespace Slice

/-- `len(s)` -/
def len (s : Slice) : Nat := s.vis.length

/-- `cap(s)` -/
def cap (s : Slice) : Nat := s.vis.length + s.extra.length

/-- `s[i]`: panics unless `i < len(s)`. -/
def idx (s : Slice) (i : Nat) : Go UInt8 :=
  match s.vis[i]? with
  | some b => .ret [] b
  | none => .panic []

/-- `s[a:b]`: panics unless `a <= b <= cap(s)`. -/
def sub (s : Slice) (a b : Nat) : Go Slice :=
  if a ≤ b ∧ b ≤ s.cap then
    .ret [] ⟨((s.vis ++ s.extra).drop a).take (b - a), (s.vis ++ s.extra).drop b⟩
  else .panic []

/-- `s[a:]`: panics unless `a <= len(s)`. -/
def sfrom (s : Slice) (a : Nat) : Go Slice :=
  if a ≤ s.len then .ret [] ⟨s.vis.drop a, s.extra⟩ else .panic []

/-- `s[:b]`: panics unless `b <= cap(s)`. -/
def sto (s : Slice) (b : Nat) : Go Slice := s.sub 0 b

end Slice

/-- `copy(dst, src)`: the new contents of `dst`; `min(len(dst), len(src))` bytes are
overwritten, the rest of `dst` stays. -/
def copyInto (dst src : Bytes) : Bytes := src.take dst.length ++ dst.drop src.length

/-- A zeroed byte array or slice of `n` bytes (`[n]byte{}`, `make([]byte, n)`). -/
def zeros (n : Nat) : Bytes := List.replicate n 0

/-- `binary.BigEndian.Uint16(s)`: `_ = s[1]; uint16(s[1]) | uint16(s[0])<<8` -/
def be16 (s : Slice) : Go UInt16 := do
  let b1 ← s.idx 1
  let b0 ← s.idx 0
  pure (b1.toUInt16 ||| (b0.toUInt16 <<< 8))

/-- `binary.BigEndian.Uint32(s)` -/
def be32 (s : Slice) : Go UInt32 := do
  let b3 ← s.idx 3
  let b2 ← s.idx 2
  let b1 ← s.idx 1
  let b0 ← s.idx 0
  pure (b3.toUInt32 ||| (b2.toUInt32 <<< 8) ||| (b1.toUInt32 <<< 16) ||| (b0.toUInt32 <<< 24))

/-- `binary.BigEndian.Uint64(s)` -/
def be64 (s : Slice) : Go UInt64 := do
  let b7 ← s.idx 7
  let b6 ← s.idx 6
  let b5 ← s.idx 5
  let b4 ← s.idx 4
  let b3 ← s.idx 3
  let b2 ← s.idx 2
  let b1 ← s.idx 1
  let b0 ← s.idx 0
  pure (b7.toUInt64 ||| (b6.toUInt64 <<< 8) ||| (b5.toUInt64 <<< 16) ||| (b4.toUInt64 <<< 24)
    ||| (b3.toUInt64 <<< 32) ||| (b2.toUInt64 <<< 40) ||| (b1.toUInt64 <<< 48) ||| (b0.toUInt64 <<< 56))

end SMC
