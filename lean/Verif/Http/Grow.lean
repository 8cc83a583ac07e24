import Verif.Http.Buffer
/-!
# Model of pkg/http/buffer.go: how the memory of the page grows

In `Http/Buffer.lean` new arrays have any capacity. Here they have the one that `bytes.Buffer` asks for.
-/

namespace SMC.Http

/-- pkg/http/buffer.go:18: bytes.Buffer.grow and bytes.growSlice (Go 1.23, with read offset 0): the capacity of the new array if
there is no room for `n` more bytes. The first array has 64 bytes (`smallBufferSize`) if that is enough; others get at least
twice the old capacity, and `size` rounds up to what the allocator has. The branch that moves the bytes within the array
(`n <= c/2-m`) is left out: without a read offset there is room in the array then. -/
def State.newCap (size : Nat → Nat) (s : State) (n : Nat) : Nat :=
  if s.arr = none ∧ n ≤ 64 then 64 else size (max (s.len + n) (2 * s.cap))

/-- The step with the spare capacity that bytes.Buffer leaves; everything else has none. -/
def Act.exact (size : Nat → Nat) (s : State) : Act → Act
  | .call t op => .call t op
  | .run t _ => .run t (match s.pcs[t]? with
    | some (.wGrow p) => s.newCap size p.length - (s.len + p.length)
    | _ => 0)

/-- How many bytes pkg/http/buffer.go:18 moves to a new array in this step, and how many it adds. -/
def Act.cost (s : State) : Act → Nat × Nat
  | .call _ _ => (0, 0)
  | .run t _ =>
    match s.pcs[t]? with
    | some (.wGrow p) => (if s.len + p.length ≤ s.cap then 0 else s.len, p.length)
    | _ => (0, 0)

/-- Steps one after the other, how many bytes they move and how many they add. -/
def exactRun (size : Nat → Nat) (s : State) : List Act → Option (State × Nat × Nat)
  | [] => some (s, 0, 0)
  | a :: as => do
    let (s', _) ← step s (a.exact size s)
    let (s'', moved, added) ← exactRun size s' as
    return (s'', (a.cost s).1 + moved, (a.cost s).2 + added)

end SMC.Http
