import Verif.Http.Buffer
/-!
# Model of pkg/http/buffer.go with the memory of the callers

The machine of `Http/Buffer.lean` gets the bytes of `p` when `Write(p)` is called. Here `p` is a slice of an array in the same
heap as the arrays of the buffer, `Write` reads each byte when it copies it, and callers write to their memory at any time, also
to slices that a `Write` is reading and to the copies they got. Simplification: a byte that is read while it is written is the
old or the new one.
-/

namespace SMC.Http

/-- A slice of a caller: `len` bytes of array `arr`, from `off` on. -/
structure Part where
  arr : Nat
  off : Nat
  len : Nat
deriving DecidableEq, Repr

/-- The bytes of a slice. -/
def State.part (s : State) (r : Part) : Bytes := ((s.array r.arr).drop r.off).take r.len

/-- The machine, the arrays that belong to callers, and the argument of the `Write` each goroutine is in. -/
structure Lent where
  s : State
  owned : List Nat := []
  args : List (Option Part)
deriving DecidableEq, Repr

/-- The zero `Buffer` and `n` goroutines, nobody has memory. -/
def Lent.init (n : Nat) : Lent := { s := .init n, args := List.replicate n none }

/-- What the scheduler and the callers decide. -/
inductive LentAct where
  /-- a caller allocates an array -/
  | alloc (bs : Bytes)
  /-- a caller writes to its memory -/
  | poke (a i : Nat) (b : UInt8)
  /-- goroutine `t` calls `Write`, which panics if `fails` -/
  | write (t : Nat) (fails : Bool) (r : Part)
  | copy (t : Nat)
  | reset (t : Nat)
  | run (t : Nat) (spare : Nat)
deriving DecidableEq, Repr

/-- A goroutine in pkg/http/buffer.go:15-19 `Write` whose argument is now `p`: the bytes that are not copied yet are those of
`p`. -/
def PC.look (p : Bytes) : PC → PC
  | .wWait _ => .wWait p
  | .wGrow _ => .wGrow p
  | .wCopy q m i => .wCopy (q.take i ++ p.drop i) m i
  | pc => pc

/-- Goroutine `t` sees its argument as it is now. -/
def Lent.look (l : Lent) (t : Nat) : State :=
  match l.s.pcs[t]?, l.args[t]? with
  | some pc, some (some r) => l.s.goto t (pc.look (l.s.part r))
  | _, _ => l.s

/-- Who has what behind a step of `t`: `CopyBuffer` (pkg/http/buffer.go:28) gives its array to the caller, `Write` gives its
argument back. -/
def Lent.pass (l : Lent) (t : Nat) (s : State) : Lent :=
  match l.s.pcs[t]? with
  | some (.out (.copy d _)) => { s, owned := d :: l.owned, args := l.args.set t none }
  | some (.out _) => { s, owned := l.owned, args := l.args.set t none }
  | _ => { l with s }

/-- One step and what can be observed of it; `none` if it is not possible. -/
def Lent.step (l : Lent) : LentAct → Option (Lent × List Event)
  | .alloc bs =>
    return ({ l with s := { l.s with heap := l.s.heap ++ [bs] }, owned := l.s.heap.length :: l.owned }, [])
  | .poke a i b => do
    guard (a ∈ l.owned)
    let s ← l.s.poke a i b
    return ({ l with s }, [])
  | .write t fails r => do
    guard (r.arr ∈ l.owned ∧ r.off + r.len ≤ (l.s.array r.arr).length)
    let p := l.s.part r
    let (s, es) ← Http.step l.s (.call t (if fails then .fail p else .write p))
    return ({ l with s, args := l.args.set t (some r) }, es)
  | .copy t => do
    let (s, es) ← Http.step l.s (.call t .copy)
    return ({ l with s }, es)
  | .reset t => do
    let (s, es) ← Http.step l.s (.call t .reset)
    return ({ l with s }, es)
  | .run t spare => do
    let (s, es) ← Http.step (l.look t) (.run t spare)
    return (l.pass t s, es)

/-- Steps one after the other. -/
def Lent.run (l : Lent) : List LentAct → Option (Lent × List Event)
  | [] => some (l, [])
  | a :: as => do
    let (l', e) ← l.step a
    let (l'', es) ← l'.run as
    return (l'', e ++ es)

end SMC.Http
