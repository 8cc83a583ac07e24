import Verif.Go
/-!
# Model of pkg/http/buffer.go

Any number of goroutines call the methods of one `Buffer`. A step of the machine is one
step of one goroutine: taking the lock, one access to the shared memory, copying one byte,
releasing the lock, returning. Byte arrays live in a heap, so that it is visible which
slices share memory.

Simplifications. The Go memory model is taken to be sequentially consistent, which it is for
programs without data races; `C86` shows that there are none. `Write(p)` gets the bytes of `p` when it is
called; `Http/Lent.lean` has the memory of the callers. Whether a `Write` panics because the buffer cannot grow
(`bytes.ErrTooLarge`) is decided when it is called, and it can happen to every `Write`, also to
one that needs no room; this only adds executions.
-/

namespace SMC.Http

/-- A method call on the buffer: pkg/http/buffer.go:15 `Write`, :22 `CopyBuffer`,
:32 `Reset` -/
inductive Op where
  | write (p : Bytes)
  /-- a `Write(p)` in which bytes.Buffer.Write panics -/
  | fail (p : Bytes)
  | copy
  | reset
deriving DecidableEq, Repr

/-- What a caller sees of a returned value, or that the call panicked. Every `Write` also returns a nil error
(bytes.Buffer.Write never returns another). -/
inductive Val where
  | wrote (n : Nat)
  | failed
  | copied (bs : Bytes)
  | wasReset
deriving DecidableEq, Repr

/-- What can be observed of goroutine `t` from outside. -/
inductive Event where
  | call (t : Nat) (op : Op)
  | ret (t : Nat) (v : Val)
deriving DecidableEq, Repr

/-- A returned value inside the machine: a copy is a `*bytes.Buffer` whose slice is the
first `n` bytes of the array `dst`. -/
inductive Res where
  | wrote (n : Nat)
  | failed
  | copy (dst n : Nat)
  | wasReset
deriving DecidableEq, Repr

/-- Where a goroutine is. -/
inductive PC where
  /-- not inside a method of the buffer -/
  | idle
  /-- pkg/http/buffer.go:16 -/
  | wWait (p : Bytes)
  /-- pkg/http/buffer.go:18, making room in bytes.Buffer.Write -/
  | wGrow (p : Bytes)
  /-- pkg/http/buffer.go:18, `copy(b.buf[m:], p)` in bytes.Buffer.Write, byte `i` is next -/
  | wCopy (p : Bytes) (m i : Nat)
  /-- pkg/http/buffer.go:17, deferred unlock -/
  | wDone (p : Bytes)
  /-- pkg/http/buffer.go:16, in a `Write` that is going to panic -/
  | fWait (p : Bytes)
  /-- pkg/http/buffer.go:18, bytes.Buffer.grow looks at the buffer and panics -/
  | fGrow (p : Bytes)
  /-- pkg/http/buffer.go:17, deferred unlock while the goroutine panics -/
  | fDone (p : Bytes)
  /-- pkg/http/buffer.go:23 -/
  | cWait
  /-- pkg/http/buffer.go:25 -/
  | cBytes
  /-- pkg/http/buffer.go:26, `oldBuf` is the first `n` bytes of array `src` (or nil) -/
  | cMake (src : Option Nat) (n : Nat)
  /-- pkg/http/buffer.go:27, `newBuf` is array `dst`, byte `i` is next -/
  | cCopy (src : Option Nat) (n dst i : Nat)
  /-- pkg/http/buffer.go:24, deferred unlock -/
  | cDone (dst n : Nat)
  /-- pkg/http/buffer.go:33 -/
  | rWait
  /-- pkg/http/buffer.go:35 -/
  | rSet
  /-- pkg/http/buffer.go:34, deferred unlock -/
  | rDone
  /-- unlocked, about to return or to go on panicking in the caller -/
  | out (r : Res)
deriving DecidableEq, Repr

/-- pkg/http/buffer.go:9-12 `Buffer`, the heap and the goroutines. `bytes.Buffer` is its
slice `buf`: nil or the first `len` bytes of array `arr`. Its read offset stays 0, because
nothing reads from this buffer. -/
structure State where
  locked : Bool := false
  arr : Option Nat := none
  len : Nat := 0
  heap : List Bytes := []
  pcs : List PC
deriving DecidableEq, Repr

/-- The zero `Buffer` and `n` goroutines. -/
def State.init (n : Nat) : State := { pcs := List.replicate n .idle }

/-- What the scheduler and the environment decide: goroutine `t` calls a method, or takes its
next step; `spare` is the spare capacity of an array allocated in that step. -/
inductive Act where
  | call (t : Nat) (op : Op)
  | run (t : Nat) (spare : Nat)
deriving DecidableEq, Repr

/-- Contents of array `a`. -/
def State.array (s : State) (a : Nat) : Bytes := s.heap[a]?.getD []

/-- `cap(b.buffer.buf)` -/
def State.cap (s : State) : Nat :=
  match s.arr with
  | none => 0
  | some a => (s.array a).length

/-- `b.buffer.Bytes()`: the bytes in the buffer. -/
def State.contents (s : State) : Bytes :=
  match s.arr with
  | none => []
  | some a => (s.array a).take s.len

/-- Entry point of a method. -/
def Op.entry : Op → PC
  | .write p => .wWait p
  | .fail p => .fWait p
  | .copy => .cWait
  | .reset => .rWait

/-- `arrays[a][i] = b`; blocks if there is no such byte (Go would panic). -/
def State.poke (s : State) (a i : Nat) (b : UInt8) : Option State :=
  if i < (s.array a).length then some { s with heap := s.heap.modify a (·.set i b) } else none

/-- Goroutine `t` goes on at `pc`. -/
def State.goto (s : State) (t : Nat) (pc : PC) : State := { s with pcs := s.pcs.set t pc }

/-- `b.lock.Lock()`: waits while the lock is taken. -/
def State.lock (s : State) : Option State :=
  if s.locked then none else some { s with locked := true }

/-- `b.lock.Unlock()`: a fatal error (no step) if the lock is not taken. -/
def State.unlock (s : State) : Option State :=
  if s.locked then some { s with locked := false } else none

/-- bytes.Buffer.tryGrowByReslice and bytes.Buffer.grow (Go 1.23, with read offset 0): room
for `n` bytes behind the `len` bytes of the buffer, in the same array if it is large enough,
otherwise in a new one. Simplification: moving the old bytes to the new array is one step. -/
def State.grow (s : State) (n spare : Nat) : State :=
  if s.len + n ≤ s.cap then { s with len := s.len + n }
  else { s with
    heap := s.heap ++ [s.contents ++ zeros (n + spare)],
    arr := some s.heap.length,
    len := s.len + n }

/-- The value a caller sees. -/
def State.value (s : State) : Res → Val
  | .wrote n => .wrote n
  | .failed => .failed
  | .copy dst n => .copied ((s.array dst).take n)
  | .wasReset => .wasReset

/-- The next step of goroutine `t`, which is at `pc`. -/
def State.next (s : State) (t spare : Nat) : PC → Option (State × List Event)
  | .idle => none
  -- pkg/http/buffer.go:15-19 Write
  | .wWait p => do
    let s ← s.lock
    return (s.goto t (.wGrow p), [])
  | .wGrow p => return ((s.grow p.length spare).goto t (.wCopy p s.len 0), [])
  | .wCopy p m i =>
    match p[i]? with
    | none => return (s.goto t (.wDone p), [])
    | some b => do
      let a ← s.arr
      let s ← s.poke a (m + i) b
      return (s.goto t (.wCopy p m (i + 1)), [])
  | .wDone p => do
    let s ← s.unlock
    return (s.goto t (.out (.wrote p.length)), [])
  -- pkg/http/buffer.go:15-19 Write, panicking
  | .fWait p => do
    let s ← s.lock
    return (s.goto t (.fGrow p), [])
  | .fGrow p => return (s.goto t (.fDone p), [])
  | .fDone _ => do
    let s ← s.unlock
    return (s.goto t (.out .failed), [])
  -- pkg/http/buffer.go:22-29 CopyBuffer
  | .cWait => do
    let s ← s.lock
    return (s.goto t .cBytes, [])
  | .cBytes => return (s.goto t (.cMake s.arr s.len), [])
  | .cMake src n =>
    return ({ s with heap := s.heap ++ [zeros n] }.goto t (.cCopy src n s.heap.length 0), [])
  | .cCopy src n dst i =>
    if i < n then do
      let a ← src
      let b ← (s.array a)[i]?
      let s ← s.poke dst i b
      return (s.goto t (.cCopy src n dst (i + 1)), [])
    else return (s.goto t (.cDone dst n), [])
  | .cDone dst n => do
    let s ← s.unlock
    return (s.goto t (.out (.copy dst n)), [])
  -- pkg/http/buffer.go:32-36 Reset
  | .rWait => do
    let s ← s.lock
    return (s.goto t .rSet, [])
  | .rSet => return ({ s with arr := none, len := 0 }.goto t .rDone, [])
  | .rDone => do
    let s ← s.unlock
    return (s.goto t (.out .wasReset), [])
  -- return
  | .out r => return (s.goto t .idle, [.ret t (s.value r)])

/-- One step of the machine and what can be observed of it; `none` if it is not possible. -/
def step (s : State) : Act → Option (State × List Event)
  | .call t op =>
    if s.pcs[t]? = some .idle then some (s.goto t op.entry, [.call t op]) else none
  | .run t spare =>
    match s.pcs[t]? with
    | none => none
    | some pc => s.next t spare pc

/-- Steps one after the other. -/
def run (s : State) : List Act → Option (State × List Event)
  | [] => some (s, [])
  | a :: as => do
    let (s', e) ← step s a
    let (s'', es) ← run s' as
    return (s'', e ++ es)

end SMC.Http
