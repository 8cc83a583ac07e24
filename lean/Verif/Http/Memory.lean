import Verif.Http.Server
/-!
# Model of pkg/http: accesses to memory

What each step of the machine does to memory and to the mutex, in terms of the Go memory model.
`C86` shows that the lists are complete: a step changes nothing that it is not said to write, and
does not depend on anything that it is not said to read.
-/

namespace SMC.Http

/-- Memory that goroutines can share. -/
inductive Loc where
  /-- the fields of the `bytes.Buffer` in pkg/http/buffer.go:11 -/
  | header
  /-- byte `i` of array `a` -/
  | elem (a i : Nat)
deriving DecidableEq, Repr

/-- What a goroutine does to memory and the mutex. -/
inductive Action where
  /-- `b.lock.Lock()` -/
  | acquire
  /-- `b.lock.Unlock()` -/
  | release
  | read (l : Loc)
  | write (l : Loc)
deriving DecidableEq, Repr

/-- The first `n` bytes of array `a`. -/
def elems (a n : Nat) : List Loc := (List.range n).map (.elem a)

/-- The step of a goroutine at this place. Setting new arrays to zero counts as writing.
Simplification: where the code reads a field once, reading it again at every byte is listed too. -/
def PC.actions (s : State) (spare : Nat) : PC → List Action
  | .idle => []
  -- pkg/http/buffer.go:16, :23, :33
  | .wWait _ | .fWait _ | .cWait | .rWait => [.acquire]
  -- pkg/http/buffer.go:17, :24, :34
  | .wDone _ | .fDone _ | .cDone .. | .rDone => [.release]
  -- pkg/http/buffer.go:18
  | .wGrow p =>
    [.read .header, .write .header] ++
      if s.len + p.length ≤ s.cap then []
      else (match s.arr with
        | none => []
        | some a => (elems a s.len).map .read) ++
        (elems s.heap.length (s.len + (p.length + spare))).map .write
  | .wCopy p m i =>
    if i < p.length then
      .read .header :: match s.arr with
        | none => []
        | some a => [.write (.elem a (m + i))]
    else []
  -- pkg/http/buffer.go:18, panicking; bytes.Buffer.Write sets the field lastRead before
  | .fGrow _ => [.read .header, .write .header]
  -- pkg/http/buffer.go:25
  | .cBytes => [.read .header]
  -- pkg/http/buffer.go:26
  | .cMake _ n => (elems s.heap.length n).map .write
  -- pkg/http/buffer.go:27
  | .cCopy src n dst i =>
    if i < n then
      match src with
      | none => []
      | some a => [.read (.elem a i), .write (.elem dst i)]
    else []
  -- pkg/http/buffer.go:35
  | .rSet => [.write .header]
  -- the caller looks at the copy
  | .out (.copy dst n) => (elems dst n).map .read
  | .out _ => []

/-- A step of the server. Sending (pkg/http/http.go:26) reads the copy. -/
def Sys.actions (y : Sys) : SysAct → List (Nat × Action)
  | .run t spare =>
    match y.buf.pcs[t]? with
    | some pc => (pc.actions y.buf spare).map (t, ·)
    | none => []
  | .serve t _ =>
    match y.hs[t]? with
    | some (.serving _ d n) => ((elems d n).map .read).map (t, ·)
    | _ => []
  | .call .. | .request .. | .check _ => []

/-- What all goroutines do in an execution, in order. -/
def Sys.trace (y : Sys) : List SysAct → List (Nat × Action)
  | [] => []
  | a :: as =>
    match y.step a with
    | none => []
    | some (y', _) => y.actions a ++ y'.trace as

end SMC.Http
