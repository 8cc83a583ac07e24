import Verif.Heap
/-!
# Parsing in several goroutines at once

Goroutines share the arrays `shared`. Everyone who parses also has the arrays it has allocated;
nobody else knows them. The array with index `i` of a goroutine is `shared[i]` when there is one,
otherwise the array `i - shared.length` of its own: which addresses `make` returns depends on
nobody else, as addresses cannot be observed.

The goroutines make their steps in any order, one at a time. Steps are those of `HGo`: looking at
bytes, allocating, writing. Other goroutines may write to shared arrays between any two steps.
-/

namespace SMC.Spec

/-- what is parsed, and into which kind of message in the case of CLC -/
inductive Job where
  | llc (buf : Ref)
  | rocev1 (buf : Ref)
  | rocev2 (buf : Ref)
  | clc (v : CLC.Message) (buf : Ref)

/-- a parsed message -/
inductive Parsed where
  | llc (m : LLC.HMsg)
  | roce (m : RoCE.HRoCE)
  | clc (m : CLC.HMessage)

/-- the buffer that is parsed -/
def Job.buf : Job → Ref
  | .llc buf => buf
  | .rocev1 buf => buf
  | .rocev2 buf => buf
  | .clc _ buf => buf

/-- the call -/
def Job.code : Job → HGo Parsed
  | .llc buf => do return .llc (← LLC.parseLLCH buf)
  | .rocev1 buf => do return .roce (← RoCE.parseRoCEv1H buf)
  | .rocev2 buf => do return .roce (← RoCE.parseRoCEv2H buf)
  | .clc v buf => do return .clc (← (CLC.HMessage.mk v {}).parse buf)

/-- A goroutine: the arrays it has allocated, what it has logged, and what it has still to do;
`none` after a panic. -/
structure Task where
  own : Heap := []
  log : List Bytes := []
  todo : Option (HGo Parsed)

/-- the outcome of a computation without writes -/
def Task.after {β : Type} (t : Task) (x : Go β) (k : β → HGo Parsed) : Task :=
  match x with
  | .panic l => { t with log := t.log ++ l, todo := none }
  | .ret l b => { t with log := t.log ++ l, todo := some (k b) }

/-- One step of a goroutine and the shared arrays then; `none` if there is nothing left to do. -/
def Task.step (shared : Heap) (t : Task) : Option (Heap × Task) :=
  match t.todo with
  | none => none
  | some (.done _) => none
  | some (.comp x k) => some (shared, t.after x k)
  | some (.look r f k) => some (shared, t.after (f (Heap.slice (shared ++ t.own) r)) k)
  | some (.alloc n k) =>
    some (shared, { t with own := t.own ++ [zeros n], todo := some (k ⟨shared.length + t.own.length, 0, n, n⟩) })
  | some (.fill dst src k) =>
    let mem := Heap.copy (shared ++ t.own) dst src
    some (mem.take shared.length, { t with own := mem.drop shared.length, todo := some k })

/-- all goroutines that parse, and the arrays they share -/
structure World where
  shared : Heap
  tasks : List Task

/-- What happens next: a goroutine makes a step, or somebody else writes to a shared array. -/
inductive Move where
  | step (i : Nat)
  | write (arr i : Nat) (b : UInt8)
deriving DecidableEq

/-- the world afterwards -/
def World.move (w : World) : Move → World
  | .write arr i b => { w with shared := w.shared.set arr i b }
  | .step i =>
    match w.tasks[i]? with
    | none => w
    | some t =>
      match t.step w.shared with
      | none => w
      | some (shared, t') => { shared := shared, tasks := w.tasks.set i t' }

/-- the world before the first step -/
def World.start (h : Heap) (jobs : List Job) : World :=
  { shared := h, tasks := jobs.map fun j => { todo := some j.code } }

/-- the world after some moves -/
def World.after (w : World) (ms : List Move) : World := ms.foldl World.move w

/-- nobody writes to a buffer that is parsed -/
def Apart (jobs : List Job) (ms : List Move) : Prop :=
  ∀ arr i b, Move.write arr i b ∈ ms → ∀ j ∈ jobs, j.buf.arr ≠ arr

/-- the shared arrays with nothing but the writes of others -/
def written (h : Heap) (ms : List Move) : Heap :=
  ms.foldl (fun h m => match m with
    | .write arr i b => h.set arr i b
    | .step _ => h) h

/-- a goroutine has returned `r` -/
def Task.Returned (t : Task) (r : Parsed) : Prop := t.todo = some (.done r)

/-- a goroutine has panicked -/
def Task.Panicked (t : Task) : Prop := t.todo = none

/-- the number of steps that a computation makes when it is alone -/
def stepsOf {α : Type} (x : HGo α) (h : Heap) : Nat :=
  match x with
  | .done _ => 0
  | .comp x k =>
    match x with
    | .panic _ => 1
    | .ret _ b => stepsOf (k b) h + 1
  | .look r f k =>
    match f (h.slice r) with
    | .panic _ => 1
    | .ret _ b => stepsOf (k b) h + 1
  | .alloc n k => stepsOf (k ⟨h.length, 0, n, n⟩) (h ++ [zeros n]) + 1
  | .fill dst src k => stepsOf k (h.copy dst src) + 1

/-- the arrays that the next step of a computation looks at -/
def nextReads : HGo Parsed → List Nat
  | .look r _ _ => [r.arr]
  | .fill _ src _ => [src.arr]
  | _ => []

/-- the arrays that the next step of a computation writes to -/
def nextWrites : HGo Parsed → List Nat
  | .fill dst _ _ => [dst.arr]
  | _ => []

/-- Two goroutines are about to access the same shared array, and one of them writes to it: a data
race. -/
def World.Race (w : World) : Prop :=
  ∃ (i j : Nat) (s t : Task) (x y : HGo Parsed) (a : Nat), i ≠ j ∧ w.tasks[i]? = some s ∧ w.tasks[j]? = some t ∧
    s.todo = some x ∧ t.todo = some y ∧ a < w.shared.length ∧ a ∈ nextWrites x ∧ a ∈ nextReads y ++ nextWrites y

end SMC.Spec
