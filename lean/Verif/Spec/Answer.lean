import Verif.Spec.HttpServer
/-!
# What one goroutine of the server does, from start to end
-/

namespace SMC.Http

/-- A goroutine that calls the buffer, or that handles a request: its query, the copy of the buffer it gets, what it
sends of the copy and whether it resets the buffer. -/
inductive Job where
  | call (op : Op) (v : Val)
  | request (q x w : Bytes) (flush : Bool)
deriving DecidableEq, Repr

/-- An operation returns a value of its kind; a request sends a beginning of the copy and resets exactly if the first
value of the parameter flush is "true". -/
def Job.ok : Job → Prop
  | .call (.write p) v => v = .wrote p.length
  | .call (.fail _) v => v = .failed
  | .call .copy v => ∃ x, v = .copied x
  | .call .reset v => v = .wasReset
  | .request q x w flush => w <+: x ∧ (flush = true ↔ FirstValue q (go! "flush") (go! "true"))

/-- How it starts. -/
def Job.start (t : Nat) : Job → SysAct
  | .call op _ => .call t op
  | .request q .. => .request t q

/-- What can be observed of it, in this order. -/
def Job.events (t : Nat) : Job → List SysEvent
  | .call op v => [.buf (.call t op), .buf (.ret t v)]
  | .request _ x w flush =>
    [.buf (.call t .copy), .buf (.ret t (.copied x)), .response t w] ++
      if flush then [.buf (.call t .reset), .buf (.ret t .wasReset)] else []

/-- The steps it takes: the start, one for every byte copied, and a few others. -/
def Job.cost : Job → Nat
  | .call (.write p) _ => p.length + 6
  | .call .copy (.copied x) => x.length + 7
  | .call .. => 5
  | .request _ x _ flush => x.length + 9 + if flush then 4 else 0

/-- Who takes a step. -/
def SysAct.actor : SysAct → Nat
  | .call t _ | .run t _ | .request t _ | .serve t _ | .check t => t

/-- Steps that start something. -/
def SysAct.starts : SysAct → Bool
  | .call .. | .request .. => true
  | _ => false

/-- Steps in which a client takes bytes. -/
def SysAct.sends : SysAct → Bool
  | .serve .. => true
  | _ => false

/-- Whose event it is. -/
def SysEvent.actor : SysEvent → Nat
  | .buf (.call t _) | .buf (.ret t _) | .response t _ => t

/-- The steps of goroutine `t`. -/
def stepsOf (t : Nat) (as : List SysAct) : List SysAct := as.filter (·.actor = t)

/-- What goroutine `t` starts. -/
def startsOf (t : Nat) (as : List SysAct) : List SysAct := (stepsOf t as).filter (·.starts)

/-- What can be observed of goroutine `t`. -/
def eventsOf (t : Nat) (es : List SysEvent) : List SysEvent := es.filter (·.actor = t)

/-- How many requests there are. -/
def requests (t : Nat) (as : List SysAct) : Nat :=
  as.countP fun
    | .request u _ => u = t
    | _ => false

/-- How many responses there are. -/
def responses (t : Nat) (es : List SysEvent) : Nat :=
  es.countP fun
    | .response u _ => u = t
    | _ => false

/-- Goroutine `t` has nothing left to do. -/
def Sys.finished (y : Sys) (t : Nat) : Prop := y.hs[t]? = some .free ∧ y.buf.pcs[t]? = some .idle

/-- Goroutine `t` is sending a response. -/
def Sys.sending (y : Sys) (t : Nat) : Prop := ∃ q d n, y.hs[t]? = some (.serving q d n)

/-- What a handler has to do besides the method it is in. -/
def Handler.todo : Handler → Nat
  | .free | .resetting => 0
  | .copying _ | .serving .. => 6
  | .checking _ => 5

/-- The number of steps all goroutines together can take if nothing more is started, at most. -/
def Sys.work (y : Sys) : Nat := y.buf.work + (y.hs.map Handler.todo).sum

end SMC.Http
