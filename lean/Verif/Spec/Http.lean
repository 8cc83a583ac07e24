import Verif.Http.Buffer
/-!
# Specification of the buffer: linearizability

Nothing here depends on how the buffer works, only on its operations and the events that can
be observed.
-/

namespace SMC.Http

/-- The payload of an operation. -/
def Op.payload : Op → Bytes
  | .write p => p
  | _ => []

/-- The bytes written since the last reset. -/
def since (ops : List Op) : Bytes :=
  ((ops.reverse.takeWhile (· ≠ .reset)).reverse).flatMap Op.payload

/-- What an operation has to return if it comes behind `before`. -/
def answer (before : List Op) : Op → Val
  | .write p => .wrote p.length
  | .fail _ => .failed
  | .copy => .copied (since before)
  | .reset => .wasReset

/-- Observable events with the points at which operations take effect in between. -/
inductive Point where
  | seen (e : Event)
  | effect (t : Nat) (op : Op) (v : Val)
deriving DecidableEq, Repr

/-- The observable events alone. -/
def seen (h : List Point) : List Event :=
  h.filterMap fun | .seen e => some e | .effect .. => none

/-- The effects alone, in their order. -/
def effects (h : List Point) : List (Op × Val) :=
  h.filterMap fun | .seen _ => none | .effect _ op v => some (op, v)

/-- One goroutine: between operations, in an operation that has not taken effect, in one that
has. -/
inductive Phase where
  | idle
  | called (op : Op)
  | answered (v : Val)
deriving DecidableEq, Repr

/-- Goroutine `t` at a point: it is called, then takes effect once, then returns the value it
got. Points of other goroutines do not matter. -/
def Phase.next (t : Nat) (ph : Phase) : Point → Option Phase
  | .seen (.call u op) => if u = t then (if ph = .idle then some (.called op) else none) else some ph
  | .effect u op v => if u = t then (if ph = .called op then some (.answered v) else none) else some ph
  | .seen (.ret u v) => if u = t then (if ph = .answered v then some .idle else none) else some ph

/-- The phase goroutine `t` is in after `h`, if `h` is in order. -/
def phase (t : Nat) (h : List Point) : Option Phase := h.foldlM (Phase.next t) .idle

/-- Every effect has the value it has to have behind those before it. -/
def Legal (es : List (Op × Val)) : Prop :=
  ∀ i op v, es[i]? = some (op, v) → v = answer ((es.take i).map (·.1)) op

/-- A history of observable events is linearizable: there is a point between the call and the
return of every completed operation (and at most one for those not completed) such that the
operations return what they would if executed at these points, one at a time. -/
def Linearizable (h : List Event) : Prop :=
  ∃ pts, seen pts = h ∧ (∀ t, (phase t pts).isSome) ∧ Legal (effects pts)

/-- The call of a `Write` that panics, or the panic reaching the caller. -/
def Event.failing : Event → Bool
  | .call _ (.fail _) | .ret _ .failed => true
  | _ => false

/-- The history without the `Write`s that panic. -/
def others (h : List Event) : List Event := h.filter fun e => !e.failing

/-- Between `Lock` and `Unlock`: pkg/http/buffer.go:18, :25-28 and :35. -/
def PC.crit : PC → Bool
  | .wGrow _ | .wCopy .. | .wDone _ | .fGrow _ | .fDone _ | .cBytes | .cMake .. | .cCopy .. | .cDone .. | .rSet | .rDone => true
  | _ => false

/-- States that can be reached by `n` goroutines from the zero buffer. -/
def Reachable (n : Nat) (s : State) : Prop := ∃ as es, run (.init n) as = some (s, es)

/-! ## Progress -/

/-- Bytes a goroutine is still going to add to the buffer. -/
def PC.pending : PC → Nat
  | .wWait p | .wGrow p => p.length
  | _ => 0

/-- Steps to the return if the buffer holds at most `b` bytes. -/
def PC.todo (b : Nat) : PC → Nat
  | .idle => 0
  | .wWait p => p.length + 5
  | .wGrow p => p.length + 4
  | .wCopy p _ i => p.length - i + 3
  | .wDone _ => 2
  | .fWait _ => 4
  | .fGrow _ => 3
  | .fDone _ => 2
  | .cWait => b + 6
  | .cBytes => b + 5
  | .cMake _ n => n + 4
  | .cCopy _ n _ i => n - i + 3
  | .cDone .. => 2
  | .rWait => 4
  | .rSet => 3
  | .rDone => 2
  | .out _ => 1

/-- The largest length the buffer can get without further calls. -/
def State.bound (s : State) : Nat := s.len + (s.pcs.map PC.pending).sum

/-- The number of steps all goroutines together can take without further calls, at most. -/
def State.work (s : State) : Nat := (s.pcs.map (PC.todo s.bound)).sum

/-- A list of steps without calls. -/
def NoCalls (as : List Act) : Prop := ∀ a ∈ as, ∃ t spare, a = .run t spare

end SMC.Http
