import Verif.Http.Server
/-!
# Model of pkg/http/http.go: concurrent calls of StartServer

`startServer` (`Verif/Http/Server.lean`) is one call from its beginning to its end. Here the
statements of any number of calls are interleaved.

Simplifications. Memory is sequentially consistent, although the calls write to the listener of the
server without synchronisation (`C105_race`). Registering a pattern is one step, because
http.ServeMux does it with its lock held; other patterns never conflict with "/". A listener is the
number of its creation.
-/

namespace SMC.Http

/-- Where a goroutine is; `l` is the variable `listener`. -/
inductive StartPC where
  /-- not in `StartServer` -/
  | idle
  /-- pkg/http/http.go:43, about to set the listener of the server -/
  | set (l : Nat)
  /-- pkg/http/http.go:46, about to register the handler -/
  | register (l : Nat)
  /-- pkg/http/http.go:47, about to serve -/
  | serve (l : Nat)
deriving DecidableEq, Repr

/-- The package-level server, the mux and the listeners served (`World`), the number of listeners
ever opened, whether the process has ended, and the goroutines. -/
structure StartState where
  world : World := {}
  opened : Nat := 0
  exited : Bool := false
  pcs : List StartPC
deriving DecidableEq, Repr

/-- The start of the program, with `n` goroutines. -/
def StartState.init (n : Nat) : StartState := { pcs := List.replicate n .idle }

/-- Goroutine `t` calls `StartServer`, in which net.Listen succeeds or not; or it takes a step. -/
inductive StartAct where
  | call (t : Nat) (listen : Bool)
  | run (t : Nat)
deriving DecidableEq, Repr

/-- How calls end. -/
inductive StartEvent where
  | returned (t : Nat)
  | panicked (t : Nat)
  | exited (t : Nat)
deriving DecidableEq, Repr

/-- Goroutine `t` goes on at `pc`. -/
def StartState.goto (s : StartState) (t : Nat) (pc : StartPC) : StartState := { s with pcs := s.pcs.set t pc }

/-- pkg/http/http.go:37-50 `StartServer`, one statement after the other; a panic ends the call and
reaches its caller. -/
def StartState.step (s : StartState) : StartAct → Option (StartState × List StartEvent)
  | .call t listen =>
    if s.exited then none
    else match s.pcs[t]? with
      | some .idle =>
        -- pkg/http/http.go:39-42
        if listen then some ({ s with opened := s.opened + 1 }.goto t (.set s.opened), [])
        else some ({ s with exited := true }, [.exited t])
      | _ => none
  | .run t =>
    if s.exited then none
    else match s.pcs[t]? with
      | some (.set l) => some ({ s with world := { s.world with listener := some l } }.goto t (.register l), [])
      | some (.register l) =>
        if go! "/" ∈ s.world.patterns then some (s.goto t .idle, [.panicked t])
        else some ({ s with world := { s.world with patterns := (go! "/") :: s.world.patterns } }.goto t (.serve l), [])
      | some (.serve l) => some ({ s with world := { s.world with served := l :: s.world.served } }.goto t .idle, [.returned t])
      | _ => none

/-- Steps one after the other. -/
def StartState.run (s : StartState) : List StartAct → Option (StartState × List StartEvent)
  | [] => some (s, [])
  | a :: as => do
    let (s', e) ← s.step a
    let (s'', es) ← s'.run as
    return (s'', e ++ es)

end SMC.Http
