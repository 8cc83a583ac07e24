import Verif.Spec.Http
import Verif.Spec.Query
import Verif.Http.Server
/-!
# Specification of requests
-/

namespace SMC.Http

/-- A history of the whole server: points of the buffer and responses. -/
inductive SysPoint where
  | pt (p : Point)
  | response (t : Nat) (body : Bytes)
deriving DecidableEq, Repr

/-- What can be observed. -/
def observed (h : List SysPoint) : List SysEvent :=
  h.filterMap fun
    | .pt (.seen e) => some (.buf e)
    | .pt (.effect ..) => none
    | .response t b => some (.response t b)

/-- The points of the buffer alone. -/
def points (h : List SysPoint) : List Point :=
  h.filterMap fun
    | .pt p => some p
    | .response .. => none

/-- The operations that took effect in a part of a history. -/
def opsIn (h : List SysPoint) : List Op := (effects (points h)).map (·.1)

/-- The contents of the buffer after `h`. -/
def contentsAfter (h : List SysPoint) : Bytes := since (opsIn h)

/-- Goroutine `t` neither changes the buffer nor sends a response at this point. -/
def SysPoint.apart (t : Nat) : SysPoint → Bool
  | .pt (.effect u ..) => u ≠ t
  | .pt (.seen _) => true
  | .response u _ => u ≠ t

/-- `h` is a history of a linearizable buffer and responses. -/
def SysLinearizable (h : List SysPoint) : Prop :=
  (∀ t, (phase t (points h)).isSome) ∧ Legal (effects (points h))

/-- The schedule contains no direct calls of `Reset`. -/
def OnlyRequestsReset (as : List SysAct) : Prop := ∀ t, .call t .reset ∉ as

/-- For every reset, the same goroutine sent the whole copy that it made before, and nothing was
written between the copy and the reset. -/
def Undisturbed (h : List SysPoint) : Prop :=
  ∀ a b t v, h = a ++ .pt (.effect t .reset v) :: b → ∀ c x d w e,
    a = c ++ .pt (.effect t .copy (.copied x)) :: (d ++ .response t w :: e) →
    (∀ p ∈ d ++ e, p.apart t) → w = x ∧ ∀ p, .write p ∈ opsIn (d ++ e) → p = []

/-- The states `StartServer` can be called in: at the start of the program and after calls of it
that returned. -/
inductive StartedWorld : World → Prop where
  | init : StartedWorld {}
  | call {w w' listen} : StartedWorld w → startServer w listen = .returned w' → StartedWorld w'

end SMC.Http
