import Verif.Spec.Socket
/-!
# Specification of what the calls work on
-/

namespace SMC.Socket

/-- the descriptor a call works on -/
def Call.on : Call → Option Nat
  | .socket _ => none
  | .connect fd _ | .bind fd _ | .listen fd _ | .newFile fd | .fileConn fd | .fileListener fd | .close fd => some fd

/-- every finalizer that runs finds its descriptor number not in use -/
def Quiet (s : Proc) : List Act → Prop
  | [] => True
  | a :: as =>
    (∀ i fd, a = .finalize i → s.files[i]? = some fd → s.table fd = none) ∧ ∀ s' es, s.step a = some (s', es) → Quiet s' as

/-- the full statement of **C101**: whatever a goroutine is about to do with a descriptor, the
descriptor is its own socket -/
def WorksOnOwn : Prop :=
  ∀ lib s, Reachable lib s → ∀ (t : Nat) c k fd, s.progs[t]? = some (.call c k) → c.on = some fd → s.table fd = some (.sock t)

/-- a goroutine is about to get a connection or a listener -/
def Creates (s : Proc) (t : Nat) : Prop :=
  ∃ fd k, s.progs[t]? = some (.call (.fileConn fd) k) ∨ s.progs[t]? = some (.call (.fileListener fd) k)

/-- the full statement of **C102**: a connection or a listener stays open until somebody closes
it -/
def StaysOpen : Prop :=
  ∀ lib s0 s1 s2 s3 as bs e1 e2 e3 (t n : Nat), Initial lib s0 → s0.run as = some (s1, e1) → Creates s1 t →
    s1.step (.answer t (.ok n)) = some (s2, e2) → s2.run bs = some (s3, e3) → .closes n ∉ bs → s3.table n = some (.conn t)

end SMC.Socket
