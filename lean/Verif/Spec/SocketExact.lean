import Verif.Spec.SocketOwn
/-!
# Which finalizers do harm
-/

namespace SMC.Socket

/-- a finalizer that runs never finds the socket a call works on under its number; connections, listeners and what others
opened it may find -/
def SparesSockets (s : Proc) : List Act → Prop
  | [] => True
  | a :: as =>
    (∀ i fd t, a = .finalize i → s.files[i]? = some fd → s.table fd ≠ some (.sock t)) ∧
      ∀ s' es, s.step a = some (s', es) → SparesSockets s' as

/-- at this moment every descriptor that a call is about to do something with is its own socket -/
def OwnNow (s : Proc) : Prop :=
  ∀ (t : Nat) c k fd, s.progs[t]? = some (.call c k) → c.on = some fd → s.table fd = some (.sock t)

/-- a step closes number `n` for the package: a finalizer of a file with this number, or `unix.Close` in a call -/
def ClosesNumber (s : Proc) (n : Nat) (a : Act) : Prop :=
  (∃ i, a = .finalize i ∧ s.files[i]? = some n) ∨ ∃ u x k, a = .answer u x ∧ s.progs[u]? = some (.call (.close n) k)

/-- the package does not close number `n` -/
def Leaves (n : Nat) (s : Proc) : List Act → Prop
  | [] => True
  | a :: as => ¬ ClosesNumber s n a ∧ ∀ s' es, s.step a = some (s', es) → Leaves n s' as

/-- no finalizer of a file with number `n` runs -/
def NoFinalizer (n : Nat) (s : Proc) : List Act → Prop
  | [] => True
  | a :: as => (∀ i, a = .finalize i → s.files[i]? ≠ some n) ∧ ∀ s' es, s.step a = some (s', es) → NoFinalizer n s' as

end SMC.Socket
