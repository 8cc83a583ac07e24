import Verif.Http.Lent
import Verif.Spec.Http
/-!
# What callers of `Write` promise, and what they get if they do not keep it
-/

namespace SMC.Http

/-- Nobody writes to a slice while a `Write` of it is running, as `io.Writer` demands of callers. -/
def Careful (l : Lent) : List LentAct → Prop
  | [] => True
  | a :: as =>
    (∀ x i b, a = .poke x i b → ∀ r, some r ∈ l.args → r.arr = x → i < r.off ∨ r.off + r.len ≤ i) ∧
      ∀ l' es, l.step a = some (l', es) → Careful l' as

/-- Goroutine `t` is in a `Write` of slice `r`, and now or later in that `Write` byte `i` of the slice is `b`. -/
def Held (t : Nat) (r : Part) (i : Nat) (b : UInt8) (l : Lent) : List LentAct → Prop
  | [] => l.args[t]? = some (some r) ∧ (l.s.part r)[i]? = some b
  | a :: as => l.args[t]? = some (some r) ∧
    ((l.s.part r)[i]? = some b ∨ ∃ l' e, l.step a = some (l', e) ∧ Held t r i b l' as)

/-- The same history, except that each byte of a `Write` is one that was at its place in the slice at some time in that `Write`,
not necessarily when it was called. -/
def Mixed (l : Lent) : List LentAct → List Event → List Event → Prop
  | [], es, es' => es = [] ∧ es' = []
  | a :: as, es, es' => ∃ l' e e' rest rest', l.step a = some (l', e) ∧ es = e ++ rest ∧ es' = e' ++ rest' ∧
    Mixed l' as rest rest' ∧
    match a with
    | .write t false r => ∃ p, e' = [.call t (.write p)] ∧ p.length = r.len ∧ ∀ (i : Nat) b, p[i]? = some b → Held t r i b l' as
    | _ => e' = e

/-- Nobody writes to slice `r` as long as goroutine `t` is in its `Write`. -/
def Untouched (t : Nat) (r : Part) (l : Lent) : List LentAct → Prop
  | [] => True
  | a :: as => l.args[t]? = some (some r) →
    (∀ i b, a = .poke r.arr i b → i < r.off ∨ r.off + r.len ≤ i) ∧ ∀ l' es, l.step a = some (l', es) → Untouched t r l' as

end SMC.Http
