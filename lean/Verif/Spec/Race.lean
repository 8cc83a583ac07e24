import Verif.Http.Memory
/-!
# Specification of data races

The Go memory model (go.dev/ref/mem), for one mutex.
-/

namespace SMC.Http

/-- Happens before, for positions in a trace: the order within a goroutine, and from every `Unlock`
to every later `Lock`. -/
inductive HB (tr : List (Nat × Action)) : Nat → Nat → Prop where
  | program {i j t x y} : i < j → tr[i]? = some (t, x) → tr[j]? = some (t, y) → HB tr i j
  | lock {i j t u} : i < j → tr[i]? = some (t, .release) → tr[j]? = some (u, .acquire) → HB tr i j
  | trans {i j k} : HB tr i j → HB tr j k → HB tr i k

/-- The memory an action touches. -/
def Action.loc : Action → Option Loc
  | .acquire | .release => none
  | .read l | .write l => some l

/-- Two actions on the same memory, at least one of which changes it. -/
def Conflict (x y : Action) : Prop :=
  ∃ l, x.loc = some l ∧ y.loc = some l ∧ (x = .write l ∨ y = .write l)

/-- Any two conflicting actions of different goroutines are ordered by happens before. -/
def RaceFree (tr : List (Nat × Action)) : Prop :=
  ∀ i j t u x y, i < j → tr[i]? = some (t, x) → tr[j]? = some (u, y) → t ≠ u → Conflict x y → HB tr i j

/-! ## Footprints -/

/-- What can be read at a location. -/
inductive Cell where
  | header (arr : Option Nat) (len : Nat)
  | byte (b : Option UInt8)
deriving DecidableEq, Repr

/-- The contents of a location. -/
def State.cell (s : State) : Loc → Cell
  | .header => .header s.arr s.len
  | .elem a i => .byte (s.array a)[i]?

/-- The same in all that is not at a location: the lock, the goroutines, and which arrays there are,
with their sizes. -/
def SameShape (s s' : State) : Prop :=
  s.locked = s'.locked ∧ s.pcs = s'.pcs ∧ s.heap.map List.length = s'.heap.map List.length

end SMC.Http
