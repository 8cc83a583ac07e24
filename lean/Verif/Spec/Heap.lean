import Verif.Heap
/-!
# What later happens to memory
-/

namespace SMC

/-- `r` denotes bytes of `h`. -/
def Ref.Valid (h : Heap) (r : Ref) : Prop :=
  r.len ≤ r.cap ∧ (r.cap = 0 ∨ r.arr < h.length ∧ r.off + r.cap ≤ (h.getD r.arr []).length)

/-- `h'` is `h` with more arrays -/
def Heap.Ext (h h' : Heap) : Prop := ∃ new, h' = h ++ new

/-- `r` sees bytes of `h1` that are not among the first `n` arrays (or no bytes at all). -/
def Ref.Own (n : Nat) (h1 : Heap) (r : Ref) : Prop := r.Valid h1 ∧ (r.cap = 0 ∨ n ≤ r.arr)

/-- All slices of a CLC message but `Raw` are outside the first `n` arrays. -/
def CLC.Refs.Own (n : Nat) (h1 : Heap) (s : Refs) : Prop :=
  s.ibgid.Own n h1 ∧ s.ibmac.Own n h1 ∧ s.pfx.Own n h1 ∧ ∀ p ∈ s.prefixes, p.1.Own n h1

namespace Spec

/-- Something that happens to memory: a byte is written to an array, an array is allocated. -/
inductive Event where
  | write (arr i : Nat) (b : UInt8)
  | alloc (bytes : Bytes)
deriving Repr

/-- the memory after an event -/
def Event.run (h : Heap) : Event → Heap
  | .write arr i b => h.set arr i b
  | .alloc bytes => h ++ [bytes]

/-- the memory after events -/
def later (h : Heap) (es : List Event) : Heap := es.foldl Event.run h

/-- no event writes to the arrays `lo`, …, `hi - 1` (those a call has allocated, when `lo` and
`hi` are the sizes of the memory before and after it) -/
def Spared (lo hi : Nat) (es : List Event) : Prop :=
  ∀ arr i b, Event.write arr i b ∈ es → arr < lo ∨ hi ≤ arr

end Spec

end SMC
