import Verif.Crash.CLC
/-!
# Copies of messages

An assignment of message values copies all fields. For the field `IPv6Prefixes`, the only one that is appended to, this copies
a reference to an array, length and capacity. In the other files this field is the list of its elements; here it is a reference
to memory that other messages may refer to as well.

Simplifications: the arrays of addresses, which are never written to after they have been filled (see `Verif/Heap.lean` for
them), are byte strings; memory is not reclaimed.
-/

namespace SMC.CLC

/-- arrays of elements of type `IPv6Prefix` (pkg/clc/clc_proposal.go:17-21) -/
abbrev Arrays := List (List IPv6Prefix)

/-- A slice `[]IPv6Prefix` (pkg/clc/clc_proposal.go:46, pkg/clc/clc_proposal_v2.go:68). It begins at the first element of its
array, because nothing but `append` is applied to these slices. -/
structure PrefixSlice where
  arr : Nat := 0
  len : Nat := 0
  cap : Nat := 0
deriving DecidableEq, Repr

/-- the elements seen through a slice -/
def Arrays.read (h : Arrays) (s : PrefixSlice) : List IPv6Prefix := (h.getD s.arr []).take s.len

/-- pkg/clc/clc_proposal.go:202 and pkg/clc/clc_proposal_v2.go:383 `append` of one element: into the array if there is room,
otherwise into a new array; `grow` says which capacity is chosen for the new one. -/
def append (grow : Nat → Nat) (x : Arrays × PrefixSlice) (p : IPv6Prefix) : Arrays × PrefixSlice :=
  if x.2.len < x.2.cap then (x.1.modify x.2.arr (·.set x.2.len p), { x.2 with len := x.2.len + 1 })
  else
    let cap := max (x.2.len + 1) (grow x.2.cap)
    (x.1 ++ [x.1.read x.2 ++ p :: List.replicate (cap - (x.2.len + 1)) {}], ⟨x.1.length, x.2.len + 1, cap⟩)

/-- the field `IPv6Prefixes` of a message, if it has one -/
def Message.prefixes : Message → List IPv6Prefix
  | .proposal m => m.IPv6Prefixes
  | .proposalV2 m => m.IPv6Prefixes
  | _ => []

/-- the message with other `IPv6Prefixes`, if it has any -/
def Message.withPrefixes (ps : List IPv6Prefix) : Message → Message
  | .proposal m => .proposal { m with IPv6Prefixes := ps }
  | .proposalV2 m => .proposalV2 { m with IPv6Prefixes := ps }
  | m => m

/-- The message after `Parse` (pkg/clc/message.go:16), whether `Parse` returned or panicked. -/
def Message.left (buf : Slice) : Message → Message
  | .proposal m => .proposal (Proposal.parseS buf m).2
  | .proposalV2 m => .proposalV2 (ProposalV2.parseS buf m).2
  | .acceptSMCR m => .acceptSMCR (AcceptSMCR.parseS buf m).2
  | .acceptSMCD m => .acceptSMCD (AcceptSMCD.parseS buf m).2
  | .acceptSMCDv2 m => .acceptSMCDv2 (AcceptSMCDv2.parseS buf m).2
  | .confirmSMCR m => .confirmSMCR (AcceptSMCR.parseS buf m).2
  | .confirmSMCD m => .confirmSMCD (AcceptSMCD.parseS buf m).2
  | .confirmSMCDv2 m => .confirmSMCDv2 (AcceptSMCDv2.parseS buf m).2
  | .decline m => .decline (Decline.parseS buf m).2
  | .declineV2 m => .declineV2 (DeclineV2.parseS buf m).2

/-- the zero value of the type of a message -/
def Message.zero : Message → Message
  | .proposal _ => .proposal {}
  | .proposalV2 _ => .proposalV2 {}
  | .acceptSMCR _ => .acceptSMCR {}
  | .acceptSMCD _ => .acceptSMCD {}
  | .acceptSMCDv2 _ => .acceptSMCDv2 {}
  | .confirmSMCR _ => .confirmSMCR {}
  | .confirmSMCD _ => .confirmSMCD {}
  | .confirmSMCDv2 _ => .confirmSMCDv2 {}
  | .decline _ => .decline {}
  | .declineV2 _ => .declineV2 {}

/-- A variable of a message type: its prefixes are in `pre`, whatever those of `msg` are. -/
structure Holder where
  msg : Message
  pre : PrefixSlice := {}
deriving DecidableEq, Repr

/-- the variables of a program and the arrays -/
structure Mem where
  arrays : Arrays := []
  vars : List Holder
deriving DecidableEq, Repr

/-- what a message looks like to its methods and to the program -/
def Mem.view (s : Mem) (v : Holder) : Message := v.msg.withPrefixes (s.arrays.read v.pre)

/-- what the program shows in variable `i` -/
def Mem.shows (s : Mem) (i : Nat) : Option Message := s.vars[i]?.map s.view

/-- Statements of a program: `xi.Parse(buf)`, with recovery from panics; `xj = xi`; `xi` gets the zero value. -/
inductive Use where
  | parse (i : Nat) (buf : Slice)
  | copy (i j : Nat)
  | clear (i : Nat)
deriving DecidableEq, Repr

/-- A statement; `none` if there is no such variable, or if the types of the variables differ. `Parse` appends to the prefixes
one after another what it appends to the list in the other model. -/
def Mem.step (grow : Nat → Nat) (s : Mem) : Use → Option Mem
  | .parse i buf =>
    match s.vars[i]? with
    | none => none
    | some v =>
      let m := (s.view v).left buf
      let new := m.prefixes.drop (s.view v).prefixes.length
      let x := new.foldl (append grow) (s.arrays, v.pre)
      some ⟨x.1, s.vars.set i ⟨m, x.2⟩⟩
  | .copy i j =>
    match s.vars[i]?, s.vars[j]? with
    | some v, some w => if v.msg.zero = w.msg.zero then some { s with vars := s.vars.set j v } else none
    | _, _ => none
  | .clear i =>
    match s.vars[i]? with
    | none => none
    | some v => some { s with vars := s.vars.set i ⟨v.msg.zero, {}⟩ }

/-- several statements -/
def Mem.run (grow : Nat → Nat) (s : Mem) : List Use → Option Mem
  | [] => some s
  | a :: as => (s.step grow a).bind (·.run grow as)

/-- variables at the beginning: zero values -/
def Mem.init (ms : List Message) : Mem := ⟨[], ms.map fun m => ⟨m.zero, {}⟩⟩

end SMC.CLC
