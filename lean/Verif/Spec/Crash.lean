import Verif.Spec.Proposal
/-!
# When parsing a CLC message panics

Conditions on the bytes of the buffer `v` and the bytes `e` behind it up to its capacity.
Slicing reaches up to the capacity, indexing only up to the length, so that some fields are
read from behind the buffer if it is too short. Reporting an error dumps the declared bytes,
which must be within the capacity. After a reported error nothing more is read, except that
a list of prefixes, EIDs or GIDs just ends there.
-/

namespace SMC.Spec

/-- more entries are announced than `c`, and the dump reported for that is out of bounds -/
def Overdump (v e : Bytes) (c n : Nat) : Prop := c < n ∧ v.length + e.length < declared v

/-- when `Parse` of a version 1 Proposal panics -/
def CrashesV1 (v e : Bytes) : Prop :=
  let at_ := 40 + num (v ++ e) 38 0 16
  let n := num v (at_ + 7) 0 8
  let c := entries (declared v) (at_ + 8) 17 n
  if declared v < 52 then v.length + e.length < declared v
  else v.length + e.length < 40 ∨ (at_ = 80 ∧ v.length + e.length < 80) ∨
    (if declared v < at_ + 12 then v.length + e.length < declared v
     else v.length < at_ + 8 + 17 * c ∨ Overdump v e c n)

/-- the IP area of a version 2 Proposal, then `next` with the position behind it -/
def CrashesIP (v e : Bytes) (next : Nat → Prop) : Prop :=
  let n := num v 87 0 8
  let c := entries (declared v) 88 17 n
  if pathOf v = 2 then next 80
  else if declared v < 92 then v.length + e.length < declared v
  else v.length < 88 + 17 * c ∨ Overdump v e c n ∨ next (88 + 17 * c)

/-- the v2 extension at `k`, then `next` with the number of GIDs and the position behind it -/
def CrashesExt (v e : Bytes) (k : Nat) (next : Nat → Nat → Prop) : Prop :=
  let n := num v k 0 8
  let c := entries (declared v) (k + 40) 32 n
  if pathv2Of v = 2 then False
  else if declared v < k + 44 then v.length + e.length < declared v
  else v.length < k + 4 ∨ 8 < c ∨ v.length + e.length < k + 40 + 32 * c ∨ Overdump v e c n ∨
    next (num v (k + 1) 0 8) (k + 40 + 32 * c)

/-- the SMC-Dv2 extension at `k` with `n` GIDs announced -/
def CrashesSMCD (v e : Bytes) (n k : Nat) : Prop :=
  let c := entries (declared v) (k + 48) 10 n
  if pathv2Of v = 1 ∨ pathv2Of v = 3 then
    if declared v < k + 52 then v.length + e.length < declared v
    else 8 < c ∨ v.length + e.length < k + 48 + 10 * c ∨ Overdump v e c n
  else False

/-- when `Parse` of a version 2 Proposal panics -/
def CrashesV2 (v e : Bytes) : Prop :=
  if declared v < 84 then v.length + e.length < declared v
  else v.length + e.length < 80 ∨ CrashesIP v e fun k => CrashesExt v e k (CrashesSMCD v e)

/-- when `Parse` of a message without variable parts panics, depending on the declared length
and the length and capacity of the buffer -/
def FixedCrashes (k : CLCKind) (decl len cap : Nat) : Prop :=
  if decl < minLen k then cap < decl
  else match k with
    | .acceptSMCDv2 | .confirmSMCDv2 => (len < 78 ∧ cap < decl) ∨ (78 ≤ len ∧ decl = 114 ∧ len < 114)
    | _ => len < minLen k

/-- when `Parse` of a message of a kind panics on a buffer -/
def ParseCrashes (k : CLCKind) (s : Slice) : Prop :=
  s.len < 8 ∨ match k with
    | .proposal => CrashesV1 s.vis s.extra
    | .proposalV2 => CrashesV2 s.vis s.extra
    | k => FixedCrashes k (declared s.vis) s.len s.cap

end SMC.Spec
