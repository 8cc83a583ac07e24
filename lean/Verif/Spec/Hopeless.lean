import Verif.Spec.Crash
/-!
# Buffers on which parsing panics whatever their capacity
-/

namespace SMC.Spec

/-- a version 1 Proposal whose IP area should be in the message, but is not in the buffer; what is missing of its offset is
at most `ff` in each byte -/
def HopelessV1 (v : Bytes) : Prop :=
  let at_ := 40 + num (v ++ List.replicate 40 255) 38 0 16
  52 ≤ declared v ∧ at_ + 12 ≤ declared v ∧ v.length < at_ + 8 + 17 * entries (declared v) (at_ + 8) 17 (num v (at_ + 7) 0 8)

/-- an SMC-Dv2 extension at `k` with more than eight GIDs -/
def HopelessSMCD (v : Bytes) (n k : Nat) : Prop :=
  (pathv2Of v = 1 ∨ pathv2Of v = 3) ∧ k + 52 ≤ declared v ∧ 8 < entries (declared v) (k + 48) 10 n

/-- a v2 extension at `k` that is not in the buffer, or that has more than eight EIDs -/
def HopelessExt (v : Bytes) (k : Nat) : Prop :=
  let c := entries (declared v) (k + 40) 32 (num v k 0 8)
  pathv2Of v ≠ 2 ∧ k + 44 ≤ declared v ∧
    (v.length < k + 4 ∨ 8 < c ∨ HopelessSMCD v (num v (k + 1) 0 8) (k + 40 + 32 * c))

/-- a version 2 Proposal with such an extension, or whose IP area is not in the buffer -/
def HopelessV2 (v : Bytes) : Prop :=
  let c := entries (declared v) 88 17 (num v 87 0 8)
  84 ≤ declared v ∧ if pathOf v = 2 then HopelessExt v 80
    else 92 ≤ declared v ∧ (v.length < 88 + 17 * c ∨ HopelessExt v (88 + 17 * c))

/-- a buffer that is too short for a message of a kind to be parsed, whatever is behind it -/
def Hopeless (k : CLCKind) (v : Bytes) : Prop :=
  v.length < 8 ∨ match k with
    | .proposal => HopelessV1 v
    | .proposalV2 => HopelessV2 v
    | .acceptSMCDv2 | .confirmSMCDv2 => declared v = 114 ∧ 78 ≤ v.length ∧ v.length < 114
    | k => minLen k ≤ declared v ∧ v.length < minLen k

end SMC.Spec
