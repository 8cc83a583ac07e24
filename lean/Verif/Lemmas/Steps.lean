import Verif.Spec.Parallel
/-!
# Counting the steps of the parsers on memory

`Bounded k x`: `x` makes at most `k` steps.
-/

namespace SMC

open Spec HGo

/-- See the head of the file. -/
def Bounded {α : Type} (k : Nat) (x : HGo α) : Prop := ∀ h, stepsOf x h ≤ k

namespace Bounded

variable {α β : Type} {k m : Nat}

theorem pure {a : α} : Bounded k (Pure.pure a : HGo α) := fun _ => Nat.zero_le _

theorem mono {x : HGo α} (hx : Bounded k x) (h : k ≤ m) : Bounded m x := fun h0 => Nat.le_trans (hx h0) h

theorem bind {x : HGo α} {f : α → HGo β} (hx : Bounded k x) (hf : ∀ a, Bounded m (f a)) : Bounded (k + m) (x >>= f) := by
  intro h
  replace hx := hx h
  show stepsOf (x.andThen f) h ≤ _
  induction x generalizing h k with
  | done a => exact Nat.le_trans (hf a h) (Nat.le_add_left ..)
  | comp x g ih =>
    cases x with
    | panic l => exact Nat.le_trans hx (Nat.le_add_right ..)
    | ret l b =>
      have hx : stepsOf (g b) h + 1 ≤ k := hx
      have := ih b (k := k - 1) h (by omega)
      show stepsOf ((g b).andThen f) h + 1 ≤ _
      omega
  | look r e g ih =>
    simp only [andThen, stepsOf] at hx ⊢
    split at hx
    · omega
    · have := ih _ (k := k - 1) h (Nat.le_sub_of_add_le hx)
      omega
  | alloc n g ih =>
    simp only [andThen, stepsOf] at hx ⊢
    have := ih _ (k := k - 1) _ (Nat.le_sub_of_add_le hx)
    omega
  | fill dst src g ih =>
    simp only [andThen, stepsOf] at hx ⊢
    have := ih (k := k - 1) _ (Nat.le_sub_of_add_le hx)
    omega

theorem then_ {x : HGo α} {f : α → HGo β} (hx : Bounded m x) (hf : ∀ a, Bounded k (f a)) : Bounded (k + m) (x >>= f) := by
  rw [Nat.add_comm]
  exact bind hx hf

theorem lift {x : Go α} : Bounded 1 (HGo.lift x) := by
  intro h
  cases x <;> exact Nat.le_refl 1

theorem read {r : Ref} {f : Slice → Go α} : Bounded 1 (HGo.read r f) := by
  intro h
  simp only [HGo.read, stepsOf]
  split <;> exact Nat.le_refl 1

theorem makeCopy {n : Nat} {src : Ref} : Bounded 2 (HGo.makeCopy n src) := fun _ => Nat.le_refl 2

theorem ite {c : Prop} [Decidable c] {x y : HGo α} (hx : Bounded k x) (hy : Bounded k y) :
    Bounded k (if c then x else y) := by
  split
  · exact hx
  · exact hy

end Bounded

/-- one statement -/
syntax "bounded_step" : tactic
macro_rules
  | `(tactic| bounded_step) => `(tactic| first
    | exact Bounded.pure
    | refine Bounded.then_ Bounded.read fun _ => ?_
    | refine Bounded.then_ Bounded.lift fun _ => ?_
    | refine Bounded.then_ Bounded.makeCopy fun _ => ?_
    | refine Bounded.ite ?_ ?_)

namespace LLC

variable {buf : Ref}

theorem setBaseMsgH_bounded {b : BaseMsg} : Bounded 5 (setBaseMsgH b buf) := by
  unfold setBaseMsgH setRawH Ref.idx Ref.sfrom
  repeat' bounded_step

theorem parseConfirmH_bounded : Bounded 40 (parseConfirmH buf) := by
  unfold parseConfirmH Ref.idx Ref.sfrom Ref.sub
  refine Bounded.then_ (k := 35) setBaseMsgH_bounded fun _ => ?_
  repeat' bounded_step

theorem parseAddLinkH_bounded : Bounded 50 (parseAddLinkH buf) := by
  unfold parseAddLinkH Ref.idx Ref.sfrom Ref.sub
  refine Bounded.then_ (k := 45) setBaseMsgH_bounded fun _ => ?_
  repeat' bounded_step

theorem parseRawH_bounded {f : Slice → Go Msg} : Bounded 3 (parseRawH f buf) := by
  unfold parseRawH setRawH
  repeat' bounded_step

theorem parseLLCH_bounded : Bounded 51 (parseLLCH buf) := by
  unfold parseLLCH Ref.idx
  refine Bounded.ite (parseRawH_bounded.mono (by decide)) ?_
  bounded_step
  repeat' first
    | exact parseRawH_bounded.mono (by decide)
    | exact parseConfirmH_bounded.mono (by decide)
    | exact parseAddLinkH_bounded
    | bounded_step

end LLC

namespace RoCE

variable {buf : Ref}

theorem parseBTHH_bounded : Bounded 3 (parseBTHH buf) := by
  unfold parseBTHH
  repeat' bounded_step

theorem parseGRHH_bounded : Bounded 6 (parseGRHH buf) := by
  unfold parseGRHH Ref.sub
  repeat' bounded_step

theorem icrcH_bounded : Bounded 1 (icrcH buf) := by
  unfold icrcH
  exact Bounded.ite Bounded.lift Bounded.lift

theorem payloadH_bounded : Bounded 1 (payloadH buf) := by
  unfold payloadH
  exact Bounded.ite Bounded.lift Bounded.lift

theorem parseRoCEv2H_bounded : Bounded 60 (parseRoCEv2H buf) := by
  unfold parseRoCEv2H Ref.sto Ref.sfrom Ref.sub
  bounded_step
  refine Bounded.then_ (k := 56) parseBTHH_bounded fun _ => ?_
  bounded_step
  refine Bounded.then_ (k := 54) icrcH_bounded fun _ => ?_
  refine Bounded.then_ (k := 53) payloadH_bounded fun _ => ?_
  exact Bounded.then_ (k := 2) LLC.parseLLCH_bounded fun _ => Bounded.pure

theorem parseRoCEv1H_bounded : Bounded 70 (parseRoCEv1H buf) := by
  unfold parseRoCEv1H Ref.sto Ref.sfrom Ref.sub
  bounded_step
  refine Bounded.then_ (k := 63) parseGRHH_bounded fun _ => ?_
  bounded_step
  bounded_step
  refine Bounded.then_ (k := 58) parseBTHH_bounded fun _ => ?_
  bounded_step
  refine Bounded.then_ (k := 56) icrcH_bounded fun _ => ?_
  refine Bounded.then_ (k := 55) payloadH_bounded fun _ => ?_
  exact Bounded.then_ (k := 4) LLC.parseLLCH_bounded fun _ => Bounded.pure

end RoCE

namespace CLC

variable {buf : Ref}

theorem AcceptSMCR.parseH_bounded {ac : AcceptSMCR} {s : Refs} : Bounded 50 (ac.parseH s buf) := by
  unfold AcceptSMCR.parseH Ref.sto Ref.idx Ref.sfrom Ref.sub
  repeat' bounded_step

theorem parsePrefixesH_bounded {length : UInt16} (n : Nat) :
    ∀ skip ps, Bounded (4 * n + 3) (parsePrefixesH length buf n skip ps) := by
  induction n with
  | zero => exact fun _ _ => Bounded.pure
  | succ n ih =>
    intro skip ps
    unfold parsePrefixesH Ref.sto Ref.idx Ref.sub
    rw [show 4 * (n + 1) + 3 = 4 * n + 3 + 1 + 2 + 1 by omega]
    refine Bounded.ite ?_ ?_
    · rw [show 4 * n + 3 + 1 + 2 + 1 = 4 * n + 4 + 1 + 1 + 1 by omega]
      repeat' bounded_step
    · bounded_step
      bounded_step
      bounded_step
      exact ih _ _

/-- a count is a byte -/
theorem count_le (c : UInt8) : 4 * c.toNat + 3 ≤ 1023 := by
  have := c.toNat_lt
  omega

theorem Proposal.parseH_bounded {p : Proposal} {s : Refs} : Bounded 1060 (p.parseH s buf) := by
  unfold Proposal.parseH Ref.sto Ref.idx Ref.sub
  repeat' first
    | refine Bounded.mono (k := 1 + 1023)
        (Bounded.then_ ((parsePrefixesH_bounded _ _ _).mono (count_le _)) fun _ => ?_) (by decide)
    | bounded_step

theorem parsePrefixesV2H_bounded {length : UInt16} (n : Nat) :
    ∀ skip ps, Bounded (4 * n + 3) (parsePrefixesV2H length buf n skip ps) := by
  induction n with
  | zero => exact fun _ _ => Bounded.pure
  | succ n ih =>
    intro skip ps
    unfold parsePrefixesV2H Ref.sto Ref.idx Ref.sub
    rw [show 4 * (n + 1) + 3 = 4 * n + 3 + 1 + 2 + 1 by omega]
    refine Bounded.ite ?_ ?_
    · rw [show 4 * n + 3 + 1 + 2 + 1 = 4 * n + 4 + 1 + 1 + 1 by omega]
      repeat' bounded_step
    · bounded_step
      bounded_step
      bounded_step
      exact ih _ _

theorem ProposalV2.parseIPAreaH_bounded {p : ProposalV2} {s : Refs} {skip : Nat} :
    Bounded 1040 (p.parseIPAreaH s buf skip) := by
  unfold ProposalV2.parseIPAreaH Ref.sto Ref.idx Ref.sub
  repeat' first
    | refine Bounded.mono (k := 0 + 1023)
        (Bounded.then_ ((parsePrefixesV2H_bounded _ _ _).mono (count_le _)) fun _ => ?_) (by decide)
    | bounded_step

theorem ProposalV2.parseFixedH_bounded {p : ProposalV2} {s : Refs} : Bounded 20 (p.parseFixedH s buf) := by
  unfold ProposalV2.parseFixedH Ref.sub
  repeat' bounded_step

theorem ProposalV2.parseH_bounded {p : ProposalV2} {s : Refs} : Bounded 1070 (p.parseH s buf) := by
  unfold ProposalV2.parseH
  bounded_step
  refine Bounded.ite ?_ ?_
  · unfold Ref.sto Ref.sub
    repeat' bounded_step
  · refine Bounded.then_ (k := 1049) ProposalV2.parseFixedH_bounded fun a => ?_
    obtain ⟨⟨p, s⟩, skip⟩ := a
    refine Bounded.then_ (k := 9) ProposalV2.parseIPAreaH_bounded fun a => ?_
    obtain ⟨⟨p, s⟩, _ | skip⟩ := a
    · exact Bounded.pure
    · bounded_step
      rename_i a
      obtain ⟨p, _ | skip⟩ := a
      · exact Bounded.pure
      · bounded_step
        rename_i a
        obtain ⟨p, _ | skip⟩ := a
        · exact Bounded.pure
        · repeat' bounded_step

theorem HMessage.parse_bounded {m : HMessage} : Bounded 1070 (m.parse buf) := by
  obtain ⟨v, s⟩ := m
  cases v with
  | proposal p => exact Bounded.then_ (k := 10) Proposal.parseH_bounded fun _ => Bounded.pure
  | proposalV2 p => exact Bounded.then_ (k := 0) ProposalV2.parseH_bounded fun _ => Bounded.pure
  | acceptSMCR a => exact Bounded.then_ (k := 1020) AcceptSMCR.parseH_bounded fun _ => Bounded.pure
  | confirmSMCR a => exact Bounded.then_ (k := 1020) AcceptSMCR.parseH_bounded fun _ => Bounded.pure
  | _ a => exact Bounded.then_ (k := 1069) Bounded.read fun _ => Bounded.pure

end CLC

theorem Job.code_bounded (j : Job) : Bounded 1070 j.code := by
  cases j with
  | llc buf => exact Bounded.then_ (k := 1019) LLC.parseLLCH_bounded fun _ => Bounded.pure
  | rocev1 buf => exact Bounded.then_ (k := 1000) RoCE.parseRoCEv1H_bounded fun _ => Bounded.pure
  | rocev2 buf => exact Bounded.then_ (k := 1010) RoCE.parseRoCEv2H_bounded fun _ => Bounded.pure
  | clc v buf => exact Bounded.then_ (k := 0) CLC.HMessage.parse_bounded fun _ => Bounded.pure

end SMC
