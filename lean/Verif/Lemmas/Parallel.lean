import Verif.Spec.Parallel
/-!
# Lemmas on parsing in several goroutines

`x.Within n A Q`: `x` looks only at the arrays of `A` and at those from `n` on, it writes only to
those from `n` on, and what it returns satisfies `Q`.
-/

namespace SMC

open Spec HGo

/-- a reference to an array of `A` or from `n` on -/
def Ref.Okay (n : Nat) (A : Nat → Prop) (r : Ref) : Prop := A r.arr ∨ n ≤ r.arr

/-- See the head of the file. -/
def HGo.Within (n : Nat) (A : Nat → Prop) {α : Type} (x : HGo α) (Q : α → Prop) : Prop :=
  match x with
  | done a => Q a
  | comp x k => ∀ l b, x = .ret l b → (k b).Within n A Q
  | look r _ k => r.Okay n A ∧ ∀ b, (k b).Within n A Q
  | alloc _ k => ∀ r : Ref, n ≤ r.arr → (k r).Within n A Q
  | fill dst src k => n ≤ dst.arr ∧ src.Okay n A ∧ k.Within n A Q

namespace Within

variable {n : Nat} {A : Nat → Prop} {α β : Type}

theorem pure {a : α} {Q : α → Prop} (h : Q a) : (Pure.pure a : HGo α).Within n A Q := h

theorem bind {x : HGo α} {f : α → HGo β} {P : α → Prop} {Q : β → Prop} (hx : x.Within n A P)
    (hf : ∀ a, P a → (f a).Within n A Q) : (x >>= f).Within n A Q := by
  show (x.andThen f).Within n A Q
  induction x with
  | done a => exact hf a hx
  | comp x k ih => exact fun l b hb => ih b (hx l b hb)
  | look r g k ih => exact ⟨hx.1, fun b => ih b (hx.2 b)⟩
  | alloc m k ih => exact fun r hr => ih r (hx r hr)
  | fill dst src k ih => exact ⟨hx.1, hx.2.1, ih hx.2.2⟩

theorem mono {x : HGo α} {P Q : α → Prop} (hx : x.Within n A P) (h : ∀ a, P a → Q a) : x.Within n A Q := by
  induction x with
  | done a => exact h a hx
  | comp x k ih => exact fun l b hb => ih b (hx l b hb)
  | look r g k ih => exact ⟨hx.1, fun b => ih b (hx.2 b)⟩
  | alloc m k ih => exact fun r hr => ih r (hx r hr)
  | fill dst src k ih => exact ⟨hx.1, hx.2.1, ih hx.2.2⟩

theorem lift {x : Go α} : (HGo.lift x).Within n A fun _ => True := fun _ _ _ => trivial

theorem read {r : Ref} {f : Slice → Go α} (hr : r.Okay n A) : (HGo.read r f).Within n A fun _ => True :=
  ⟨hr, fun _ => trivial⟩

theorem sub {r : Ref} {a b : Nat} (hr : r.Okay n A) : (r.sub a b).Within n A (Ref.Okay n A) := by
  intro l s e
  split at e <;> cases e
  exact hr

theorem sto {r : Ref} {b : Nat} (hr : r.Okay n A) : (r.sto b).Within n A (Ref.Okay n A) := sub hr

theorem sfrom {r : Ref} {a : Nat} (hr : r.Okay n A) : (r.sfrom a).Within n A (Ref.Okay n A) := by
  intro l s e
  split at e <;> cases e
  exact hr

theorem idx {r : Ref} {i : Nat} (hr : r.Okay n A) : (r.idx i).Within n A fun _ => True := read hr

theorem makeCopy {m : Nat} {src : Ref} (hs : src.Okay n A) : (HGo.makeCopy m src).Within n A (Ref.Okay n A) :=
  fun _ hr => ⟨hr, hs, .inr hr⟩

theorem ite {c : Prop} [Decidable c] {x y : HGo α} {Q : α → Prop} (hx : c → x.Within n A Q) (hy : ¬c → y.Within n A Q) :
    (if c then x else y).Within n A Q := by
  split
  · exact hx ‹_›
  · exact hy ‹_›

end Within

/-- one statement -/
syntax "within_step" : tactic
macro_rules
  | `(tactic| within_step) => `(tactic| first
    | refine Within.bind (Within.read (by assumption)) fun _ _ => ?_
    | refine Within.bind (Within.idx (by assumption)) fun _ _ => ?_
    | refine Within.bind (Within.sfrom (by assumption)) fun _ _ => ?_
    | refine Within.bind (Within.sto (by assumption)) fun _ _ => ?_
    | refine Within.bind (Within.sub (by assumption)) fun _ _ => ?_
    | refine Within.bind (Within.makeCopy (by assumption)) fun _ _ => ?_
    | refine Within.bind Within.lift fun _ _ => ?_
    | refine Within.ite (fun _ => ?_) fun _ => ?_
    | exact Within.pure trivial)

namespace LLC

variable {n : Nat} {A : Nat → Prop} {buf : Ref}

theorem setBaseMsgH_within {b : BaseMsg} (hb : buf.Okay n A) : (setBaseMsgH b buf).Within n A fun _ => True := by
  unfold setBaseMsgH setRawH
  repeat' within_step

theorem parseConfirmH_within (hb : buf.Okay n A) : (parseConfirmH buf).Within n A fun _ => True := by
  unfold parseConfirmH
  refine Within.bind (setBaseMsgH_within hb) fun _ _ => ?_
  repeat' within_step

theorem parseAddLinkH_within (hb : buf.Okay n A) : (parseAddLinkH buf).Within n A fun _ => True := by
  unfold parseAddLinkH
  refine Within.bind (setBaseMsgH_within hb) fun _ _ => ?_
  repeat' within_step

theorem parseRawH_within {f : Slice → Go Msg} (hb : buf.Okay n A) : (parseRawH f buf).Within n A fun _ => True := by
  unfold parseRawH setRawH
  repeat' within_step

theorem parseLLCH_within (hb : buf.Okay n A) : (parseLLCH buf).Within n A fun _ => True := by
  unfold parseLLCH
  repeat' first
    | exact parseRawH_within hb
    | exact parseConfirmH_within hb
    | exact parseAddLinkH_within hb
    | within_step

end LLC

namespace RoCE

variable {n : Nat} {A : Nat → Prop} {buf : Ref}

theorem parseBTHH_within (hb : buf.Okay n A) : (parseBTHH buf).Within n A fun _ => True := by
  unfold parseBTHH
  repeat' within_step

theorem parseGRHH_within (hb : buf.Okay n A) : (parseGRHH buf).Within n A fun _ => True := by
  unfold parseGRHH
  repeat' within_step

theorem icrcH_within (hb : buf.Okay n A) : (icrcH buf).Within n A fun _ => True := by
  unfold icrcH
  exact Within.ite (fun _ _ _ e => by cases e) fun _ => Within.mono (Within.sfrom hb) fun _ _ => trivial

theorem payloadH_within (hb : buf.Okay n A) : (payloadH buf).Within n A (Ref.Okay n A) := by
  unfold payloadH
  exact Within.ite (fun _ _ _ e => by cases e) fun _ => Within.sto hb

theorem parseRoCEv2H_within (hb : buf.Okay n A) : (parseRoCEv2H buf).Within n A fun _ => True := by
  unfold parseRoCEv2H
  refine Within.bind (Within.sto hb) fun _ h1 => ?_
  refine Within.bind (parseBTHH_within h1) fun _ _ => ?_
  refine Within.bind (Within.sfrom hb) fun _ h2 => ?_
  refine Within.bind (icrcH_within h2) fun _ _ => ?_
  refine Within.bind (payloadH_within h2) fun _ h3 => ?_
  exact Within.bind (LLC.parseLLCH_within h3) fun _ _ => Within.pure trivial

theorem parseRoCEv1H_within (hb : buf.Okay n A) : (parseRoCEv1H buf).Within n A fun _ => True := by
  unfold parseRoCEv1H
  refine Within.bind (Within.sto hb) fun _ h1 => ?_
  refine Within.bind (parseGRHH_within h1) fun _ _ => ?_
  refine Within.bind (Within.sfrom hb) fun _ hb => ?_
  refine Within.bind (Within.sto hb) fun _ h1 => ?_
  refine Within.bind (parseBTHH_within h1) fun _ _ => ?_
  refine Within.bind (Within.sfrom hb) fun _ h2 => ?_
  refine Within.bind (icrcH_within h2) fun _ _ => ?_
  refine Within.bind (payloadH_within h2) fun _ h3 => ?_
  exact Within.bind (LLC.parseLLCH_within h3) fun _ _ => Within.pure trivial

end RoCE

namespace CLC

variable {n : Nat} {A : Nat → Prop} {buf : Ref}

theorem AcceptSMCR.parseH_within {ac : AcceptSMCR} {s : Refs} (hb : buf.Okay n A) :
    (ac.parseH s buf).Within n A fun _ => True := by
  unfold AcceptSMCR.parseH
  repeat' within_step

theorem parsePrefixesH_within {length : UInt16} (hb : buf.Okay n A) (k : Nat) :
    ∀ skip ps, (parsePrefixesH length buf k skip ps).Within n A fun _ => True := by
  induction k with
  | zero => exact fun _ _ => trivial
  | succ k ih =>
    intro skip ps
    unfold parsePrefixesH
    repeat' first
      | exact ih _ _
      | within_step

theorem Proposal.parseH_within {p : Proposal} {s : Refs} (hb : buf.Okay n A) :
    (p.parseH s buf).Within n A fun _ => True := by
  unfold Proposal.parseH
  repeat' first
    | refine Within.bind (parsePrefixesH_within hb _ _ _) fun _ _ => ?_
    | within_step

theorem parsePrefixesV2H_within {length : UInt16} (hb : buf.Okay n A) (k : Nat) :
    ∀ skip ps, (parsePrefixesV2H length buf k skip ps).Within n A fun _ => True := by
  induction k with
  | zero => exact fun _ _ => trivial
  | succ k ih =>
    intro skip ps
    unfold parsePrefixesV2H
    repeat' first
      | exact ih _ _
      | within_step

theorem ProposalV2.parseIPAreaH_within {p : ProposalV2} {s : Refs} {skip : Nat} (hb : buf.Okay n A) :
    (p.parseIPAreaH s buf skip).Within n A fun _ => True := by
  unfold ProposalV2.parseIPAreaH
  repeat' first
    | refine Within.bind (parsePrefixesV2H_within hb _ _ _) fun _ _ => ?_
    | within_step

theorem ProposalV2.parseFixedH_within {p : ProposalV2} {s : Refs} (hb : buf.Okay n A) :
    (p.parseFixedH s buf).Within n A fun _ => True := by
  unfold ProposalV2.parseFixedH
  repeat' within_step

theorem ProposalV2.parseH_within {p : ProposalV2} {s : Refs} (hb : buf.Okay n A) :
    (p.parseH s buf).Within n A fun _ => True := by
  unfold ProposalV2.parseH
  refine Within.bind (Within.read hb) fun _ _ => ?_
  refine Within.ite (fun _ => ?_) fun _ => ?_
  · repeat' within_step
  · refine Within.bind (ProposalV2.parseFixedH_within hb) fun a _ => ?_
    obtain ⟨⟨p, s⟩, skip⟩ := a
    refine Within.bind (ProposalV2.parseIPAreaH_within hb) fun a _ => ?_
    obtain ⟨⟨p, s⟩, _ | skip⟩ := a
    · exact trivial
    · refine Within.bind (Within.read hb) fun a _ => ?_
      obtain ⟨p, _ | skip⟩ := a
      · exact trivial
      · refine Within.bind (Within.read hb) fun a _ => ?_
        obtain ⟨p, _ | skip⟩ := a
        · exact trivial
        · repeat' within_step

theorem HMessage.parse_within {m : HMessage} (hb : buf.Okay n A) : (m.parse buf).Within n A fun _ => True := by
  obtain ⟨v, s⟩ := m
  cases v with
  | proposal p => exact Within.bind (Proposal.parseH_within hb) fun _ _ => Within.pure trivial
  | proposalV2 p => exact Within.bind (ProposalV2.parseH_within hb) fun _ _ => Within.pure trivial
  | acceptSMCR a => exact Within.bind (AcceptSMCR.parseH_within hb) fun _ _ => Within.pure trivial
  | confirmSMCR a => exact Within.bind (AcceptSMCR.parseH_within hb) fun _ _ => Within.pure trivial
  | _ a => exact Within.bind (Within.read hb) fun _ _ => Within.pure trivial

end CLC

theorem Job.code_within (n : Nat) (j : Job) : j.code.Within n (· = j.buf.arr) fun _ => True := by
  have hb : j.buf.Okay n (· = j.buf.arr) := .inl rfl
  cases j with
  | llc buf => exact Within.bind (LLC.parseLLCH_within hb) fun _ _ => Within.pure trivial
  | rocev1 buf => exact Within.bind (RoCE.parseRoCEv1H_within hb) fun _ _ => Within.pure trivial
  | rocev2 buf => exact Within.bind (RoCE.parseRoCEv2H_within hb) fun _ _ => Within.pure trivial
  | clc v buf => exact Within.bind (CLC.HMessage.parse_within hb) fun _ _ => Within.pure trivial

end SMC
