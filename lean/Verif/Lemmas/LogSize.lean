import Verif.Spec.LogSize
import Verif.Lemmas.Few
import Verif.Props.DumpLayout
/-!
# What parsers log is a short line or a dump
-/

namespace SMC.CLC

open Spec

theorem errDump_eq (s : Slice) : errDump s = .ret [go! "Message Buffer Hex Dump:\n" ++ hexDump s.vis] () := by
  unfold errDump Go.log
  unfmt []
  simp

/-- dumping the beginning of the buffer -/
theorem logs_stoDump {α : Type} {s : Slice} {i : Nat} {f : Unit → Go α} (hf : ∀ u, Logs (ShortOrDump s) (f u)) :
    Logs (ShortOrDump s) (s.sto i >>= fun x => errDump x >>= f) := by
  unfold Slice.sto Slice.sub
  split
  · rw [Go.ret_bind]
    refine logs_bind ?_ hf
    rw [errDump_eq]
    intro t ht
    rw [List.mem_singleton.1 ht]
    exact .inr ⟨_, (List.IsPrefix.isInfix (List.take_prefix _ _)), rfl⟩
  · exact logs_nil rfl

theorem logs_short_line {s : Slice} {t : Bytes} (h : t.length ≤ 100) : Logs (ShortOrDump s) (Go.log t) := logs_log (.inl h)

theorem logs_short_lines {s : Slice} {c : Prop} [Decidable c] {a b : Bytes} (ha : a.length ≤ 100) (hb : b.length ≤ 100) :
    Logs (ShortOrDump s) (Go.log (if c then a else b)) := by
  refine logs_log (.inl ?_)
  split <;> assumption

theorem lastBytes_len (s : Slice) (l : List Bytes) (x : Slice) (h : lastBytes s = .ret l x) : x.vis.length = 4 := by
  unfold lastBytes Slice.sfrom at h
  split at h
  · cases h
  · rename_i h1
    split at h
    · cases h
      simp only [List.length_drop]
      simp only [TrailerLen, EyecatcherLen, Slice.len] at *
      omega
    · cases h

theorem size_trailer (s : Slice) (t : Bytes) (b : Slice) : Logs (ShortOrDump s) (trailerParse t b) := by
  unfold trailerParse
  cases h : lastBytes b with
  | panic l =>
    have : l = [] := by
      unfold lastBytes Slice.sfrom at h
      split at h
      · cases h; rfl
      · split at h <;> cases h; rfl
    subst this
    exact logs_nil rfl
  | ret l x =>
    have hl := lastBytes_len b l x h
    have : l = [] := by
      unfold lastBytes Slice.sfrom at h
      split at h
      · cases h
      · split at h <;> cases h; rfl
    subst this
    rw [Go.ret_bind]
    refine logs_bind (logs_eye _) fun _ => logs_ite _ ?_ (logs_pure _)
    refine logs_bind (logs_short_line (by decide)) fun _ => ?_
    rw [Go.ret_bind]
    refine logs_bind ?_ fun _ => logs_pure _
    rw [errDump_eq]
    intro t ht
    rw [List.mem_singleton.1 ht]
    refine .inl ?_
    rw [List.length_append, Props.C84_length, hl]
    decide

/-- follows the steps of a program -/
syntax "size" "[" term,* "]" : tactic
macro_rules
  | `(tactic| size [$ts,*]) => do
    let alts ← ts.getElems.mapM fun t => `(tacticSeq| with_reducible exact $t)
    `(tactic| repeat' first
      | with_reducible refine logs_stoDump (fun _ => ?_)
      | with_reducible refine logs_bind ?_ (fun _ => ?_)
      | with_reducible exact logs_pure _
      | with_reducible exact logs_idx _ _
      | with_reducible exact logs_sfrom _ _
      | with_reducible exact logs_sto _ _
      | with_reducible exact logs_sub _ _ _
      | with_reducible exact logs_panic
      | with_reducible exact logs_be16 _
      | with_reducible exact logs_be32 _
      | with_reducible exact logs_be64 _
      | with_reducible exact logs_hdr _ _
      | with_reducible exact logs_short_line (by decide)
      | with_reducible exact logs_short_lines (by decide) (by decide)
      | with_reducible exact size_trailer _ _ _
      $[| $alts:tacticSeq]*
      | with_reducible refine logs_ite _ ?_ ?_
      | split)

theorem size_smcr (m : AcceptSMCR) (s : Slice) : Logs (ShortOrDump s) (m.parse s) := by
  unfold AcceptSMCR.parse; size []

theorem size_smcd (m : AcceptSMCD) (s : Slice) : Logs (ShortOrDump s) (m.parse s) := by
  unfold AcceptSMCD.parse; size []

theorem size_smcdv2 (m : AcceptSMCDv2) (s : Slice) : Logs (ShortOrDump s) (m.parse s) := by
  unfold AcceptSMCDv2.parse; size [logs_fce _ _]

theorem size_decline (m : Decline) (s : Slice) : Logs (ShortOrDump s) (m.parse s) := by
  unfold Decline.parse; size []

theorem size_declineV2 (m : DeclineV2) (s : Slice) : Logs (ShortOrDump s) (m.parse s) := by
  unfold DeclineV2.parse; size []

theorem size_prefixes (l : UInt16) (s : Slice) (n k : Nat) (ps : List IPv6Prefix) :
    Logs (ShortOrDump s) (parsePrefixes l s n k ps) := by
  induction n generalizing k ps with
  | zero => exact logs_pure _
  | succ n ih => unfold parsePrefixes; size [ih _ _]

theorem size_proposal (m : Proposal) (s : Slice) : Logs (ShortOrDump s) (m.parse s) := by
  unfold Proposal.parse; size [logs_parseSMCD _ _ _, size_prefixes _ _ _ _ _]

theorem size_prefixesV2 (l : UInt16) (s : Slice) (n k : Nat) (ps : List IPv6Prefix) :
    Logs (ShortOrDump s) (parsePrefixesV2 l s n k ps) := by
  induction n generalizing k ps with
  | zero => exact logs_pure _
  | succ n ih => unfold parsePrefixesV2; size [ih _ _]

theorem size_eids (l : UInt16) (s : Slice) (n i k : Nat) (es : List Bytes) :
    Logs (ShortOrDump s) (parseEIDs l s n i k es) := by
  induction n generalizing i k es with
  | zero => exact logs_pure _
  | succ n ih => unfold parseEIDs; size [ih _ _ _]

theorem size_gids (l : UInt16) (s : Slice) (n i k : Nat) (es : List GIDEntry) :
    Logs (ShortOrDump s) (parseGIDs l s n i k es) := by
  induction n generalizing i k es with
  | zero => exact logs_pure _
  | succ n ih => unfold parseGIDs; size [ih _ _ _]

theorem size_ipArea (m : ProposalV2) (s : Slice) (k : Nat) : Logs (ShortOrDump s) (m.parseIPArea s k) := by
  unfold ProposalV2.parseIPArea; size [size_prefixesV2 _ _ _ _ _]

theorem size_v2Ext (m : ProposalV2) (s : Slice) (k : Nat) : Logs (ShortOrDump s) (m.parseV2Ext s k) := by
  unfold ProposalV2.parseV2Ext; size [size_eids _ _ _ _ _ _]

theorem size_smcdExt (m : ProposalV2) (s : Slice) (k : Nat) : Logs (ShortOrDump s) (m.parseSMCDExt s k) := by
  unfold ProposalV2.parseSMCDExt; size [size_gids _ _ _ _ _ _]

theorem size_proposalV2 (m : ProposalV2) (s : Slice) : Logs (ShortOrDump s) (m.parse s) := by
  unfold ProposalV2.parse
  size [logs_fixed _ _, size_ipArea _ _ _, size_v2Ext _ _ _, size_smcdExt _ _ _]

theorem size_message (m : Message) (s : Slice) : Logs (ShortOrDump s) (m.parse s) := by
  cases m <;> unfold Message.parse <;> dsimp only <;>
    size [size_proposal _ _, size_proposalV2 _ _, size_smcr _ _, size_smcd _ _, size_smcdv2 _ _, size_decline _ _,
      size_declineV2 _ _]

theorem size_new (s : Slice) : Logs (ShortOrDump s) (newMessage s) := by
  unfold newMessage
  size [logs_eye _]

end SMC.CLC
