import Verif.Lemmas.Printable
/-!
# What parsers hand to package log
-/

namespace SMC

open Spec

instance (t : Bytes) : Decidable (Lines t) := inferInstanceAs (Decidable (∀ c ∈ t, c = 0x0a ∨ 0x20 ≤ c ∧ c ≤ 0x7e))

/-- all logged texts have a property, also those before a panic -/
def Logs {α : Type} (P : Bytes → Prop) (x : Go α) : Prop := ∀ t ∈ x.logOf, P t

variable {P : Bytes → Prop}

theorem logs_nil {α : Type} {x : Go α} (h : x.logOf = []) : Logs P x := by
  unfold Logs
  rw [h]
  nofun

theorem logs_bind {α β : Type} {x : Go α} {f : α → Go β} (hx : Logs P x) (hf : ∀ a, Logs P (f a)) :
    Logs P (x >>= f) := by
  show Logs P (Go.bind x f)
  cases x with
  | panic l => exact hx
  | ret l a =>
    have h := hf a
    have h2 : (Go.bind (.ret l a) f).logOf = l ++ (f a).logOf := by
      show Go.logOf (match f a with | .panic l' => .panic (l ++ l') | .ret l' b => .ret (l ++ l') b) = _
      cases f a <;> rfl
    intro t ht
    rw [h2] at ht
    rcases List.mem_append.1 ht with h1 | h1
    · exact hx t h1
    · exact h t h1

theorem logs_pure {α : Type} (a : α) : Logs P (pure a : Go α) := logs_nil rfl

theorem logs_panic {α : Type} : Logs P (.panic [] : Go α) := logs_nil rfl

theorem logs_log {t : Bytes} (h : P t) : Logs P (Go.log t) := by
  intro u hu
  rw [List.mem_singleton.1 (show u ∈ [t] from hu)]
  exact h

theorem logs_ite {α : Type} (c : Prop) [Decidable c] {x y : Go α} (hx : Logs P x) (hy : Logs P y) :
    Logs P (if c then x else y) := by
  split
  · exact hx
  · exact hy

theorem logs_idx (s : Slice) (i : Nat) : Logs P (s.idx i) := logs_nil (by unfold Slice.idx; split <;> rfl)
theorem logs_sfrom (s : Slice) (i : Nat) : Logs P (s.sfrom i) := logs_nil (by unfold Slice.sfrom; split <;> rfl)
theorem logs_sub (s : Slice) (i j : Nat) : Logs P (s.sub i j) := logs_nil (by unfold Slice.sub; split <;> rfl)
theorem logs_sto (s : Slice) (i : Nat) : Logs P (s.sto i) := logs_sub s 0 i

/-- follows the steps of a program, with the given facts about the functions it calls -/
syntax "logs" "[" term,* "]" : tactic
macro_rules
  | `(tactic| logs [$ts,*]) => do
    let alts ← ts.getElems.mapM fun t => `(tacticSeq| with_reducible exact $t)
    `(tactic| repeat' first
      | with_reducible refine logs_bind ?_ (fun _ => ?_)
      | with_reducible exact logs_pure _
      | with_reducible exact logs_idx _ _
      | with_reducible exact logs_sfrom _ _
      | with_reducible exact logs_sto _ _
      | with_reducible exact logs_sub _ _ _
      | with_reducible exact logs_panic
      $[| $alts:tacticSeq]*
      | with_reducible refine logs_ite _ ?_ ?_
      | split)

theorem logs_be16 (s : Slice) : Logs P (be16 s) := by unfold be16; logs []
theorem logs_be32 (s : Slice) : Logs P (be32 s) := by unfold be32; logs []
theorem logs_be64 (s : Slice) : Logs P (be64 s) := by unfold be64; logs []

/-! ## CLC messages -/

theorem lines_of {t : Bytes} (h : Printable t) : Lines t := fun c hc => .inr (h c hc)

theorem lines_append {a b : Bytes} (ha : Lines a) (hb : Lines b) : Lines (a ++ b) := by
  intro c hc
  rcases List.mem_append.1 hc with h | h
  · exact ha c h
  · exact hb c h

theorem printable_hex2 (b : UInt8) : Printable (hex2 b) ↔ True :=
  printable_of (hex2_all b) (by byte_decide)

theorem printable_cell (u : Nat) (c : Bytes) : Printable (dumpCell u c) ↔ Printable c := by
  unfold dumpCell
  prints [printable_ite]

theorem printable_cols (k u : Nat) (bs : Bytes) : Printable (dumpCols k u bs) := by
  induction k generalizing u bs with
  | zero => exact printable_nil.2 trivial
  | succ k ih =>
    cases bs <;> unfold dumpCols <;> prints [printable_cell, printable_hex2, iff_true_intro (ih _ _)]

theorem printable_digit : ∀ n : Nat, Printable [digit (n % 16)] := by
  have h : ∀ n, n < 16 → Printable [digit n] := by decide
  exact fun n => h _ (Nat.mod_lt _ (by decide))

theorem printable_chars (bs : Bytes) : Printable (bs.map toChar) := by
  have h : ∀ b : UInt8, 0x20 ≤ toChar b ∧ toChar b ≤ 0x7e := by byte_decide
  intro c hc
  obtain ⟨b, -, rfl⟩ := List.mem_map.1 hc
  exact h b

theorem printable_offset (n : Nat) : Printable (offset8 n) := by
  unfold offset8
  simp only [Printable, List.forall_mem_cons]
  have g : ∀ n : Nat, 32 ≤ digit (n % 16) ∧ digit (n % 16) ≤ 126 := fun n => printable_digit n _ (by simp)
  exact ⟨g _, g _, g _, g _, g _, g _, g _, g _, nofun⟩

theorem lines_dump (bs : Bytes) : Lines (hexDump bs) := by
  unfold hexDump
  generalize bs.length = k, 0 = n
  induction k generalizing n bs with
  | zero => nofun
  | succ k ih =>
    cases bs with
    | nil => nofun
    | cons b bs =>
      unfold dumpFrom dumpLine
      exact lines_append (lines_append (lines_append (lines_append (lines_append (lines_of (printable_offset n))
        (by decide)) (lines_of (printable_cols 16 0 _))) (lines_of (printable_chars _))) (by decide)) (ih _ _)

namespace CLC

theorem logs_errDump (s : Slice) : Logs Lines (errDump s) := by
  unfold errDump
  refine logs_log ?_
  unfmt []
  exact lines_append (by decide) (lines_append (lines_dump _) (by decide))

theorem logs_eye (s : Slice) : Logs P (hasEyecatcher s) := by
  unfold hasEyecatcher
  logs []

theorem logs_hdr (h : Header) (s : Slice) : Logs P (h.parse s) := by
  unfold Header.parse
  logs [logs_be16 _]

theorem logs_lastBytes (s : Slice) : Logs P (lastBytes s) := by
  unfold lastBytes
  logs []

theorem logs_trailer (t : Bytes) (s : Slice) : Logs Lines (trailerParse t s) := by
  unfold trailerParse
  logs [logs_lastBytes _, logs_eye _, logs_errDump _, logs_log (by decide)]

theorem logs_short (c : Prop) [Decidable c] (a b : Bytes) (ha : Lines a) (hb : Lines b) :
    Logs Lines (Go.log (if c then a else b)) := by
  refine logs_log ?_
  split
  · exact ha
  · exact hb

theorem logs_smcr (m : AcceptSMCR) (s : Slice) : Logs Lines (m.parse s) := by
  unfold AcceptSMCR.parse
  logs [logs_hdr _ _, logs_short _ _ _ (by decide) (by decide), logs_errDump _, logs_be16 _, logs_be32 _, logs_be64 _,
    logs_trailer _ _]

theorem logs_smcd (m : AcceptSMCD) (s : Slice) : Logs Lines (m.parse s) := by
  unfold AcceptSMCD.parse
  logs [logs_hdr _ _, logs_short _ _ _ (by decide) (by decide), logs_errDump _, logs_be16 _, logs_be32 _, logs_be64 _,
    logs_trailer _ _]

theorem logs_fce (m : AcceptSMCDv2) (s : Slice) : Logs P (m.parseFCE s) := by
  unfold AcceptSMCDv2.parseFCE
  logs []

theorem logs_smcdv2 (m : AcceptSMCDv2) (s : Slice) : Logs Lines (m.parse s) := by
  unfold AcceptSMCDv2.parse
  logs [logs_hdr _ _, logs_short _ _ _ (by decide) (by decide), logs_errDump _, logs_be16 _, logs_be32 _, logs_be64 _,
    logs_fce _ _, logs_trailer _ _]

theorem logs_decline (m : Decline) (s : Slice) : Logs Lines (m.parse s) := by
  unfold Decline.parse
  logs [logs_hdr _ _, logs_log (by decide), logs_errDump _, logs_be32 _, logs_trailer _ _]

theorem logs_declineV2 (m : DeclineV2) (s : Slice) : Logs Lines (m.parse s) := by
  unfold DeclineV2.parse
  logs [logs_hdr _ _, logs_log (by decide), logs_errDump _, logs_be32 _, logs_trailer _ _]

theorem logs_prefixes (l : UInt16) (s : Slice) (n k : Nat) (ps : List IPv6Prefix) :
    Logs Lines (parsePrefixes l s n k ps) := by
  induction n generalizing k ps with
  | zero => exact logs_pure _
  | succ n ih =>
    unfold parsePrefixes
    logs [ih _ _, logs_log (by decide), logs_errDump _]

theorem logs_parseSMCD (m : Proposal) (s : Slice) (k : Nat) : Logs P (m.parseSMCD s k) := by
  unfold Proposal.parseSMCD
  logs [logs_be64 _]

theorem logs_proposal (m : Proposal) (s : Slice) : Logs Lines (m.parse s) := by
  unfold Proposal.parse
  logs [logs_hdr _ _, logs_log (by decide), logs_errDump _, logs_be16 _, logs_parseSMCD _ _ _, logs_prefixes _ _ _ _ _,
    logs_trailer _ _]

theorem logs_prefixesV2 (l : UInt16) (s : Slice) (n k : Nat) (ps : List IPv6Prefix) :
    Logs Lines (parsePrefixesV2 l s n k ps) := by
  induction n generalizing k ps with
  | zero => exact logs_pure _
  | succ n ih =>
    unfold parsePrefixesV2
    logs [ih _ _, logs_log (by decide), logs_errDump _]

theorem logs_eids (l : UInt16) (s : Slice) (n i k : Nat) (es : List Bytes) : Logs Lines (parseEIDs l s n i k es) := by
  induction n generalizing i k es with
  | zero => exact logs_pure _
  | succ n ih =>
    unfold parseEIDs
    logs [ih _ _ _, logs_log (by decide), logs_errDump _]

theorem logs_gids (l : UInt16) (s : Slice) (n i k : Nat) (es : List GIDEntry) : Logs Lines (parseGIDs l s n i k es) := by
  induction n generalizing i k es with
  | zero => exact logs_pure _
  | succ n ih =>
    unfold parseGIDs
    logs [ih _ _ _, logs_log (by decide), logs_errDump _, logs_be64 _, logs_be16 _]

theorem logs_ipArea (m : ProposalV2) (s : Slice) (k : Nat) : Logs Lines (m.parseIPArea s k) := by
  unfold ProposalV2.parseIPArea
  logs [logs_log (by decide), logs_errDump _, logs_prefixesV2 _ _ _ _ _]

theorem logs_v2Ext (m : ProposalV2) (s : Slice) (k : Nat) : Logs Lines (m.parseV2Ext s k) := by
  unfold ProposalV2.parseV2Ext
  logs [logs_log (by decide), logs_errDump _, logs_eids _ _ _ _ _ _, logs_be16 _]

theorem logs_smcdExt (m : ProposalV2) (s : Slice) (k : Nat) : Logs Lines (m.parseSMCDExt s k) := by
  unfold ProposalV2.parseSMCDExt
  logs [logs_log (by decide), logs_errDump _, logs_gids _ _ _ _ _ _]

theorem logs_fixed (m : ProposalV2) (s : Slice) : Logs P (m.parseFixed s) := by
  unfold ProposalV2.parseFixed
  logs [logs_be64 _, logs_be16 _]

theorem logs_proposalV2 (m : ProposalV2) (s : Slice) : Logs Lines (m.parse s) := by
  unfold ProposalV2.parse
  logs [logs_hdr _ _, logs_log (by decide), logs_errDump _, logs_fixed _ _, logs_ipArea _ _ _, logs_v2Ext _ _ _,
    logs_smcdExt _ _ _, logs_trailer _ _]

theorem logs_message (m : Message) (s : Slice) : Logs Lines (m.parse s) := by
  cases m <;> unfold Message.parse <;> dsimp only <;>
    logs [logs_proposal _ _, logs_proposalV2 _ _, logs_smcr _ _, logs_smcd _ _, logs_smcdv2 _ _, logs_decline _ _,
      logs_declineV2 _ _]

theorem logs_new (s : Slice) : Logs Lines (newMessage s) := by
  unfold newMessage
  logs [logs_eye _, logs_be16 _, logs_log (by decide), logs_errDump _]

end CLC

/-! ## LLC messages and RoCE headers -/

theorem logs_none {α : Type} {x : Go α} (h : Logs (fun _ => False) x) : x.logOf = [] := by
  unfold Logs at h
  cases e : x.logOf with
  | nil => rfl
  | cons t l => exact (h t (by simp [e])).elim

namespace LLC

theorem logs_base (b : BaseMsg) (s : Slice) : Logs P (b.setBaseMsg s) := by
  unfold BaseMsg.setBaseMsg
  logs []

theorem logs_pairs (rs : List RKeyPair) (s : Slice) : Logs P (parsePairs rs s) := by
  induction rs generalizing s with
  | nil => exact logs_pure _
  | cons r rs ih =>
    unfold parsePairs RKeyPair.parse
    logs [ih _, logs_be32 _, logs_be64 _]

theorem logs_rmbs (rs : List RMBSpec) (s : Slice) : Logs P (parseRMBs rs s) := by
  induction rs generalizing s with
  | nil => exact logs_pure _
  | cons r rs ih =>
    unfold parseRMBs RMBSpec.parse
    logs [ih _, logs_be32 _, logs_be64 _]

theorem logs_rkeys (rs : List UInt32) (s : Slice) : Logs P (parseRKeys rs s) := by
  induction rs generalizing s with
  | nil => exact logs_pure _
  | cons r rs ih =>
    unfold parseRKeys
    logs [ih _, logs_be32 _, logs_be64 _]

theorem logs_ConfirmLink (m : ConfirmLink) (s : Slice) : Logs P (m.parse s) := by
  unfold ConfirmLink.parse
  logs [logs_base _ _, logs_be32 _]

theorem logs_AddLink (m : AddLink) (s : Slice) : Logs P (m.parse s) := by
  unfold AddLink.parse
  logs [logs_base _ _, logs_be32 _, logs_be64 _]

theorem logs_AddLinkCont (m : AddLinkCont) (s : Slice) : Logs P (m.parse s) := by
  unfold AddLinkCont.parse
  logs [logs_base _ _, logs_pairs _ _]

theorem logs_DeleteLink (m : DeleteLink) (s : Slice) : Logs P (m.parse s) := by
  unfold DeleteLink.parse
  logs [logs_base _ _, logs_be32 _]

theorem logs_ConfirmRKey (m : ConfirmRKey) (s : Slice) : Logs P (m.parse s) := by
  unfold ConfirmRKey.parse
  logs [logs_base _ _, logs_be32 _, logs_be64 _, logs_rmbs _ _]

theorem logs_ConfirmRKeyCont (m : ConfirmRKeyCont) (s : Slice) : Logs P (m.parse s) := by
  unfold ConfirmRKeyCont.parse
  logs [logs_base _ _, logs_rmbs _ _]

theorem logs_DeleteRKey (m : DeleteRKey) (s : Slice) : Logs P (m.parse s) := by
  unfold DeleteRKey.parse
  logs [logs_base _ _, logs_rkeys _ _]

theorem logs_TestLink (m : TestLink) (s : Slice) : Logs P (m.parse s) := by
  unfold TestLink.parse
  logs [logs_base _ _]

theorem logs_CDC (m : CDC) (s : Slice) : Logs P (m.parse s) := by
  unfold CDC.parse
  logs [logs_base _ _, logs_be16 _, logs_be32 _]

theorem logs_Other (m : Other) (s : Slice) : Logs P (m.parse s) := logs_pure _

theorem logs_parse (m : Msg) (s : Slice) : Logs P (m.parse s) := by
  cases m <;> unfold Msg.parse <;> dsimp only <;>
    logs [logs_Other _ _, logs_ConfirmLink _ _, logs_AddLink _ _, logs_AddLinkCont _ _, logs_DeleteLink _ _, logs_ConfirmRKey _ _,
      logs_ConfirmRKeyCont _ _, logs_DeleteRKey _ _, logs_TestLink _ _, logs_CDC _ _]

theorem logs_llc (s : Slice) : Logs P (parseLLC s) := by
  unfold parseLLC parseOther parseConfirm parseAddLink parseAddLinkCont parseDeleteLink parseConfirmRKey
    parseConfirmRKeyCont parseDeleteRKey parseTestLink parseCDC
  logs [logs_Other _ _, logs_ConfirmLink _ _, logs_AddLink _ _, logs_AddLinkCont _ _, logs_DeleteLink _ _, logs_ConfirmRKey _ _,
    logs_ConfirmRKeyCont _ _, logs_DeleteRKey _ _, logs_TestLink _ _, logs_CDC _ _]

end LLC

namespace RoCE

theorem logs_bth (b : BTH) (s : Slice) : Logs P (b.parse s) := by
  unfold BTH.parse
  logs [logs_be16 _]

theorem logs_v1 (s : Slice) : Logs P (parseRoCEv1 s) := by
  unfold parseRoCEv1 parseBTH parseGRH icrc payload
  logs [logs_bth _ _, LLC.logs_llc _]

theorem logs_v2 (s : Slice) : Logs P (parseRoCEv2 s) := by
  unfold parseRoCEv2 parseBTH icrc payload
  logs [logs_bth _ _, LLC.logs_llc _]

end RoCE

end SMC
