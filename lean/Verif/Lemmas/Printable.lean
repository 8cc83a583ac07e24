import Verif.Spec.Printable
import Verif.LLC
import Verif.RoCE
import Verif.Lemmas.Bits
import Verif.Lemmas.Text
import Verif.Lemmas.CLCText
/-!
# Printable texts
-/

namespace SMC

open Spec

theorem printable_nil : Printable [] ↔ True := by simp [Printable]

theorem printable_append (a b : Bytes) : Printable (a ++ b) ↔ Printable a ∧ Printable b := by
  simp only [Printable, List.mem_append]
  exact ⟨fun h => ⟨fun c hc => h c (.inl hc), fun c hc => h c (.inr hc)⟩, fun h c hc => hc.elim (h.1 c) (h.2 c)⟩

theorem printable_lit (t : Bytes) (h : decide (Printable t) = true) : Printable t ↔ True := by
  simpa using h

theorem printable_of {p : UInt8 → Bool} {t : Bytes} (h : ∀ c ∈ t, p c = true)
    (hp : ∀ c, p c = true → 0x20 ≤ c ∧ c ≤ 0x7e) : Printable t ↔ True :=
  iff_true_intro fun c hc => hp c (h c hc)

theorem printable_dec (n : Nat) : Printable (dec n) ↔ True :=
  printable_of (dec_all n) (by byte_decide)

theorem printable_hexInt (n : Nat) : Printable (hexInt n) ↔ True :=
  printable_of (hexInt_all n) (by byte_decide)

theorem printable_binInt (n : Nat) : Printable (binInt n) ↔ True :=
  printable_of (binInt_all n) (by byte_decide)

theorem printable_bool (b : Bool) : Printable (boolStr b) ↔ True :=
  printable_of (boolStr_all b) (by byte_decide)

theorem printable_hexBytes (b : Bytes) : Printable (hexBytes b) ↔ True :=
  printable_of (hexBytes_all b) (by byte_decide)

theorem printable_mac (b : Bytes) : Printable (macStr b) ↔ True :=
  printable_of (macStr_all b) (by byte_decide)

theorem printable_ip (b : Bytes) : Printable (ipStr b) ↔ True :=
  printable_of (ipStr_all b) (by byte_decide)

theorem printable_ite (c : Prop) [Decidable c] (a b : Bytes) :
    Printable (if c then a else b) ↔ (c → Printable a) ∧ (¬ c → Printable b) := by
  split <;> simp [*]

/-- reduces the printability of a formatted text to that of its arguments -/
syntax "prints" "[" Lean.Parser.Tactic.simpLemma,* "]" : tactic
macro_rules
  | `(tactic| prints [$ls,*]) => `(tactic| (
    try unfmt []
    simp (disch := decide +kernel) only [printable_append, printable_dec, printable_hexInt, printable_binInt,
      printable_bool, printable_hexBytes, printable_mac, printable_ip, printable_nil, and_true, true_and,
      printable_lit, implies_true, $ls,*]))

/-! ## One line -/

theorem oneLine_append {a b : Bytes} (ha : Printable a) (hb : OneLine b) : OneLine (a ++ b) := by
  obtain ⟨p, rfl, hp⟩ := hb
  exact ⟨a ++ p, by simp, (printable_append a p).2 ⟨ha, hp⟩⟩

theorem oneLine_lit {t : Bytes} (h : t.getLast? = some 0x0a) (hp : Printable t.dropLast) : OneLine t := by
  refine ⟨t.dropLast, ?_, hp⟩
  rcases List.eq_nil_or_concat t with rfl | ⟨s, x, rfl⟩
  · simp at h
  · simp at h
    simp [h]

/-- shows that a formatted text is one line -/
syntax "line" "[" Lean.Parser.Tactic.simpLemma,* "]" : tactic
macro_rules
  | `(tactic| line [$ls,*]) => `(tactic| (
    unfmt []
    repeat' first
      | exact oneLine_lit (by decide +kernel) (by decide +kernel)
      | refine oneLine_append ?_ ?_
    all_goals prints [$ls,*]))

/-! ## Parts of LLC messages -/

namespace LLC

theorem printable_qpmtu (m : UInt8) : Printable (qpmtuStr m) ↔ True := by
  unfold qpmtuStr
  prints [printable_ite]

theorem printable_addRsn (r : UInt8) : Printable (addLinkRsnStr r) ↔ True := by
  unfold addLinkRsnStr
  prints [printable_ite]

theorem printable_delRsn (r : UInt32) : Printable (delLinkRsnStr r) ↔ True := by
  unfold delLinkRsnStr
  prints [printable_ite]

theorem printable_pair (r : RKeyPair) : Printable r.string ↔ True := by
  unfold RKeyPair.string
  prints []

theorem printable_pairsStr (i : Nat) (rs : List RKeyPair) (t : Bytes) (ht : Printable t) :
    Printable (pairsStr i rs t) := by
  induction rs generalizing i t with
  | nil => exact ht
  | cons r rs ih =>
    unfold pairsStr
    refine ih _ _ ?_
    prints [printable_pair]

theorem printable_pairsRes (i : Nat) (rs : List RKeyPair) (t : Bytes) (ht : Printable t) :
    Printable (pairsRes i rs t) := by
  induction rs generalizing i t with
  | nil => exact ht
  | cons r rs ih =>
    unfold pairsRes
    refine ih _ _ ?_
    prints [printable_pair]

theorem printable_rmb (r : RMBSpec) : Printable r.string ↔ True := by
  unfold RMBSpec.string
  prints []

theorem printable_rmbsStr (i : Nat) (rs : List RMBSpec) : Printable (rmbsStr i rs) ↔ True := by
  induction rs generalizing i with
  | nil => exact printable_nil
  | cons r rs ih =>
    unfold rmbsStr
    prints [printable_rmb, ih]

theorem printable_rmbsRes (i : Nat) (rs : List RMBSpec) : Printable (rmbsRes i rs) ↔ True := by
  induction rs generalizing i with
  | nil => exact printable_nil
  | cons r rs ih =>
    unfold rmbsRes
    prints [printable_rmb, ih]

theorem printable_rkeysStr (i : Nat) (rs : List UInt32) : Printable (rkeysStr i rs) ↔ True := by
  induction rs generalizing i with
  | nil => exact printable_nil
  | cons r rs ih =>
    unfold rkeysStr
    prints [ih]

theorem printable_rkeysRes (i : Nat) (rs : List UInt32) : Printable (rkeysRes i rs) ↔ True := by
  induction rs generalizing i with
  | nil => exact printable_nil
  | cons r rs ih =>
    unfold rkeysRes
    prints [ih]

set_option maxRecDepth 4000 in
theorem oneLine_string (m : Msg) : OneLine m.string := by
  cases m <;> unfold Msg.string <;> dsimp only
  case other m => exact oneLine_lit (t := go! "Other Payload\n") (by decide) (by decide)
  case confirmLink m => unfold ConfirmLink.string; line []
  case addLink m => unfold AddLink.string; line [printable_qpmtu, printable_addRsn]
  case addLinkCont m => unfold AddLinkCont.string; line [iff_true_intro (printable_pairsStr 0 _ [] (by decide))]
  case deleteLink m => unfold DeleteLink.string; line [printable_delRsn]
  case confirmRKey m => unfold ConfirmRKey.string; line [printable_rmbsStr]
  case confirmRKeyCont m => unfold ConfirmRKeyCont.string; line [printable_rmbsStr]
  case deleteRKey m => unfold DeleteRKey.string; line [printable_rkeysStr]
  case testLink m => unfold TestLink.string; line []
  case cdc m => unfold CDC.string; line []

set_option maxRecDepth 4000 in
theorem oneLine_reserved (m : Msg) : OneLine m.reserved := by
  cases m <;> unfold Msg.reserved <;> dsimp only
  case other m => exact oneLine_lit (t := go! "Other Payload\n") (by decide) (by decide)
  case confirmLink m => unfold ConfirmLink.reserved; line []
  case addLink m => unfold AddLink.reserved; line [printable_qpmtu, printable_addRsn]
  case addLinkCont m => unfold AddLinkCont.reserved; line [iff_true_intro (printable_pairsRes 0 _ [] (by decide))]
  case deleteLink m => unfold DeleteLink.reserved; line [printable_delRsn]
  case confirmRKey m => unfold ConfirmRKey.reserved; line [printable_rmbsRes]
  case confirmRKeyCont m => unfold ConfirmRKeyCont.reserved; line [printable_rmbsRes]
  case deleteRKey m => unfold DeleteRKey.reserved; line [printable_rkeysRes]
  case testLink m => unfold TestLink.reserved; line []
  case cdc m => unfold CDC.reserved; line []

end LLC

/-! ## Parts of RoCE headers -/

namespace RoCE

theorem opcode_printable : ∀ o : UInt8, ∃ t, opcodeStr o = .ret [] t ∧ Printable t := by
  have h : ∀ o : UInt8, (match opcodeStr o with | .ret [] t => decide (Printable t) | _ => false) = true := by
    byte_decide
  intro o
  have := h o
  split at this
  · exact ⟨_, by assumption, by simpa using this⟩
  · simp at this

theorem bth_string (b : BTH) : ∃ t, b.string = .ret [] t ∧ OneLine t := by
  obtain ⟨t, ht, hp⟩ := opcode_printable b.Opcode
  refine ⟨_, by unfold BTH.string; rw [ht]; rfl, ?_⟩
  line [hp]

theorem bth_reserved (b : BTH) : ∃ t, b.reserved = .ret [] t ∧ OneLine t := by
  obtain ⟨t, ht, hp⟩ := opcode_printable b.Opcode
  refine ⟨_, by unfold BTH.reserved; rw [ht]; rfl, ?_⟩
  line [hp]

theorem grh_string (names : UInt8 → Bytes) (hn : ∀ b, Printable (names b)) (g : GRH) : OneLine (g.string names) := by
  unfold GRH.string
  line [printable_ite, hn]

end RoCE

/-! ## Parts of CLC messages -/

namespace CLC

theorem printable_eye (e : Bytes) : Printable (eyecatcherStr e) ↔ True := by
  unfold eyecatcherStr
  prints [printable_ite]

theorem printable_trailer (e : Bytes) : Printable (trailerStr e) ↔ True := printable_eye e

theorem printable_type (t : UInt8) : Printable (msgTypeStr t) ↔ True := by
  unfold msgTypeStr
  prints [printable_ite]

theorem printable_path (t : UInt8) : Printable (pathStr t) ↔ True := by
  unfold pathStr
  prints [printable_ite]

theorem printable_flag (h : Header) : Printable h.flagString ↔ True := by
  unfold Header.flagString
  prints [printable_ite, printable_path]

theorem printable_hdrString (h : Header) : Printable h.string ↔ True := by
  unfold Header.string
  prints [printable_type, printable_eye, printable_flag, printable_path]

theorem printable_hdrReserved (h : Header) : Printable h.reserved ↔ True := by
  unfold Header.reserved
  prints [printable_ite, printable_type, printable_eye, printable_flag, printable_path]

theorem printable_peerID (p : Bytes) : Printable (peerIDStr p) ↔ True := by
  unfold peerIDStr
  prints []

theorem printable_rmbe (s : UInt8) : Printable (rmbeSizeStr s) ↔ True := by
  unfold rmbeSizeStr shiftStr
  prints [printable_ite]

theorem printable_mtu (s : UInt8) : Printable (qpmtuStr s) ↔ True := by
  unfold qpmtuStr
  prints [printable_ite]

theorem printable_os (s : UInt8) : Printable (osTypeStr s) ↔ True := by
  unfold osTypeStr
  prints [printable_ite]

theorem printable_diagText (d : UInt32) : Printable (diagText d) ↔ True := by
  refine iff_true_intro ?_
  unfold diagText
  repeat' first
    | refine (printable_ite _ _ _).2 ⟨fun _ => ?_, fun _ => ?_⟩
    | decide +kernel

theorem printable_diag (d : UInt32) : Printable (peerDiagnosisStr d) ↔ True := by
  unfold peerDiagnosisStr
  prints [printable_diagText]

theorem printable_prefixes (ps : List IPv6Prefix) : Printable (prefixesStr ps) ↔ True := by
  unfold prefixesStr
  induction ps with
  | nil => exact printable_nil
  | cons p ps ih =>
    rw [List.flatMap_cons, printable_append, ih]
    unfold IPv6Prefix.string
    prints []

theorem printable_gids (n i : Nat) (gs : List GIDEntry) : Printable (gidsStr n i gs) ↔ True := by
  induction gs generalizing i with
  | nil => exact printable_nil
  | cons g gs ih =>
    unfold gidsStr
    prints [printable_ite, ih]

theorem printable_trim (t : Bytes) : Printable (trimRight t) ↔ Printable t := by
  have hr : ∀ s : Bytes, Printable s.reverse ↔ Printable s := by simp [Printable]
  have h : ∀ s : Bytes, Printable (s.dropWhile (· = 32)) ↔ Printable s := by
    intro s
    induction s with
    | nil => rfl
    | cons c s ih =>
      rw [List.dropWhile_cons]
      by_cases hc : c = 32
      · subst hc
        simp only [decide_true, if_true]
        rw [ih, show (32 :: s : Bytes) = [32] ++ s from rfl, printable_append, printable_lit [32] (by decide), true_and]
      · rw [if_neg (by simpa using hc)]
  unfold trimRight
  rw [hr, h, hr]

/-- blanks at the end are printable: removing them does not matter -/
theorem printable_eid (e : Bytes) : Printable (eidStr e) ↔ Printable (name e) := by
  rw [eidStr_eq, printable_trim]
  suffices h : e.take ((e.findIdx? (· = 0)).getD e.length) = name e by rw [h]
  unfold name
  induction e with
  | nil => rfl
  | cons c e ih =>
    rw [List.findIdx?_cons, List.takeWhile_cons]
    by_cases hc : c = 0
    · simp [hc]
    · simp only [hc, decide_false, Bool.false_eq_true, if_false, ne_eq, not_false_eq_true, decide_true, if_true]
      rw [← ih]
      cases e.findIdx? (· = 0) <;> simp

theorem printable_eids (n i : Nat) (es : List Bytes) :
    Printable (eidsStr n i es) ↔ ∀ e ∈ es.take (n - i), Printable (name e) := by
  induction es generalizing i with
  | nil => simp [eidsStr, Printable]
  | cons e es ih =>
    unfold eidsStr
    by_cases h : i ≥ n
    · rw [if_pos h, show n - i = 0 by omega]
      simp [Printable]
    · rw [if_neg h, show n - i = (n - (i + 1)) + 1 by omega, List.take_succ_cons, List.forall_mem_cons, ← ih]
      prints [printable_ite, printable_eid]

theorem printable_comma (t : Bytes) : Printable (withComma t) ↔ Printable t := by
  unfold withComma
  split
  · prints []
  · rfl

theorem forall_ite_nil (c : Prop) [Decidable c] (l : List Bytes) (P : Bytes → Prop) :
    (∀ n ∈ (if c then l else []), P n) ↔ (c → ∀ n ∈ l, P n) := by
  split <;> simp [*]

theorem forall_ite_nil' (c : Prop) [Decidable c] (l : List Bytes) (P : Bytes → Prop) :
    (∀ n ∈ (if c then [] else l), P n) ↔ (¬ c → ∀ n ∈ l, P n) := by
  split <;> simp [*]

theorem printable_v2string (p : ProposalV2) :
    Printable p.string ↔ ∀ n ∈ (if p.hdr.Pathv2 = 2 then [] else p.EIDArea.take p.EIDNumber.toNat) ++
      (if p.hdr.Pathv2 = 1 ∨ p.hdr.Pathv2 = 3 then [p.SEID] else []), Printable (name n) := by
  rw [List.forall_mem_append, forall_ite_nil', forall_ite_nil, ← Nat.sub_zero p.EIDNumber.toNat,
    ← printable_eids p.EIDNumber.toNat 0]
  unfold ProposalV2.string ProposalV2.ipInfoString ProposalV2.propV2ExtString ProposalV2.smcdV2ExtString
    ProposalV2.ipV4String ProposalV2.ipV6String ProposalV2.propV2ExtEIDString ProposalV2.smcdV2ExtGIDString
    SMCTypeN SMCTypeD SMCTypeB
  prints [printable_hdrString, printable_peerID, printable_comma, printable_ite, printable_prefixes, printable_gids, printable_eid,
    printable_trailer]
  simp only [ne_eq, Classical.not_and_iff_not_or_not, Classical.not_not, List.forall_mem_singleton]

theorem printable_dv2string (p : AcceptSMCDv2) :
    Printable p.string ↔ ∀ n ∈ p.EID :: (if 114 ≤ p.hdr.Length.toNat then [p.Hostname] else []), Printable (name n) := by
  rw [List.forall_mem_cons, forall_ite_nil]
  unfold AcceptSMCDv2.string AcceptSMCDv2.fceString AcceptSMCDv2FCELen
  prints [printable_hdrString, printable_rmbe, printable_ite, printable_os, printable_eid, printable_trailer]
  simp only [Nat.not_lt, List.forall_mem_singleton]

theorem printable_v2reserved (p : ProposalV2) :
    Printable p.reserved ↔ ∀ n ∈ (if p.hdr.Pathv2 = 2 then [] else p.EIDArea.take p.EIDNumber.toNat) ++
      (if p.hdr.Pathv2 = 1 ∨ p.hdr.Pathv2 = 3 then [p.SEID] else []), Printable (name n) := by
  rw [List.forall_mem_append, forall_ite_nil', forall_ite_nil, ← Nat.sub_zero p.EIDNumber.toNat,
    ← printable_eids p.EIDNumber.toNat 0]
  unfold ProposalV2.reserved ProposalV2.ipInfoReserved ProposalV2.propV2ExtReserved ProposalV2.smcdV2ExtReserved
    ProposalV2.ipV4String ProposalV2.ipV6String ProposalV2.propV2ExtEIDString ProposalV2.smcdV2ExtGIDString
    SMCTypeN SMCTypeD SMCTypeB
  prints [printable_hdrReserved, printable_peerID, printable_comma, printable_ite, printable_prefixes, printable_gids, printable_eid,
    printable_trailer]
  simp only [ne_eq, Classical.not_and_iff_not_or_not, Classical.not_not, List.forall_mem_singleton]

theorem printable_dv2reserved (p : AcceptSMCDv2) :
    Printable p.reserved ↔ ∀ n ∈ p.EID :: (if 114 ≤ p.hdr.Length.toNat then [p.Hostname] else []), Printable (name n) := by
  rw [List.forall_mem_cons, forall_ite_nil]
  unfold AcceptSMCDv2.reserved AcceptSMCDv2.fceReserved AcceptSMCDv2FCELen
  prints [printable_hdrReserved, printable_rmbe, printable_ite, printable_os, printable_eid, printable_trailer]
  simp only [Nat.not_lt, List.forall_mem_singleton]

theorem printable_string (m : Message) : Printable m.string ↔ ∀ n ∈ shownNames m, Printable (name n) := by
  cases m <;> unfold Message.string shownNames <;> dsimp only
  case proposal p =>
    unfold Proposal.string
    prints [printable_hdrString, printable_peerID, printable_ite, printable_prefixes, printable_trailer, List.not_mem_nil,
      false_implies]
  case proposalV2 p => exact printable_v2string p
  case acceptSMCR p =>
    unfold AcceptSMCR.string
    prints [printable_hdrString, printable_peerID, printable_rmbe, printable_mtu, printable_trailer, List.not_mem_nil, false_implies]
  case acceptSMCD p =>
    unfold AcceptSMCD.string
    prints [printable_hdrString, printable_rmbe, printable_trailer, List.not_mem_nil, false_implies]
  case acceptSMCDv2 p => exact printable_dv2string p
  case confirmSMCR p =>
    unfold AcceptSMCR.string
    prints [printable_hdrString, printable_peerID, printable_rmbe, printable_mtu, printable_trailer, List.not_mem_nil, false_implies]
  case confirmSMCD p =>
    unfold AcceptSMCD.string
    prints [printable_hdrString, printable_rmbe, printable_trailer, List.not_mem_nil, false_implies]
  case confirmSMCDv2 p => exact printable_dv2string p
  case decline p =>
    unfold Decline.string
    prints [printable_hdrString, printable_peerID, printable_diag, printable_trailer, List.not_mem_nil, false_implies]
  case declineV2 p =>
    unfold DeclineV2.string
    prints [printable_hdrString, printable_peerID, printable_diag, printable_os, printable_trailer, List.not_mem_nil, false_implies]

theorem printable_reserved (m : Message) : Printable m.reserved ↔ ∀ n ∈ shownNames m, Printable (name n) := by
  cases m <;> unfold Message.reserved shownNames <;> dsimp only
  case proposal p =>
    unfold Proposal.reserved
    prints [printable_hdrReserved, printable_peerID, printable_ite, printable_prefixes, printable_trailer, List.not_mem_nil,
      false_implies]
  case proposalV2 p => exact printable_v2reserved p
  case acceptSMCR p =>
    unfold AcceptSMCR.reserved
    prints [printable_hdrReserved, printable_peerID, printable_rmbe, printable_mtu, printable_trailer, List.not_mem_nil, false_implies]
  case acceptSMCD p =>
    unfold AcceptSMCD.reserved
    prints [printable_hdrReserved, printable_rmbe, printable_trailer, List.not_mem_nil, false_implies]
  case acceptSMCDv2 p => exact printable_dv2reserved p
  case confirmSMCR p =>
    unfold AcceptSMCR.reserved
    prints [printable_hdrReserved, printable_peerID, printable_rmbe, printable_mtu, printable_trailer, List.not_mem_nil, false_implies]
  case confirmSMCD p =>
    unfold AcceptSMCD.reserved
    prints [printable_hdrReserved, printable_rmbe, printable_trailer, List.not_mem_nil, false_implies]
  case confirmSMCDv2 p => exact printable_dv2reserved p
  case decline p =>
    unfold Decline.reserved
    prints [printable_hdrReserved, printable_peerID, printable_diag, printable_trailer, List.not_mem_nil, false_implies]
  case declineV2 p =>
    unfold DeclineV2.reserved
    prints [printable_hdrReserved, printable_peerID, printable_diag, printable_os, printable_trailer, List.not_mem_nil, false_implies]

end CLC

end SMC
