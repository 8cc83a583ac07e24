import Verif.Lemmas.TextSize
import Verif.Spec.TextSize
import Verif.Lemmas.Kept
/-!
# Lengths of the texts of CLC messages and RoCE headers
-/

namespace SMC

open Spec

namespace RoCE

theorem opcode_upto : ∀ o : UInt8, ∃ t, opcodeStr o = .ret [] t ∧ Upto 50 t := by
  have h : ∀ o : UInt8, (match opcodeStr o with | .ret [] t => decide (t.length ≤ 50) | _ => false) = true := by
    byte_decide
  intro o
  have := h o
  split at this
  · exact ⟨_, by assumption, by unfold Upto; exact of_decide_eq_true this⟩
  · simp at this

theorem bth_string_upto (b : BTH) : ∃ t, b.string = .ret [] t ∧ Upto 400 t := by
  obtain ⟨t, ht, hp⟩ := opcode_upto b.Opcode
  refine ⟨_, by unfold BTH.string; rw [ht]; rfl, ?_⟩
  upto [hp]

theorem bth_reserved_upto (b : BTH) : ∃ t, b.reserved = .ret [] t ∧ Upto 400 t := by
  obtain ⟨t, ht, hp⟩ := opcode_upto b.Opcode
  refine ⟨_, by unfold BTH.reserved; rw [ht]; rfl, ?_⟩
  upto [hp]

theorem grh_string_upto (names : UInt8 → Bytes) {n : Nat} (hn : ∀ b, Upto n (names b)) (g : GRH)
    (h1 : g.SrcIP.length ≤ 16) (h2 : g.DstIP.length ≤ 16) : Upto (300 + n) (g.string names) := by
  unfold GRH.string
  upto_var [upto_ip h1, upto_ip h2, hn _]

end RoCE

namespace CLC

theorem upto_eye (e : Bytes) : Upto 7 (eyecatcherStr e) := by
  unfold eyecatcherStr
  upto []

theorem upto_trailer (e : Bytes) : Upto 7 (trailerStr e) := upto_eye e

theorem upto_type (t : UInt8) : Upto 8 (msgTypeStr t) := by
  unfold msgTypeStr
  upto []

theorem upto_path (t : UInt8) : Upto 17 (pathStr t) := by
  unfold pathStr
  upto []

theorem upto_flag (h : Header) : Upto 25 h.flagString := by
  unfold Header.flagString
  upto [upto_path _]

theorem upto_hdrString (h : Header) : Upto 160 h.string := by
  unfold Header.string
  upto [upto_type _, upto_eye _, upto_flag _, upto_path _]

theorem upto_hdrReserved (h : Header) : Upto 180 h.reserved := by
  unfold Header.reserved
  upto [upto_type _, upto_eye _, upto_flag _, upto_path _]

theorem upto_peerID (p : Bytes) : Upto 24 (peerIDStr p) := by
  unfold peerIDStr
  upto [upto_mac (by rw [List.length_take]; omega)]

theorem upto_rmbe : ∀ s : UInt8, Upto 30 (rmbeSizeStr s) := by
  show ∀ s : UInt8, (rmbeSizeStr s).length ≤ 30
  byte_decide

theorem upto_mtu (s : UInt8) : Upto 14 (qpmtuStr s) := by
  unfold qpmtuStr
  upto []

theorem upto_os (s : UInt8) : Upto 14 (osTypeStr s) := by
  unfold osTypeStr
  upto []

theorem upto_diagText (d : UInt32) : Upto 60 (diagText d) := by
  unfold diagText
  upto []

theorem upto_diag (d : UInt32) : Upto 80 (peerDiagnosisStr d) := by
  unfold peerDiagnosisStr
  upto [upto_diagText _]

theorem upto_prefixes (ps : List IPv6Prefix) (h : ∀ p ∈ ps, p.pfx.length ≤ 16) :
    Upto (61 * ps.length) (prefixesStr ps) := by
  unfold prefixesStr
  induction ps with
  | nil => exact upto_nil
  | cons p ps ih =>
    have h1 : Upto 61 (sprintf (go! ", IPv6 Prefix: %s") [.str p.string]) := by
      unfold IPv6Prefix.string
      upto [upto_ip (h p List.mem_cons_self)]
    rw [List.flatMap_cons, List.length_cons]
    exact (upto_append h1 (ih fun q hq => h q (List.mem_cons_of_mem _ hq))).le (by omega)

theorem upto_gids (n i : Nat) (gs : List GIDEntry) (h : i + gs.length < 256) : Upto (60 * gs.length) (gidsStr n i gs) := by
  induction gs generalizing i with
  | nil => exact upto_nil
  | cons g gs ih =>
    rw [List.length_cons] at h ⊢
    unfold gidsStr
    split
    · exact Nat.zero_le _
    · have h1 : Upto 60 ((if i > 0 then go! ", " else []) ++
          sprintf (go! "GID %d: %d, VCHID %d: %d") [.num i, .num g.GID.toNat, .num i, .num g.VCHID.toNat]) := by
        upto [upto_dec (n := i) (by omega)]
      exact (upto_append h1 (ih (i + 1) (by omega))).le (by omega)

theorem trimRight_length (t : Bytes) : (trimRight t).length ≤ t.length := by
  unfold trimRight
  rw [List.length_reverse]
  refine Nat.le_trans (List.dropWhile_suffix _).length_le ?_
  rw [List.length_reverse]
  exact Nat.le_refl _

theorem upto_eid {e : Bytes} (h : e.length ≤ 32) : Upto 32 (eidStr e) := by
  rw [eidStr_eq]
  refine Nat.le_trans (trimRight_length _) (Nat.le_trans (List.length_take_le' _ _) h)

theorem upto_eids (n i : Nat) (es : List Bytes) (h : i + es.length < 256) (he : ∀ e ∈ es, e.length = 32) :
    Upto (50 * es.length) (eidsStr n i es) := by
  induction es generalizing i with
  | nil => exact upto_nil
  | cons e es ih =>
    rw [List.length_cons] at h ⊢
    unfold eidsStr
    split
    · exact Nat.zero_le _
    · have h1 : Upto 50 ((if i > 0 then go! ", " else []) ++ sprintf (go! "EID %d: %s") [.num i, .str (eidStr e)]) := by
        upto [upto_dec (n := i) (by omega), upto_eid (Nat.le_of_eq (he e List.mem_cons_self))]
      exact (upto_append h1 (ih (i + 1) (by omega) fun x hx => he x (List.mem_cons_of_mem _ hx))).le (by omega)

theorem upto_comma {t : Bytes} {k : Nat} (h : Upto k t) : Upto (2 + k) (withComma t) := by
  unfold withComma
  split
  · exact upto_append (upto_self (go! ", ")) h
  · exact h.le (by omega)

theorem upto_dec8' {n : Nat} (h : n < 10 ^ 8) : Upto 8 (dec n) := digits_length (by decide) 7 h

theorem upto_smcr (m : AcceptSMCR) (h : m.IBGID.length ≤ 16 ∧ m.IBMAC.length ≤ 6 ∧ m.QPN < 10 ^ 8 ∧ m.PSN < 10 ^ 8) :
    Upto 600 m.string ∧ Upto 700 m.reserved := by
  unfold AcceptSMCR.string AcceptSMCR.reserved
  constructor <;> upto [upto_hdrString _, upto_hdrReserved _, upto_peerID _, upto_ip h.1, upto_mac h.2.1,
    upto_dec8' h.2.2.1, upto_dec8' h.2.2.2, upto_rmbe _, upto_mtu _, upto_trailer _]

theorem upto_smcd (m : AcceptSMCD) (h : SizedSMCD m) : Upto 600 m.string ∧ Upto 700 m.reserved := by
  unfold AcceptSMCD.string AcceptSMCD.reserved
  constructor <;> upto [upto_hdrString _, upto_hdrReserved _, upto_hexBytes h.2.1, upto_hexBytes h.2.2.1, upto_rmbe _,
    upto_trailer _]

theorem upto_smcdv2 (m : AcceptSMCDv2) (h : SizedSMCDv2 m) : Upto 600 m.string ∧ Upto 700 m.reserved := by
  unfold AcceptSMCDv2.string AcceptSMCDv2.reserved AcceptSMCDv2.fceString AcceptSMCDv2.fceReserved
  constructor <;> upto [upto_hdrString _, upto_hdrReserved _, upto_hexBytes h.2.1, upto_hexBytes h.2.2.2.1,
    upto_hexBytes h.2.2.2.2.1, upto_rmbe _, upto_trailer _, upto_os _, upto_eid (Nat.le_of_eq h.2.2.1),
    upto_eid (Nat.le_of_eq h.2.2.2.2.2.1)]

theorem upto_decline (m : Decline) (h : SizedDecline m) : Upto 600 m.string ∧ Upto 700 m.reserved := by
  unfold Decline.string Decline.reserved
  constructor <;> upto [upto_hdrString _, upto_hdrReserved _, upto_hexBytes h.2.2.1, upto_peerID _, upto_diag _, upto_trailer _]

theorem upto_declineV2 (m : DeclineV2) (h : SizedDeclineV2 m) : Upto 600 m.string ∧ Upto 700 m.reserved := by
  unfold DeclineV2.string DeclineV2.reserved
  constructor <;> upto [upto_hdrString _, upto_hdrReserved _, upto_hexBytes h.2.2.1, upto_peerID _, upto_diag _, upto_os _,
    upto_trailer _]

theorem upto_proposal (m : Proposal) (h : Fits (.proposal m)) :
    Upto (600 + 61 * m.IPv6Prefixes.length) m.string ∧ Upto (700 + 61 * m.IPv6Prefixes.length) m.reserved := by
  obtain ⟨hs, hp, h1, h2, h3⟩ := h
  have hs : SizedProposal m := hs
  have hp := upto_prefixes m.IPv6Prefixes hp
  have a1 : Upto 40 (if m.IPAreaOffset.toNat = SMCDIPAreaOffset then
      sprintf (go! "SMC-D GID: %d, ") [.num m.SMCDGID.toNat] else []) := by
    upto []
  have a2 : Upto 120 (if m.IPAreaOffset.toNat = SMCDIPAreaOffset then
      sprintf (go! "SMC-D GID: %d, Reserved: %#x, ") [.num m.SMCDGID.toNat, .arr m.rsv] else []) := by
    upto [upto_hexBytes hs.2.2.1]
  unfold Proposal.string Proposal.reserved
  generalize (if m.IPAreaOffset.toNat = SMCDIPAreaOffset then
      sprintf (go! "SMC-D GID: %d, ") [.num m.SMCDGID.toNat] else []) = t1 at *
  generalize (if m.IPAreaOffset.toNat = SMCDIPAreaOffset then
      sprintf (go! "SMC-D GID: %d, Reserved: %#x, ") [.num m.SMCDGID.toNat, .arr m.rsv] else []) = t2 at *
  constructor <;> upto_var [upto_hdrString _, upto_hdrReserved _, upto_peerID _, upto_ip h1, upto_mac h2, upto_ip h3,
    hp, a1, a2, upto_hexBytes hs.2.2.2.1, upto_trailer _]

theorem upto_proposalV2 (m : ProposalV2) (h : Fits (.proposalV2 m)) :
    Upto (1800 + 61 * m.IPv6Prefixes.length) m.string ∧ Upto (2100 + 61 * m.IPv6Prefixes.length) m.reserved := by
  obtain ⟨hs, hp, h1, h2, h3⟩ := h
  have hs : SizedProposalV2 m := hs
  have hp := upto_prefixes m.IPv6Prefixes hp
  have he : Upto 400 m.propV2ExtEIDString :=
    (upto_eids _ 0 m.EIDArea (by omega) hs.2.2.2.2.2.2.2.1).le (by omega)
  have hg : Upto 480 m.smcdV2ExtGIDString := (upto_gids _ 0 m.GIDArea (by omega)).le (by omega)
  have a1 : Upto (90 + 61 * m.IPv6Prefixes.length) m.ipInfoString := by
    unfold ProposalV2.ipInfoString ProposalV2.ipV4String ProposalV2.ipV6String
    upto_var [upto_ip h3, hp]
  have a2 : Upto (120 + 61 * m.IPv6Prefixes.length) m.ipInfoReserved := by
    unfold ProposalV2.ipInfoReserved ProposalV2.ipV4String ProposalV2.ipV6String
    upto_var [upto_ip h3, hp, upto_hexBytes hs.2.2.2.1]
  have b1 : Upto 520 m.propV2ExtString := by
    unfold ProposalV2.propV2ExtString
    upto [he]
  have b2 : Upto 660 m.propV2ExtReserved := by
    unfold ProposalV2.propV2ExtReserved
    upto [he, upto_hexBytes hs.2.2.2.2.1, upto_hexBytes hs.2.2.2.2.2.1]
  have c1 : Upto 540 m.smcdV2ExtString := by
    unfold ProposalV2.smcdV2ExtString
    upto [hg, upto_eid (Nat.le_of_eq hs.2.2.2.2.2.2.2.2.1)]
  have c2 : Upto 590 m.smcdV2ExtReserved := by
    unfold ProposalV2.smcdV2ExtReserved
    upto [hg, upto_eid (Nat.le_of_eq hs.2.2.2.2.2.2.2.2.1), upto_hexBytes hs.2.2.2.2.2.2.2.2.2.1]
  unfold ProposalV2.string ProposalV2.reserved
  constructor <;> upto_var [upto_hdrString _, upto_hdrReserved _, upto_peerID _, upto_ip h1, upto_mac h2,
    upto_comma a1, upto_comma a2, upto_comma b1, upto_comma b2, upto_comma c1, upto_comma c2, upto_hexBytes hs.2.2.1,
    upto_trailer _]

theorem upto_clc (m : Message) (h : Fits m) :
    Upto (1800 + 61 * (prefixesOf m).length) m.string ∧ Upto (2100 + 61 * (prefixesOf m).length) m.reserved := by
  have up : ∀ {s r : Bytes} {n j k : Nat}, Upto (j + n) s ∧ Upto (k + n) r → j ≤ 1800 → k ≤ 2100 →
      Upto (1800 + n) s ∧ Upto (2100 + n) r := fun h a b => ⟨h.1.le (by omega), h.2.le (by omega)⟩
  cases m
  case proposal m => exact up (upto_proposal m h) (by decide) (by decide)
  case proposalV2 m => exact upto_proposalV2 m h
  case acceptSMCR m => exact up (n := 0) (upto_smcr m h.2.2) (by decide) (by decide)
  case acceptSMCD m => exact up (n := 0) (upto_smcd m h.1) (by decide) (by decide)
  case acceptSMCDv2 m => exact up (n := 0) (upto_smcdv2 m h.1) (by decide) (by decide)
  case confirmSMCR m => exact up (n := 0) (upto_smcr m h.2.2) (by decide) (by decide)
  case confirmSMCD m => exact up (n := 0) (upto_smcd m h.1) (by decide) (by decide)
  case confirmSMCDv2 m => exact up (n := 0) (upto_smcdv2 m h.1) (by decide) (by decide)
  case decline m => exact up (n := 0) (upto_decline m h.1) (by decide) (by decide)
  case declineV2 m => exact up (n := 0) (upto_declineV2 m h.1) (by decide) (by decide)

end CLC
end SMC
