import Verif.Lemmas.ProposalV2
import Verif.Props.CLCFixed
import Verif.Spec.Proposal
/-!
# The result of `ProposalV2.Parse` on complete messages in one expression
-/

namespace SMC.CLC

open SMC.Spec SMC.Props

theorem num_getD (v : Bytes) (i : Nat) (h : i < v.length) : num v i 0 8 = (v.getD i 0).toNat := by
  rw [num_8 v i h, getD_lt h]

theorem path_eq (v : Bytes) (hv : 8 ≤ v.length) : (hdrOf v hv).Path.toNat = pathOf v := (hdrOf_wire v hv).path
theorem pathv2_eq (v : Bytes) (hv : 8 ≤ v.length) : (hdrOf v hv).Pathv2.toNat = pathv2Of v := (hdrOf_wire v hv).pathv2

theorem entries_eq (L k w n : Nat) : entries L k w n = min n (fits L k w) := rfl

section
variable (v e : Bytes) (hv : 8 ≤ v.length)

/-- the message after the IP area -/
def v2P (p : ProposalV2) (h : 84 ≤ v.length) : ProposalV2 :=
  if pathOf v = 2 then v2Fixed v e hv p h else v2IP v (v2Fixed v e hv p h)
/-- the message after the v2 extension -/
def v2Q (p : ProposalV2) (h : 84 ≤ v.length) : ProposalV2 :=
  if pathv2Of v = 2 then v2P v e hv p h else v2Ext v (v2P v e hv p h) (extAt v)
/-- the message after the SMC-D v2 extension -/
def v2R (p : ProposalV2) (h : 84 ≤ v.length) : ProposalV2 :=
  if HasSMCD v then v2SMCD v (v2Q v e hv p h) (smcdAt v) else v2Q v e hv p h

/-- what is logged while the IP area is decoded -/
def v2LogP : List Bytes := if pathOf v = 2 then [] else pfxLog pfxTextV2 v (declared v) 88 17 (num v 87 0 8)
/-- what is logged while the v2 extension is decoded -/
def v2LogQ : List Bytes :=
  if pathv2Of v = 2 then [] else pfxLog eidText v (declared v) (extAt v + 40) 32 (num v (extAt v) 0 8)
/-- what is logged while the SMC-D v2 extension is decoded -/
def v2LogR : List Bytes :=
  if HasSMCD v then pfxLog gidText v (declared v) (smcdAt v + 48) 10 (num v (extAt v + 1) 0 8) else []

/-- error text for an IP area without room -/
def ipText : Bytes := go! "Error parsing CLC Proposal v2: IP Area Offset too big"
/-- error text for a v2 extension without room -/
def extText : Bytes := go! "Error parsing CLC Proposal v2: Not enough space for Proposal v2 Extension"
/-- error text for an SMC-D v2 extension without room -/
def smcdText : Bytes := go! "Error parsing CLC Proposal v2: Not enough space for SMC-D v2 Extension"

theorem v2P_hdr (p : ProposalV2) (h : 84 ≤ v.length) : (v2P v e hv p h).hdr = hdrOf v hv := by
  unfold v2P; split <;> rfl
theorem v2Q_hdr (p : ProposalV2) (h : 84 ≤ v.length) : (v2Q v e hv p h).hdr = hdrOf v hv := by
  unfold v2Q; split
  · exact v2P_hdr ..
  · exact v2P_hdr ..

/-- The whole parser, for a message of at least 84 bytes that lies in the buffer. -/
def v2Result (p : ProposalV2) (h : 84 ≤ v.length) : Go ProposalV2 :=
  if ¬ RoomIP v then .ret (errLog ipText v (declared v)) (v2Fixed v e hv p h)
  else if ¬ RoomExt v then .ret (v2LogP v ++ errLog extText v (declared v)) (v2P v e hv p h)
  else if HasExt v ∧ 8 < eidCount v then .panic (v2LogP v)
  else if ¬ RoomSMCD v then .ret (v2LogP v ++ v2LogQ v ++ errLog smcdText v (declared v)) (v2Q v e hv p h)
  else if HasSMCD v ∧ 8 < gidCount v then .panic (v2LogP v ++ v2LogQ v)
  else .ret (v2LogP v ++ v2LogQ v ++ v2LogR v ++ trailerLog (last4 v))
    { v2R v e hv p h with trailer := last4 v }

theorem toNat_eq_two (a : UInt8) : a = 2 ↔ a.toNat = 2 := by
  constructor
  · rintro rfl; rfl
  · intro h; exact UInt8.toNat_inj.1 h
theorem toNat_eq_one (a : UInt8) : a = 1 ↔ a.toNat = 1 := by
  constructor
  · rintro rfl; rfl
  · intro h; exact UInt8.toNat_inj.1 h
theorem toNat_eq_three (a : UInt8) : a = 3 ↔ a.toNat = 3 := by
  constructor
  · rintro rfl; rfl
  · intro h; exact UInt8.toNat_inj.1 h

/-- the IP area -/
theorem v2_ip (p : ProposalV2) (h : 84 ≤ v.length) (hr : p.rsv2.length = 2) (hL : declared v ≤ v.length) :
    (v2Fixed v e hv p h).parseIPArea ⟨v, e⟩ 80 =
      if ¬ RoomIP v then .ret (errLog ipText v (declared v)) (v2Fixed v e hv p h, none)
      else .ret (v2LogP v) (v2P v e hv p h, some (extAt v)) := by
  have hlen : (v2Fixed v e hv p h).hdr.Length.toNat = declared v := declared_eq v hv
  have hpath : (v2Fixed v e hv p h).hdr.Path = 2 ↔ pathOf v = 2 := by
    rw [toNat_eq_two]; show (hdrOf v hv).Path.toNat = 2 ↔ _; rw [path_eq]
  unfold v2LogP v2P extAt
  by_cases hp : pathOf v = 2
  · rw [if_neg (show ¬¬ RoomIP v from fun c => c (fun x => absurd hp x)), if_pos hp, if_pos hp, if_pos hp]
    exact parseIPArea_none v e _ (hpath.2 hp)
  · rw [if_neg hp, if_neg hp, if_neg hp]
    by_cases hr' : 92 ≤ declared v
    · rw [if_neg (show ¬¬ RoomIP v from fun c => c (fun _ => hr'))]
      have := parseIPArea_full v e _ (fun c => hp (hpath.1 c)) (show (v2Fixed v e hv p h).rsv2.length = 2 from hr)
        (by rwa [hlen]) (by rwa [hlen])
      rw [this, hlen, pfxCount, entries_eq, num_getD v 87 (by omega)]
    · rw [if_pos (show ¬ RoomIP v from fun c => hr' (c hp))]
      have := parseIPArea_big v e _ (fun c => hp (hpath.1 c)) (by rwa [hlen]) (by rw [hlen]; omega)
      rw [this, hlen]; rfl

/-- the v2 extension -/
theorem v2_ext (p : ProposalV2) (h : 84 ≤ v.length) (h5 : p.rsv5.length = 2) (h6 : p.rsv6.length = 32)
    (h7 : ∀ x ∈ p.EIDArea, x.length = 32) (h8 : p.EIDArea.length = 8) (hL : declared v ≤ v.length) :
    (v2P v e hv p h).parseV2Ext ⟨v, e⟩ (extAt v) =
      if ¬ RoomExt v then .ret (errLog extText v (declared v)) (v2P v e hv p h, none)
      else if HasExt v ∧ 8 < eidCount v then .panic []
      else .ret (v2LogQ v) (v2Q v e hv p h, some (smcdAt v)) := by
  have hlen : (v2P v e hv p h).hdr.Length.toNat = declared v := by rw [v2P_hdr]; exact declared_eq v hv
  have hpath : (v2P v e hv p h).hdr.Pathv2 = 2 ↔ pathv2Of v = 2 := by
    rw [toNat_eq_two, v2P_hdr, pathv2_eq]
  have g5 : (v2P v e hv p h).rsv5 = p.rsv5 := by unfold v2P; split <;> rfl
  have g6 : (v2P v e hv p h).rsv6 = p.rsv6 := by unfold v2P; split <;> rfl
  have g7 : (v2P v e hv p h).EIDArea = p.EIDArea := by unfold v2P; split <;> rfl
  unfold v2LogQ v2Q smcdAt
  by_cases hp : pathv2Of v = 2
  · rw [if_neg (show ¬¬ RoomExt v from fun c => c (fun x => absurd hp x)), if_neg (fun c => c.1 hp), if_pos hp, if_pos hp,
      if_pos hp]
    exact parseV2Ext_none v e _ _ (hpath.2 hp)
  · rw [if_neg hp, if_neg hp, if_neg hp]
    by_cases hr' : extAt v + 44 ≤ declared v
    · rw [if_neg (show ¬¬ RoomExt v from fun c => c (fun _ => hr'))]
      have := parseV2Ext_full v e (v2P v e hv p h) (extAt v) (fun c => hp (hpath.1 c)) (by rw [g5, h5]) (by rw [g6, h6])
        (by rw [g7]; exact h7) (by rw [g7, h8]) (by rwa [hlen]) (by rwa [hlen])
      rw [this, hlen, eidCount, entries_eq, num_getD v (extAt v) (by omega)]
      by_cases hc : min (v.getD (extAt v) 0).toNat (fits (declared v) (extAt v + 40) 32) ≤ 8
      · rw [if_pos hc, if_neg (by omega)]
      · rw [if_neg hc, if_pos ⟨hp, by omega⟩]
    · rw [if_pos (show ¬ RoomExt v from fun c => hr' (c hp))]
      have := parseV2Ext_big v e (v2P v e hv p h) (extAt v) (fun c => hp (hpath.1 c)) (by rwa [hlen]) (by rw [hlen]; omega)
      rw [this, hlen]; rfl

/-- the SMC-D v2 extension -/
theorem v2_smcd (p : ProposalV2) (h : 84 ≤ v.length) (h5 : p.SEID.length = 32) (h6 : p.rsv7.length = 16)
    (h8 : p.GIDArea.length = 8) (hL : declared v ≤ v.length) (hx : RoomExt v) :
    ∃ k, (v2Q v e hv p h).parseSMCDExt ⟨v, e⟩ (smcdAt v) =
      if ¬ RoomSMCD v then .ret (errLog smcdText v (declared v)) (v2Q v e hv p h, none)
      else if HasSMCD v ∧ 8 < gidCount v then .panic []
      else .ret (v2LogR v) (v2R v e hv p h, some k) := by
  have hlen : (v2Q v e hv p h).hdr.Length.toNat = declared v := by rw [v2Q_hdr]; exact declared_eq v hv
  have hpath : ((v2Q v e hv p h).hdr.Pathv2 = 1 ∨ (v2Q v e hv p h).hdr.Pathv2 = 3) ↔ HasSMCD v := by
    rw [toNat_eq_one, toNat_eq_three, v2Q_hdr, pathv2_eq]
  have g5 : (v2Q v e hv p h).SEID = p.SEID := by unfold v2Q v2P; split <;> split <;> rfl
  have g6 : (v2Q v e hv p h).rsv7 = p.rsv7 := by unfold v2Q v2P; split <;> split <;> rfl
  have g7 : (v2Q v e hv p h).GIDArea = p.GIDArea := by unfold v2Q v2P; split <;> split <;> rfl
  unfold v2LogR v2R
  by_cases hp : HasSMCD v
  · by_cases hr' : smcdAt v + 52 ≤ declared v
    · refine ⟨smcdAt v + 48, ?_⟩
      rw [if_neg (show ¬¬ RoomSMCD v from fun c => c (fun _ => hr')), if_pos hp, if_pos hp]
      have hp2 : HasExt v := by rcases hp with h | h <;> (unfold HasExt; omega)
      have := hx hp2
      have hg : (v2Q v e hv p h).GIDNumber = v.getD (extAt v + 1) 0 := by
        unfold v2Q; rw [if_neg hp2]; rfl
      have := parseSMCDExt_full v e (v2Q v e hv p h) (smcdAt v) (hpath.2 hp) (by rw [g5, h5]) (by rw [g6, h6])
        (by rw [g7, h8]) (by rwa [hlen]) (by rwa [hlen])
      rw [this, hlen, gidCount, entries_eq, num_getD v (extAt v + 1) (by omega), hg]
      by_cases hc : min (v.getD (extAt v + 1) 0).toNat (fits (declared v) (smcdAt v + 48) 10) ≤ 8
      · rw [if_pos hc, if_neg (by omega)]
      · rw [if_neg hc, if_pos ⟨hp, by omega⟩]
    · refine ⟨0, ?_⟩
      rw [if_pos (show ¬ RoomSMCD v from fun c => hr' (c hp))]
      have := parseSMCDExt_big v e (v2Q v e hv p h) (smcdAt v) (hpath.2 hp) (by rwa [hlen]) (by rw [hlen]; omega)
      rw [this, hlen]; rfl
  · refine ⟨smcdAt v, ?_⟩
    rw [if_neg (show ¬¬ RoomSMCD v from fun c => c (fun x => absurd x hp)), if_neg (fun c => hp c.1), if_neg hp, if_neg hp]
    exact parseSMCDExt_none v e _ _ (fun c => hp (hpath.1 c))

theorem proposalV2_result (p : ProposalV2) (hp : SizedProposalV2 p) (h : 84 ≤ v.length) (hl : 84 ≤ declared v)
    (hL : declared v ≤ v.length) : p.parse ⟨v, e⟩ = v2Result v e hv p h := by
  obtain ⟨g1, g2, g3, g4, g5, g6, g7, g8, g9, g10, g11, g12⟩ := hp
  rw [proposalV2_step v e hv p g1 g2 g3 (by rwa [declared_eq]) h]
  unfold v2Rest v2Result
  rw [v2_ip v e hv p h g4 hL]
  by_cases c1 : RoomIP v
  case neg => rw [if_pos c1, if_pos c1]; rfl
  have n1 : ¬¬ RoomIP v := fun c => c c1
  rw [if_neg n1, if_neg n1]
  simp only [Go.bind_withLog]
  rw [v2_ext v e hv p h g5 g6 g8 g7 hL]
  by_cases c2 : RoomExt v
  case neg => rw [if_pos c2, if_pos c2]; simp only [Go.bind_withLog, Go.withLog_ret, Go.pure_eq, List.append_nil]
  have n2 : ¬¬ RoomExt v := fun c => c c2
  rw [if_neg n2, if_neg n2]
  by_cases c3 : HasExt v ∧ 8 < eidCount v
  · rw [if_pos c3, if_pos c3, Go.panic_bind, Go.withLog_panic, List.append_nil]
  rw [if_neg c3, if_neg c3]
  simp only [Go.bind_withLog]
  obtain ⟨k, hk⟩ := v2_smcd v e hv p h g9 g10 g11 hL c2
  rw [hk]
  by_cases c4 : RoomSMCD v
  case neg => rw [if_pos c4, if_pos c4]; simp only [Go.bind_withLog, Go.withLog_ret, Go.pure_eq, List.append_nil, List.append_assoc]
  have n4 : ¬¬ RoomSMCD v := fun c => c c4
  rw [if_neg n4, if_neg n4]
  by_cases c5 : HasSMCD v ∧ 8 < gidCount v
  · rw [if_pos c5, if_pos c5, Go.panic_bind]; simp only [Go.withLog_panic, List.append_nil]
  rw [if_neg c5, if_neg c5]
  simp only [Go.bind_withLog]
  have gt : (v2R v e hv p h).trailer = p.trailer := by unfold v2R v2Q v2P; split <;> split <;> split <;> rfl
  rw [gt, trailer_parse _ g12 v e (by omega)]
  simp only [Go.bind_withLog, Go.withLog_ret, Go.pure_eq, List.append_nil, List.append_assoc]

end

end SMC.CLC
