import Verif.Props.CLCParse
/-!
# C43: the decoded fields depend only on the message
-/

namespace SMC.Props

open SMC Spec CLC

/-! ## Byte strings with a common beginning -/

/-- the first `n` bytes of both are there and the same -/
structure Agree (n : Nat) (v v' : Bytes) : Prop where
  left : n ≤ v.length
  right : n ≤ v'.length
  same : v.take n = v'.take n

namespace Agree
variable {n : Nat} {v v' : Bytes} (a : Agree n v v')

include a in
theorem symm : Agree n v' v := ⟨a.right, a.left, a.same.symm⟩

include a in
theorem get? (i : Nat) (h : i < n) : v[i]? = v'[i]? := by
  have := congrArg (·[i]?) a.same
  simpa [List.getElem?_take, h] using this

include a in
theorem get (i : Nat) (h : i < n) (h1 : i < v.length) (h2 : i < v'.length) : v[i] = v'[i] := by
  have := a.get? i h
  rw [List.getElem?_eq_getElem h1, List.getElem?_eq_getElem h2] at this
  exact Option.some.inj this

include a in
theorem getD (i : Nat) (h : i < n) : v.getD i 0 = v'.getD i 0 := by
  rw [List.getD_eq_getElem?_getD, List.getD_eq_getElem?_getD, a.get? i h]

include a in
theorem mid (k w : Nat) (h : k + w ≤ n) : (v.drop k).take w = (v'.drop k).take w := by
  have := congrArg (fun x => (x.drop k).take w) a.same
  simp only [List.drop_take, List.take_take] at this
  rwa [Nat.min_eq_left (by omega)] at this

include a in
theorem take (w : Nat) (h : w ≤ n) : v.take w = v'.take w := by
  have := a.mid 0 w (by omega)
  simpa using this

include a in
theorem num (k i w : Nat) (h : 8 * k + i + w ≤ 8 * n) : num v k i w = num v' k i w := by
  have e : ∀ u : Bytes, (((toBits u).drop (8 * k + i)).take w) = (((toBits (u.take n)).drop (8 * k + i)).take w) := by
    intro u
    rw [← toBits_take, List.drop_take, List.take_take, Nat.min_eq_left (by omega)]
  unfold Spec.num
  rw [e v, e v', a.same]

include a in
theorem mono (m : Nat) (h : m ≤ n) : Agree m v v' :=
  ⟨Nat.le_trans h a.left, Nat.le_trans h a.right, a.take m h⟩

include a in
theorem hdr (h : 8 ≤ n) (hv : 8 ≤ v.length) (hv' : 8 ≤ v'.length) : hdrOf v hv = hdrOf v' hv' := by
  unfold hdrOf
  rw [a.take 4 (by omega), a.get 4 (by omega), a.get 5 (by omega), a.get 6 (by omega), a.get 7 (by omega)]

include a in
theorem declared (h : 8 ≤ n) : declared v = declared v' := a.num 5 0 16 (by omega)

end Agree

/-! ## C43 -/

theorem core_withRawHdr (m : Message) (s t : Slice) (h : Header) : core (withRawHdr m s h) = core (withRawHdr m t h) := by
  cases m <;> rfl

section
variable {n : Nat} {v v' e e' : Bytes} (a : Agree n v v')

include a in
/-- messages without variable parts -/
theorem core_fixed (m : Message) (hm : Sized m) (h1 : clcKind m ≠ .proposal) (h2 : clcKind m ≠ .proposalV2)
    (hv : 8 ≤ v.length) (hv' : 8 ≤ v'.length) (hd : declared v ≤ n) (hl : minLen (clcKind m) ≤ declared v)
    {l l' : List Bytes} {x x' : Message}
    (hx : m.parse ⟨v, e⟩ = .ret l x) (hx' : m.parse ⟨v', e'⟩ = .ret l' x') : core x = core x' := by
  have hL := a.left
  have hR := a.right
  have hn : 8 ≤ n := by
    have : 8 ≤ minLen (clcKind m) := by cases m <;> simp [clcKind, minLen]
    omega
  have hh := a.hdr hn hv hv'
  have hdec := declared_eq v hv
  have hdec' : (hdrOf v' hv').Length.toNat = declared v := by rw [← hh]; exact hdec
  cases m with
  | proposal m => exact absurd rfl h1
  | proposalV2 m => exact absurd rfl h2
  | acceptSMCR m | confirmSMCR m =>
    simp only [clcKind, minLen] at hl
    rw [Message.parse, smcr_parse _ _ hv m hm.1 hm.2.1 hm.2.2 (by omega) (by omega), map_ret] at hx
    rw [Message.parse, smcr_parse _ _ hv' m hm.1 hm.2.1 hm.2.2 (by omega) (by omega), map_ret] at hx'
    cases hx; cases hx'
    simp (disch := omega) only [core, hh, a.mid, a.get]
  | acceptSMCD m | confirmSMCD m =>
    simp only [clcKind, minLen] at hl
    rw [Message.parse, smcd_parse _ _ hv m hm.1 hm.2.1 hm.2.2.1 hm.2.2.2 (by omega) (by omega), map_ret] at hx
    rw [Message.parse, smcd_parse _ _ hv' m hm.1 hm.2.1 hm.2.2.1 hm.2.2.2 (by omega) (by omega), map_ret] at hx'
    cases hx; cases hx'
    simp (disch := omega) only [core, hh, a.mid, a.get]
  | acceptSMCDv2 m | confirmSMCDv2 m =>
    simp only [clcKind, minLen] at hl
    obtain ⟨g1, g2, g3, g4, g5, g6, g7⟩ := hm
    by_cases hc : declared v = 114
    · rw [Message.parse, smcdv2_parse_fce _ _ hv m g1 g2 g3 g4 g7 g5 g6 (by omega) (by omega), map_ret] at hx
      rw [Message.parse, smcdv2_parse_fce _ _ hv' m g1 g2 g3 g4 g7 g5 g6 (by omega) (by omega), map_ret] at hx'
      cases hx; cases hx'
      simp (disch := omega) only [core, smcdv2Of, hh, a.mid, a.get]
    · rw [Message.parse, smcdv2_parse _ _ hv m g1 g2 g3 g4 g7 (by omega) (by omega) (by omega), map_ret] at hx
      rw [Message.parse, smcdv2_parse _ _ hv' m g1 g2 g3 g4 g7 (by omega) (by omega) (by omega), map_ret] at hx'
      cases hx; cases hx'
      simp (disch := omega) only [core, smcdv2Of, hh, a.mid, a.get]
  | decline m =>
    simp only [clcKind, minLen] at hl
    rw [Message.parse, decline_parse _ _ hv m hm.1 hm.2.1 hm.2.2.1 hm.2.2.2 (by omega) (by omega), map_ret] at hx
    rw [Message.parse, decline_parse _ _ hv' m hm.1 hm.2.1 hm.2.2.1 hm.2.2.2 (by omega) (by omega), map_ret] at hx'
    cases hx; cases hx'
    simp (disch := omega) only [core, hh, a.mid, a.get]
  | declineV2 m =>
    simp only [clcKind, minLen] at hl
    rw [Message.parse, declineV2_parse _ _ hv m hm.1 hm.2.1 hm.2.2.1 hm.2.2.2 (by omega) (by omega), map_ret] at hx
    rw [Message.parse, declineV2_parse _ _ hv' m hm.1 hm.2.1 hm.2.2.1 hm.2.2.2 (by omega) (by omega), map_ret] at hx'
    cases hx; cases hx'
    simp (disch := omega) only [core, hh, a.mid, a.get]

include a in
theorem pfxs_agree (k c : Nat) (h : k + 17 * c ≤ n) : pfxs v k c = pfxs v' k c := by
  induction c generalizing k with
  | zero => rfl
  | succ c ih =>
    unfold pfxs pfxAt
    rw [ih (k + 17) (by omega), a.mid k 16 (by omega), a.getD (k + 16) (by omega)]

include a in
theorem eids_agree (k c : Nat) (h : k + 32 * c ≤ n) : eids v k c = eids v' k c := by
  induction c generalizing k with
  | zero => rfl
  | succ c ih =>
    unfold eids
    rw [ih (k + 32) (by omega), a.mid k 32 (by omega)]

include a in
theorem gids_agree (k c : Nat) (h : k + 10 * c ≤ n) : gids v k c = gids v' k c := by
  induction c generalizing k with
  | zero => rfl
  | succ c ih =>
    unfold gids gidAt
    rw [ih (k + 10) (by omega), a.getD k (by omega), a.getD (k + 1) (by omega), a.getD (k + 2) (by omega),
      a.getD (k + 3) (by omega), a.getD (k + 4) (by omega), a.getD (k + 5) (by omega), a.getD (k + 6) (by omega),
      a.getD (k + 7) (by omega), a.getD (k + 8) (by omega), a.getD (k + 9) (by omega)]

/-- all counted entries end before the trailer -/
theorem entries_end {L k w n : Nat} (hw : 0 < w) (hk : k + 4 ≤ L) : k + w * entries L k w n + 4 ≤ L :=
  fits_le hw (by unfold entries fits; omega) hk

include a in
/-- Proposals of version 1 -/
theorem core_proposal (p : Proposal) (hp : SizedProposal p)
    (hv : 8 ≤ v.length) (hv' : 8 ≤ v'.length) (hd : declared v ≤ n) (hl : 52 ≤ declared v)
    (ho : Spec.num v 38 0 16 = 40 → 80 ≤ declared v)
    {l l' : List Bytes} {x x' : Proposal}
    (hx : p.parse ⟨v, e⟩ = .ret l x) (hx' : p.parse ⟨v', e'⟩ = .ret l' x') :
    core (.proposal x) = core (.proposal x') := by
  have hL := a.left
  have hR := a.right
  have hh := a.hdr (by omega) hv hv'
  have hde : declared v = declared v' := a.declared (by omega)
  have hoff : Spec.num v 38 0 16 = Spec.num v' 38 0 16 := a.num 38 0 16 (by omega)
  have hip : ipAreaAt v = ipAreaAt v' := by unfold ipAreaAt; rw [hoff]
  have hfix : core (.proposal (propFixed v e hv p (by omega))) = core (.proposal (propFixed v' e' hv' p (by omega))) := by
    by_cases h40 : Spec.num v 38 0 16 = 40
    · have h80 := ho h40
      have hu : (u16 v[38] v[39]).toNat = 40 := by rw [← h40, num_16 v 38 (by omega), u16_toNat]
      have hu' : (u16 v'[38] v'[39]).toNat = 40 := by rw [← h40, hoff, num_16 v' 38 (by omega), u16_toNat]
      have hd1 : ((v ++ e).drop 48).take 32 = (v.drop 48).take 32 := by
        rw [List.drop_append_of_le_length (by omega), List.take_append_of_le_length (by simp; omega)]
      have hd2 : ((v' ++ e').drop 48).take 32 = (v'.drop 48).take 32 := by
        rw [List.drop_append_of_le_length (by omega), List.take_append_of_le_length (by simp; omega)]
      unfold propFixed
      rw [if_pos hu, if_pos hu']
      simp (disch := omega) only [core, propBase, hh, a.mid, a.get, hd1, hd2]
    · rw [propFixed_noSMCD v e hv p (by omega) h40, propFixed_noSMCD v' e' hv' p (by omega) (by rwa [← hoff])]
      simp (disch := omega) only [core, propBase, hh, a.mid, a.get]
  rw [proposal_result v e hv p hp (by omega) hl (by omega)] at hx
  rw [proposal_result v' e' hv' p hp (by omega) (by omega) (by omega)] at hx'
  unfold propResult at hx hx'
  rw [if_neg (by omega)] at hx
  rw [if_neg (by omega)] at hx'
  by_cases hb : declared v < ipAreaAt v + 12
  · rw [if_pos hb] at hx
    rw [if_pos (by omega)] at hx'
    cases hx; cases hx'
    exact hfix
  · rw [if_neg hb] at hx
    rw [if_neg (by omega)] at hx'
    cases hx; cases hx'
    have hfl : (propFixed v e hv p (by omega)).hdr.Length.toNat = declared v := by
      rw [propFixed_hdr]; exact declared_eq v hv
    have hfl' : (propFixed v' e' hv' p (by omega)).hdr.Length.toNat = declared v := by
      rw [propFixed_hdr, hde]; exact declared_eq v' hv'
    have hend := entries_end (L := declared v) (k := ipAreaAt v + 8) (w := 17) (n := (v'.getD (ipAreaAt v' + 7) 0).toNat) (by omega) (by omega)
    rw [entries_eq] at hend
    unfold propFull
    simp only [core, Message.proposal.injEq, Proposal.mk.injEq] at hfix ⊢
    simp only [hfl, hfl', ← hip, propFixed_prefixes]
    rw [← hip] at hend
    rw [a.getD _ (show ipAreaAt v + 7 < n by omega), a.getD _ (show ipAreaAt v + 4 < n by omega),
      a.mid _ _ (show ipAreaAt v + 4 ≤ n by omega), a.mid _ _ (show ipAreaAt v + 5 + 2 ≤ n by omega),
      pfxs_agree a _ _ (show _ ≤ n by omega)]
    simp only [hfix, and_self]

/-! Positions in Proposals of version 2 -/

section
variable (hd : declared v ≤ n) (h8 : 8 ≤ n)
include a h8

theorem agree_path : pathOf v = pathOf v' := a.num 7 6 2 (by omega)
theorem agree_pathv2 : pathv2Of v = pathv2Of v' := a.num 7 4 2 (by omega)

theorem agree_roomIP : RoomIP v ↔ RoomIP v' := by
  unfold RoomIP HasIP; rw [agree_path a h8, a.declared h8]

include hd

theorem agree_pfxCount (h : HasIP v) (hr : RoomIP v) : pfxCount v = pfxCount v' := by
  have := hr h
  unfold pfxCount; rw [a.declared h8, a.num 87 0 8 (by omega)]

theorem agree_extAt (hr : RoomIP v) : extAt v = extAt v' := by
  unfold extAt; rw [← agree_path a h8]
  split
  · rfl
  · rename_i h; rw [agree_pfxCount a hd h8 h hr]

theorem agree_roomExt (hr : RoomIP v) : RoomExt v ↔ RoomExt v' := by
  unfold RoomExt HasExt; rw [agree_pathv2 a h8, a.declared h8, agree_extAt a hd h8 hr]

theorem agree_eidCount (hr : RoomIP v) (h : HasExt v) (hr2 : RoomExt v) : eidCount v = eidCount v' := by
  have := hr2 h
  unfold eidCount; rw [← agree_extAt a hd h8 hr, a.declared h8, a.num (extAt v) 0 8 (by omega)]

theorem agree_smcdAt (hr : RoomIP v) (hr2 : RoomExt v) : smcdAt v = smcdAt v' := by
  unfold smcdAt; rw [← agree_pathv2 a h8, ← agree_extAt a hd h8 hr]
  split
  · rfl
  · rename_i h; rw [agree_eidCount a hd h8 hr h hr2]

theorem agree_roomSMCD (hr : RoomIP v) (hr2 : RoomExt v) : RoomSMCD v ↔ RoomSMCD v' := by
  unfold RoomSMCD HasSMCD; rw [agree_pathv2 a h8, a.declared h8, agree_smcdAt a hd h8 hr hr2]

theorem agree_gidCount (hr : RoomIP v) (hr2 : RoomExt v) (h : HasSMCD v) : gidCount v = gidCount v' := by
  have h2 : HasExt v := by rcases h with h | h <;> (unfold HasExt; omega)
  have := hr2 h2
  unfold gidCount
  rw [← agree_extAt a hd h8 hr, ← agree_smcdAt a hd h8 hr hr2, a.declared h8, a.num (extAt v + 1) 0 8 (by omega)]

end

/-- the message without its raw bytes and trailer -/
def core2 (x : ProposalV2) : ProposalV2 := { x with raw := ⟨[], []⟩, trailer := [] }

section
variable (hv : 8 ≤ v.length) (hv' : 8 ≤ v'.length) (p : ProposalV2)
include a

theorem agree_v2Fixed (h84 : 84 ≤ n) (h : 84 ≤ v.length) (h' : 84 ≤ v'.length) :
    core2 (v2Fixed v e hv p h) = core2 (v2Fixed v' e' hv' p h') := by
  have hL := a.left
  have hR := a.right
  simp (disch := omega) only [core2, v2Fixed, a.hdr (by omega) hv hv', a.mid, a.get]

theorem agree_v2P (hd : declared v ≤ n) (h84 : 84 ≤ n) (h : 84 ≤ v.length) (h' : 84 ≤ v'.length) (hr : RoomIP v) :
    core2 (v2P v e hv p h) = core2 (v2P v' e' hv' p h') := by
  have hfix := agree_v2Fixed (e := e) (e' := e') a hv hv' p h84 h h'
  unfold v2P; rw [← agree_path a (by omega)]
  by_cases c : pathOf v = 2
  · rw [if_pos c, if_pos c]; exact hfix
  · rw [if_neg c, if_neg c]
    have := hr c
    have hfl : (v2Fixed v e hv p h).hdr.Length.toNat = declared v := declared_eq v hv
    have hfl' : (v2Fixed v' e' hv' p h').hdr.Length.toNat = declared v := by
      rw [a.declared (by omega)]; exact declared_eq v' hv'
    have hend := entries_end (L := declared v) (k := 88) (w := 17) (n := (v'.getD 87 0).toNat) (by omega) (by omega)
    rw [entries_eq] at hend
    unfold v2IP
    rw [hfl, hfl', a.getD 87 (by omega), a.getD 84 (by omega), a.mid 80 4 (by omega), a.mid 85 2 (by omega),
      pfxs_agree a 88 _ (by omega)]
    simp only [core2, ProposalV2.mk.injEq] at hfix ⊢
    simp only [hfix, and_self]

theorem agree_v2Q (hd : declared v ≤ n) (h84 : 84 ≤ n) (h : 84 ≤ v.length) (h' : 84 ≤ v'.length) (hr : RoomIP v)
    (hr2 : RoomExt v) : core2 (v2Q v e hv p h) = core2 (v2Q v' e' hv' p h') := by
  have hfix := agree_v2P (e := e) (e' := e') a hv hv' p hd h84 h h' hr
  unfold v2Q; rw [← agree_pathv2 a (by omega), ← agree_extAt a hd (by omega) hr]
  by_cases c : pathv2Of v = 2
  · rw [if_pos c, if_pos c]; exact hfix
  · rw [if_neg c, if_neg c]
    have := hr2 c
    have hfl : (v2P v e hv p h).hdr.Length.toNat = declared v := by rw [v2P_hdr]; exact declared_eq v hv
    have hfl' : (v2P v' e' hv' p h').hdr.Length.toNat = declared v := by
      rw [v2P_hdr, a.declared (by omega)]; exact declared_eq v' hv'
    have hend := entries_end (L := declared v) (k := extAt v + 40) (w := 32) (n := (v'.getD (extAt v) 0).toNat) (by omega)
      (by omega)
    rw [entries_eq] at hend
    unfold v2Ext
    rw [hfl, hfl', a.getD (extAt v) (by omega), a.getD (extAt v + 1) (by omega), a.getD (extAt v + 2) (by omega),
      a.getD (extAt v + 3) (by omega), a.getD (extAt v + 6) (by omega), a.getD (extAt v + 7) (by omega),
      a.mid (extAt v + 4) 2 (by omega), a.mid (extAt v + 8) 32 (by omega), eids_agree a (extAt v + 40) _ (by omega)]
    simp only [core2, ProposalV2.mk.injEq] at hfix ⊢
    simp only [hfix, and_self]

theorem agree_v2R (hd : declared v ≤ n) (h84 : 84 ≤ n) (h : 84 ≤ v.length) (h' : 84 ≤ v'.length) (hr : RoomIP v)
    (hr2 : RoomExt v) (hr3 : RoomSMCD v) : core2 (v2R v e hv p h) = core2 (v2R v' e' hv' p h') := by
  have hfix := agree_v2Q (e := e) (e' := e') a hv hv' p hd h84 h h' hr hr2
  have hs : HasSMCD v ↔ HasSMCD v' := by unfold HasSMCD; rw [agree_pathv2 a (by omega)]
  unfold v2R; rw [← agree_smcdAt a hd (by omega) hr hr2]
  by_cases c : HasSMCD v
  · rw [if_pos c, if_pos (hs.1 c)]
    have := hr3 c
    have hfl : (v2Q v e hv p h).hdr.Length.toNat = declared v := by rw [v2Q_hdr]; exact declared_eq v hv
    have hfl' : (v2Q v' e' hv' p h').hdr.Length.toNat = declared v := by
      rw [v2Q_hdr, a.declared (by omega)]; exact declared_eq v' hv'
    have hg : (v2Q v e hv p h).GIDNumber = (v2Q v' e' hv' p h').GIDNumber := by
      have := congrArg ProposalV2.GIDNumber hfix
      exact this
    have hend := entries_end (L := declared v) (k := smcdAt v + 48) (w := 10) (n := (v2Q v' e' hv' p h').GIDNumber.toNat)
      (by omega) (by omega)
    rw [entries_eq] at hend
    unfold v2SMCD
    rw [hfl, hfl', hg, a.mid (smcdAt v) 32 (by omega), a.mid (smcdAt v + 32) 16 (by omega),
      gids_agree a (smcdAt v + 48) _ (by omega)]
    simp only [core2, ProposalV2.mk.injEq] at hfix ⊢
    simp only [hfix, and_self]
  · rw [if_neg c, if_neg (fun x => c (hs.2 x))]; exact hfix

/-- Proposals of version 2 -/
theorem core_proposalV2 (hp : SizedProposalV2 p) (hd : declared v ≤ n) (hl : 84 ≤ declared v)
    {l l' : List Bytes} {x x' : ProposalV2}
    (hx : p.parse ⟨v, e⟩ = .ret l x) (hx' : p.parse ⟨v', e'⟩ = .ret l' x') :
    core (.proposalV2 x) = core (.proposalV2 x') := by
  have hL := a.left
  have hR := a.right
  have hde : declared v = declared v' := a.declared (by omega)
  have hv : 8 ≤ v.length := by omega
  have hv' : 8 ≤ v'.length := by omega
  have h : 84 ≤ v.length := by omega
  have h' : 84 ≤ v'.length := by omega
  have e1 := agree_roomIP a (by omega)
  have e2 := fun hr => agree_roomExt a hd (by omega) hr
  have e3 := fun hr hr2 => agree_roomSMCD a hd (by omega) hr hr2
  show Message.proposalV2 (core2 x) = .proposalV2 (core2 x')
  rcases v2_returns hp hv h hl (by omega) hx with ⟨c1, -, rfl⟩ | ⟨c1, c2, -, rfl⟩ | ⟨c1, c2, -, c4, -, rfl⟩ | ⟨c1, c2, -, c4, -, -, rfl⟩ <;>
  rcases v2_returns hp hv' h' (by omega) (by omega) hx' with ⟨d1, -, rfl⟩ | ⟨d1, d2, -, rfl⟩ | ⟨d1, d2, -, d4, -, rfl⟩ | ⟨d1, d2, -, d4, -, -, rfl⟩
  case inl.inl => rw [agree_v2Fixed a hv hv' p (by omega) h h']
  case inr.inl.inr.inl => rw [agree_v2P a hv hv' p hd (by omega) h h' c1]
  case inr.inr.inl.inr.inr.inl => rw [agree_v2Q a hv hv' p hd (by omega) h h' c1 c2]
  case inr.inr.inr.inr.inr.inr => exact congrArg Message.proposalV2 (agree_v2R a hv hv' p hd (by omega) h h' c1 c2 c4)
  all_goals first
    | exact absurd (e1.1 c1) d1
    | exact absurd (e1.2 d1) c1
    | exact absurd ((e2 c1).1 c2) d2
    | exact absurd ((e2 c1).2 d2) c2
    | exact absurd ((e3 c1 c2).1 c4) d4
    | exact absurd ((e3 c1 c2).2 d4) c4

end

end

/-- C43 without the Proposals of version 1 with IP area offset 40 that are shorter than their
SMC-D info: bytes behind the message neither change the decoded fields nor whether `Parse`
panics. -/
theorem C43_fields_partial (m : Message) (hm : Sized m) (s s' : Slice) (hs : 8 ≤ s.len) (hL : declared s.vis ≤ s.len)
    (hs' : 8 ≤ s'.len) (hL' : declared s.vis ≤ s'.len)
    (heq : s.vis.take (max 8 (declared s.vis)) = s'.vis.take (max 8 (declared s.vis)))
    (hx : ¬ (clcKind m = .proposal ∧ num s.vis 38 0 16 = 40 ∧ 52 ≤ declared s.vis ∧ declared s.vis < 80)) :
    ((m.parse s).Panics ↔ (m.parse s').Panics) ∧
    ∀ l x l' x', m.parse s = .ret l x → m.parse s' = .ret l' x' → core x = core x' := by
  obtain ⟨v, e⟩ := s
  obtain ⟨v', e'⟩ := s'
  simp only [Slice.len_mk] at *
  have a : Agree (max 8 (declared v)) v v' := ⟨by omega, by omega, heq⟩
  have h8 : 8 ≤ max 8 (declared v) := Nat.le_max_left _ _
  have hd : declared v ≤ max 8 (declared v) := Nat.le_max_right _ _
  generalize max 8 (declared v) = n at *
  have hde := a.declared h8
  constructor
  · rw [C33_panics_iff m hm ⟨v, e⟩ hs hL, C33_panics_iff m hm ⟨v', e'⟩ hs' (by simp only [Slice.len_mk]; omega)]
    simp only [Slice.cap_mk]
    cases hk : clcKind m <;> simp only [Crashes]
    case proposal =>
      rw [← hde]
      by_cases h52 : 52 ≤ declared v
      · rw [← a.num 38 0 16 (by omega)]
        have : num v 38 0 16 = 40 → 80 ≤ declared v := fun h =>
          Nat.le_of_not_lt fun h2 => hx ⟨hk, h, h52, h2⟩
        constructor
        · rintro ⟨_, c, _⟩; have := this c; omega
        · rintro ⟨_, c, _⟩; have := this c; omega
      · constructor
        · rintro ⟨c, _⟩; omega
        · rintro ⟨c, _⟩; omega
    case proposalV2 =>
      rw [← hde]
      have e1 := agree_roomIP a h8
      have e2 := agree_roomExt a hd h8
      have e3 := agree_roomSMCD a hd h8
      have e4 := agree_eidCount a hd h8
      have e5 := agree_gidCount a hd h8
      have p1 : HasExt v ↔ HasExt v' := by unfold HasExt; rw [agree_pathv2 a h8]
      have p2 : HasSMCD v ↔ HasSMCD v' := by unfold HasSMCD; rw [agree_pathv2 a h8]
      constructor
      · rintro ⟨c0, c1, c2, c3, c⟩
        refine ⟨c0, e1.1 c1, p1.1 c2, (e2 c1).1 c3, ?_⟩
        rcases c with c | ⟨c4, c5, c⟩
        · rw [← e4 c1 c2 c3]; exact .inl c
        · rw [← e5 c1 c3 c4]; exact .inr ⟨p2.1 c4, (e3 c1 c3).1 c5, c⟩
      · rintro ⟨c0, c1, c2, c3, c⟩
        replace c1 := e1.2 c1
        replace c2 := p1.2 c2
        replace c3 := (e2 c1).2 c3
        refine ⟨c0, c1, c2, c3, ?_⟩
        rcases c with c | ⟨c4, c5, c⟩
        · rw [e4 c1 c2 c3]; exact .inl c
        · rw [e5 c1 c3 (p2.2 c4)]; exact .inr ⟨p2.2 c4, (e3 c1 c3).2 c5, c⟩
  · intro l x l' x' h1 h2
    by_cases hsh : declared v < minLen (clcKind m)
    · rw [message_short m hm v e hs hsh, reject_ret _ _ _ _ _ hL] at h1
      rw [message_short m hm v' e' hs' (by omega), reject_ret _ _ _ _ _ (by omega)] at h2
      cases h1; cases h2
      rw [a.hdr h8 hs hs']
      exact core_withRawHdr ..
    · cases m with
      | proposal m =>
        simp only [clcKind, minLen] at hsh
        simp only [Message.parse] at h1 h2
        cases q1 : m.parse ⟨v, e⟩ with
        | panic l => rw [q1] at h1; cases h1
        | ret l y =>
          cases q2 : m.parse ⟨v', e'⟩ with
          | panic l => rw [q2] at h2; cases h2
          | ret l y' =>
            rw [q1, map_ret] at h1; rw [q2, map_ret] at h2
            cases h1; cases h2
            exact core_proposal a m hm hs hs' hd (by omega) (fun h => Nat.le_of_not_lt fun h2 => hx ⟨rfl, h, by omega, h2⟩) q1 q2
      | proposalV2 m =>
        simp only [clcKind, minLen] at hsh
        simp only [Message.parse] at h1 h2
        cases q1 : m.parse ⟨v, e⟩ with
        | panic l => rw [q1] at h1; cases h1
        | ret l y =>
          cases q2 : m.parse ⟨v', e'⟩ with
          | panic l => rw [q2] at h2; cases h2
          | ret l y' =>
            rw [q1, map_ret] at h1; rw [q2, map_ret] at h2
            cases h1; cases h2
            exact core_proposalV2 a m hm hd (by omega) q1 q2
      | _ => exact core_fixed a _ hm (by simp [clcKind]) (by simp [clcKind]) hs hs' hd (by omega) h1 h2

/-- a Proposal of 52 bytes with IP area offset 40 -/
def shortSMCD : Bytes := hex! "e2 d4 c3 d9 01 00 34 10" ++ zeros 31 ++ [40] ++ zeros 12

/-- C43 is false: the SMC-D info of this Proposal is taken from the bytes behind it. -/
theorem C43_fields_false :
    ∃ (s s' : Slice) (l l' : List Bytes) (x x' : Proposal), declared s.vis ≤ s.len ∧ declared s.vis ≤ s'.len ∧
      s.vis.take (declared s.vis) = s'.vis.take (declared s.vis) ∧
      ({} : Proposal).parse s = .ret l x ∧ ({} : Proposal).parse s' = .ret l' x' ∧ x.rsv ≠ x'.rsv := by
  have h1 : ∃ l x, ({} : Proposal).parse ⟨shortSMCD ++ zeros 28, []⟩ = .ret l x ∧ x.rsv = zeros 32 := by
    rw [proposal_result _ _ (by decide) _ (by decide) (by decide) (by decide +kernel) (by decide +kernel)]
    unfold propResult
    rw [if_neg (by decide +kernel), if_pos (by decide +kernel)]
    exact ⟨_, _, rfl, by decide +kernel⟩
  have h2 : ∃ l x, ({} : Proposal).parse ⟨shortSMCD ++ zeros 27 ++ [1], []⟩ = .ret l x ∧ x.rsv = zeros 31 ++ [1] := by
    rw [proposal_result _ _ (by decide) _ (by decide) (by decide) (by decide +kernel) (by decide +kernel)]
    unfold propResult
    rw [if_neg (by decide +kernel), if_pos (by decide +kernel)]
    exact ⟨_, _, rfl, by decide +kernel⟩
  obtain ⟨l, x, h1, e1⟩ := h1
  obtain ⟨l', x', h2, e2⟩ := h2
  exact ⟨_, _, l, l', x, x', by decide +kernel, by decide +kernel, by decide +kernel, h1, h2,
    by rw [e1, e2]; decide⟩

/-! The hypotheses hold for a Decline followed by different bytes. -/

example :
    let d : Bytes := hex! "e2 d4 c3 d9 04 00 1c 10" ++ zeros 16 ++ hex! "e2 d4 c3 d9"
    declared (d ++ [1, 2]) = 28 ∧ clcKind (.decline {}) ≠ .proposal ∧
      (d ++ [1, 2]).take (max 8 28) = (d ++ [3]).take (max 8 28) := by decide +kernel

end SMC.Props
