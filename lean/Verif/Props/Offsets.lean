import Verif.Props.CLCLocal
/-!
# C56: the offsets of Proposals of version 2 are ignored
-/

namespace SMC.Props

open SMC Spec CLC

/-- the bytes that hold the offsets of the areas -/
def OffsetByte (v : Bytes) (i : Nat) : Prop :=
  i = 38 ∨ i = 39 ∨ i = 50 ∨ i = 51 ∨ (RoomIP v ∧ HasExt v ∧ RoomExt v ∧ (i = extAt v + 6 ∨ i = extAt v + 7))

/-- everything decoded but the offsets -/
def noOffsets (m : ProposalV2) : ProposalV2 := { m with raw := ⟨[], []⟩, IPAreaOffset := 0, SMCv2Offset := 0, SMCDv2Off := 0 }

section
variable {v v' : Bytes} (a : ∀ i, ¬ OffsetByte v i → v'[i]? = v[i]?)
include a

theorem away_getD (i : Nat) (h : ¬ OffsetByte v i) : v'.getD i 0 = v.getD i 0 := by
  rw [List.getD_eq_getElem?_getD, List.getD_eq_getElem?_getD, a i h]

theorem away_mid (k w : Nat) (h : ∀ j, k ≤ j → j < k + w → ¬ OffsetByte v j) : (v'.drop k).take w = (v.drop k).take w := by
  apply List.ext_getElem?
  intro i
  rw [List.getElem?_take, List.getElem?_take]
  split
  · rw [List.getElem?_drop, List.getElem?_drop, a _ (h (k + i) (by omega) (by omega))]
  · rfl

theorem away_pfxs (k n : Nat) (h : ∀ j, k ≤ j → j < k + 17 * n → ¬ OffsetByte v j) : pfxs v' k n = pfxs v k n := by
  induction n generalizing k with
  | zero => rfl
  | succ n ih =>
    unfold pfxs pfxAt
    rw [away_mid a k 16 fun j h1 h2 => h j h1 (by omega), away_getD a (k + 16) (h _ (by omega) (by omega)),
      ih (k + 17) fun j h1 h2 => h j (by omega) (by omega)]

theorem away_eids (k n : Nat) (h : ∀ j, k ≤ j → j < k + 32 * n → ¬ OffsetByte v j) : eids v' k n = eids v k n := by
  induction n generalizing k with
  | zero => rfl
  | succ n ih =>
    rw [eids, eids, away_mid a k 32 fun j h1 h2 => h j h1 (by omega), ih (k + 32) fun j h1 h2 => h j (by omega) (by omega)]

theorem away_gids (k n : Nat) (h : ∀ j, k ≤ j → j < k + 10 * n → ¬ OffsetByte v j) : gids v' k n = gids v k n := by
  induction n generalizing k with
  | zero => rfl
  | succ n ih =>
    rw [gids, gids, ih (k + 10) fun j h1 h2 => h j (by omega) (by omega)]
    unfold gidAt
    rw [away_getD a k (h _ (by omega) (by omega)), away_getD a (k + 1) (h _ (by omega) (by omega)),
      away_getD a (k + 2) (h _ (by omega) (by omega)), away_getD a (k + 3) (h _ (by omega) (by omega)),
      away_getD a (k + 4) (h _ (by omega) (by omega)), away_getD a (k + 5) (h _ (by omega) (by omega)),
      away_getD a (k + 6) (h _ (by omega) (by omega)), away_getD a (k + 7) (h _ (by omega) (by omega)),
      away_getD a (k + 8) (h _ (by omega) (by omega)), away_getD a (k + 9) (h _ (by omega) (by omega))]

theorem away_agree (h : 84 ≤ v.length) (hlen : v'.length = v.length) : Agree 38 v v' := by
  refine ⟨by omega, by omega, ?_⟩
  have hx : 80 ≤ extAt v := by unfold extAt; split <;> omega
  have := away_mid a 0 38 fun j _ hj => by unfold OffsetByte; omega
  simpa using this.symm

end

theorem extAt_ge (v : Bytes) : 80 ≤ extAt v := by unfold extAt; split <;> omega

theorem not_offset {v : Bytes} {i : Nat} (h : 52 ≤ i) (h' : i < extAt v + 6 ∨ extAt v + 8 ≤ i) : ¬ OffsetByte v i := by
  unfold OffsetByte
  rintro (c | c | c | c | ⟨-, -, -, c | c⟩) <;> omega

theorem not_offset_low {v : Bytes} {i : Nat} (h : i < 38 ∨ (39 < i ∧ i < 50) ∨ (51 < i ∧ i < 86)) : ¬ OffsetByte v i := by
  have := extAt_ge v
  unfold OffsetByte
  rintro (c | c | c | c | ⟨-, -, -, c | c⟩) <;> omega

section
variable {v v' e e' : Bytes} (a : ∀ i, ¬ OffsetByte v i → v'[i]? = v[i]?) (h : 84 ≤ v.length) (hlen : v'.length = v.length)
include a h hlen

theorem away_path : pathOf v' = pathOf v := (agree_path (away_agree a h hlen) (by omega)).symm
theorem away_pathv2 : pathv2Of v' = pathv2Of v := (agree_pathv2 (away_agree a h hlen) (by omega)).symm
theorem away_declared : declared v' = declared v := ((away_agree a h hlen).declared (by omega)).symm
theorem away_roomIP : RoomIP v' ↔ RoomIP v := by
  unfold RoomIP HasIP; rw [away_path a h hlen, away_declared a h hlen]

theorem away_fixed (p : ProposalV2) (hv : 8 ≤ v.length) (hv' : 8 ≤ v'.length) (h' : 84 ≤ v'.length) :
    noOffsets (v2Fixed v' e' hv' p h') = noOffsets (v2Fixed v e hv p h) := by
  have b := away_agree a h hlen
  have g : ∀ i (_ : ¬ OffsetByte v i) (h1 : i < v'.length) (h2 : i < v.length), v'[i] = v[i] := by
    intro i hi h1 h2
    have := a i hi
    rwa [List.getElem?_eq_getElem h1, List.getElem?_eq_getElem h2, Option.some.injEq] at this
  have m : ∀ k w, (∀ j, k ≤ j → j < k + w → ¬ OffsetByte v j) → (v'.drop k).take w = (v.drop k).take w := away_mid a
  unfold noOffsets v2Fixed
  simp only [← b.hdr (by omega) hv hv', ← b.mid 8 8 (by omega), ← b.mid 16 16 (by omega), ← b.mid 32 6 (by omega),
    m 52 28 (fun j h1 h2 => not_offset_low (by omega)),
    g 40 (not_offset_low (by omega)) (by omega) (by omega), g 41 (not_offset_low (by omega)) (by omega) (by omega),
    g 42 (not_offset_low (by omega)) (by omega) (by omega), g 43 (not_offset_low (by omega)) (by omega) (by omega),
    g 44 (not_offset_low (by omega)) (by omega) (by omega), g 45 (not_offset_low (by omega)) (by omega) (by omega),
    g 46 (not_offset_low (by omega)) (by omega) (by omega), g 47 (not_offset_low (by omega)) (by omega) (by omega),
    g 48 (not_offset_low (by omega)) (by omega) (by omega), g 49 (not_offset_low (by omega)) (by omega) (by omega)]

variable (hL : declared v ≤ v.length)
include hL

theorem away_pfxCount (hi : HasIP v) (hr : RoomIP v) : pfxCount v' = pfxCount v := by
  have := hr hi
  have hx : 88 ≤ extAt v := by unfold extAt; rw [if_neg hi]; omega
  unfold pfxCount
  rw [away_declared a h hlen, num_getD v' 87 (by omega), num_getD v 87 (by omega), away_getD a 87 (not_offset (by omega) (by omega))]

theorem away_extAt (hr : RoomIP v) : extAt v' = extAt v := by
  unfold extAt
  rw [away_path a h hlen]
  split
  · rfl
  · rename_i c
    rw [away_pfxCount a h hlen hL c hr]

theorem away_roomExt (hr : RoomIP v) : RoomExt v' ↔ RoomExt v := by
  unfold RoomExt HasExt; rw [away_pathv2 a h hlen, away_declared a h hlen, away_extAt a h hlen hL hr]

theorem away_eidCount (hr : RoomIP v) (hx : HasExt v) (hr2 : RoomExt v) : eidCount v' = eidCount v := by
  have := hr2 hx
  have := extAt_ge v
  unfold eidCount
  rw [away_declared a h hlen, away_extAt a h hlen hL hr, num_getD v' _ (by omega), num_getD v _ (by omega),
    away_getD a _ (not_offset (by omega) (by omega))]

theorem away_smcdAt (hr : RoomIP v) (hr2 : RoomExt v) : smcdAt v' = smcdAt v := by
  unfold smcdAt
  rw [away_pathv2 a h hlen, away_extAt a h hlen hL hr]
  split
  · rfl
  · rename_i c
    rw [away_eidCount a h hlen hL hr c hr2]

theorem away_roomSMCD (hr : RoomIP v) (hr2 : RoomExt v) : RoomSMCD v' ↔ RoomSMCD v := by
  unfold RoomSMCD HasSMCD; rw [away_pathv2 a h hlen, away_declared a h hlen, away_smcdAt a h hlen hL hr hr2]

theorem away_gidCount (hr : RoomIP v) (hr2 : RoomExt v) (hs : HasSMCD v) : gidCount v' = gidCount v := by
  have hx : HasExt v := by rcases hs with c | c <;> (unfold HasExt; omega)
  have := hr2 hx
  have := extAt_ge v
  unfold gidCount
  rw [away_declared a h hlen, away_extAt a h hlen hL hr, away_smcdAt a h hlen hL hr hr2, num_getD v' _ (by omega),
    num_getD v _ (by omega), away_getD a _ (not_offset (by omega) (by omega))]

variable (p : ProposalV2) (hv : 8 ≤ v.length) (hv' : 8 ≤ v'.length) (h' : 84 ≤ v'.length)

theorem away_P (hr : RoomIP v) : noOffsets (v2P v' e' hv' p h') = noOffsets (v2P v e hv p h) := by
  have hfix := away_fixed (e := e) (e' := e') a h hlen p hv hv' h'
  have hde := away_declared a h hlen
  unfold v2P; rw [away_path a h hlen]
  by_cases c : pathOf v = 2
  · rw [if_pos c, if_pos c]; exact hfix
  · rw [if_neg c, if_neg c]
    have := hr c
    have hcnt : pfxCount v = min (v.getD 87 0).toNat (fits (declared v) 88 17) := by
      unfold pfxCount; rw [entries_eq, num_getD v 87 (by omega)]
    have hx : extAt v = 88 + 17 * pfxCount v := by unfold extAt; rw [if_neg c]
    have hfl : (v2Fixed v e hv p h).hdr.Length.toNat = declared v := declared_eq v hv
    have hfl' : (v2Fixed v' e' hv' p h').hdr.Length.toNat = declared v := by
      rw [← hde]; exact declared_eq v' hv'
    unfold v2IP
    rw [hfl, hfl', away_getD a 87 (not_offset (by omega) (by omega)), away_getD a 84 (not_offset (by omega) (by omega)),
      away_mid a 80 4 (fun j _ _ => not_offset (by omega) (by omega)), away_mid a 85 2 (fun j _ _ => not_offset (by omega) (by omega)),
      ← hcnt, away_pfxs a 88 _ (fun j _ _ => not_offset (by omega) (by omega))]
    simp only [noOffsets, ProposalV2.mk.injEq] at hfix ⊢
    simp only [hfix, and_self]

theorem away_Q (hr : RoomIP v) (hr2 : RoomExt v) : noOffsets (v2Q v' e' hv' p h') = noOffsets (v2Q v e hv p h) := by
  have hfix := away_P (e := e) (e' := e') a h hlen hL p hv hv' h' hr
  have hde := away_declared a h hlen
  unfold v2Q; rw [away_pathv2 a h hlen, away_extAt a h hlen hL hr]
  by_cases c : pathv2Of v = 2
  · rw [if_pos c, if_pos c]; exact hfix
  · rw [if_neg c, if_neg c]
    have := hr2 c
    have := extAt_ge v
    have hfl : (v2P v e hv p h).hdr.Length.toNat = declared v := by rw [v2P_hdr]; exact declared_eq v hv
    have hfl' : (v2P v' e' hv' p h').hdr.Length.toNat = declared v := by
      rw [v2P_hdr, ← hde]; exact declared_eq v' hv'
    unfold v2Ext
    rw [hfl, hfl', away_getD a (extAt v) (not_offset (by omega) (by omega)),
      away_getD a (extAt v + 1) (not_offset (by omega) (by omega)), away_getD a (extAt v + 2) (not_offset (by omega) (by omega)),
      away_getD a (extAt v + 3) (not_offset (by omega) (by omega)),
      away_mid a (extAt v + 4) 2 (fun j _ _ => not_offset (by omega) (by omega)),
      away_mid a (extAt v + 8) 32 (fun j _ _ => not_offset (by omega) (by omega)),
      away_eids a (extAt v + 40) _ (fun j _ _ => not_offset (by omega) (by omega))]
    simp only [noOffsets, ProposalV2.mk.injEq] at hfix ⊢
    simp only [hfix, and_self]

theorem away_R (hr : RoomIP v) (hr2 : RoomExt v) :
    noOffsets (v2R v' e' hv' p h') = noOffsets (v2R v e hv p h) := by
  have hfix := away_Q (e := e) (e' := e') a h hlen hL p hv hv' h' hr hr2
  have hde := away_declared a h hlen
  have hs : HasSMCD v' ↔ HasSMCD v := by unfold HasSMCD; rw [away_pathv2 a h hlen]
  unfold v2R; rw [away_smcdAt a h hlen hL hr hr2]
  by_cases c : HasSMCD v
  · rw [if_pos c, if_pos (hs.2 c)]
    have hx : HasExt v := by rcases c with c | c <;> (unfold HasExt; omega)
    have := extAt_ge v
    have hsm : extAt v + 40 ≤ smcdAt v := by unfold smcdAt; rw [if_neg hx]; omega
    have hfl : (v2Q v e hv p h).hdr.Length.toNat = declared v := by rw [v2Q_hdr]; exact declared_eq v hv
    have hfl' : (v2Q v' e' hv' p h').hdr.Length.toNat = declared v := by
      rw [v2Q_hdr, ← hde]; exact declared_eq v' hv'
    have hg : (v2Q v' e' hv' p h').GIDNumber = (v2Q v e hv p h).GIDNumber := by
      have := congrArg ProposalV2.GIDNumber hfix
      exact this
    unfold v2SMCD
    rw [hfl, hfl', hg, away_mid a (smcdAt v) 32 (fun j _ _ => not_offset (by omega) (by omega)),
      away_mid a (smcdAt v + 32) 16 (fun j _ _ => not_offset (by omega) (by omega)),
      away_gids a (smcdAt v + 48) _ (fun j _ _ => not_offset (by omega) (by omega))]
    simp only [noOffsets, ProposalV2.mk.injEq] at hfix ⊢
    simp only [hfix, and_self]
  · rw [if_neg c, if_neg (fun x => c (hs.1 x))]; exact hfix

theorem away_last4 (hr2 : RoomExt v) : last4 v' = last4 v := by
  unfold last4
  rw [hlen]
  apply List.ext_getElem?
  intro i
  rw [List.getElem?_drop, List.getElem?_drop]
  refine a _ ?_
  have := extAt_ge v
  unfold OffsetByte
  rintro (c | c | c | c | ⟨-, hx, -, c | c⟩) <;> first | omega | (have := hr2 hx; omega)

end

/-- **C56** The offsets are ignored: whatever they are, `Parse` returns for the same messages, and everything else it decodes
is the same. -/
theorem C56_ignored (p : ProposalV2) (hp : SizedProposalV2 p) (v v' e e' : Bytes) (hl : 84 ≤ declared v)
    (hL : declared v ≤ v.length) (hlen : v'.length = v.length) (a : ∀ i, ¬ OffsetByte v i → v'[i]? = v[i]?) :
    (p.parse ⟨v', e'⟩).val?.map noOffsets = (p.parse ⟨v, e⟩).val?.map noOffsets := by
  have h : 84 ≤ v.length := by omega
  have h' : 84 ≤ v'.length := by omega
  have hde := away_declared a h hlen
  have hs : HasSMCD v' ↔ HasSMCD v := by unfold HasSMCD; rw [away_pathv2 a h hlen]
  have hx : HasExt v' ↔ HasExt v := by unfold HasExt; rw [away_pathv2 a h hlen]
  rw [proposalV2_result v e (by omega) p hp h hl hL, proposalV2_result v' e' (by omega) p hp h' (by omega) (by omega)]
  unfold v2Result
  by_cases c1 : RoomIP v
  case neg =>
    rw [if_pos c1, if_pos (show ¬ RoomIP v' from fun c => c1 ((away_roomIP a h hlen).1 c))]
    exact congrArg some (away_fixed a h hlen p (by omega) (by omega) h')
  rw [if_neg (show ¬ ¬ RoomIP v from fun c => c c1), if_neg (show ¬ ¬ RoomIP v' from fun c => c ((away_roomIP a h hlen).2 c1))]
  by_cases c2 : RoomExt v
  case neg =>
    rw [if_pos c2, if_pos (show ¬ RoomExt v' from fun c => c2 ((away_roomExt a h hlen hL c1).1 c))]
    exact congrArg some (away_P a h hlen hL p (by omega) (by omega) h' c1)
  rw [if_neg (show ¬ ¬ RoomExt v from fun c => c c2), if_neg (show ¬ ¬ RoomExt v' from fun c => c ((away_roomExt a h hlen hL c1).2 c2))]
  have k3 : HasExt v' ∧ 8 < eidCount v' ↔ HasExt v ∧ 8 < eidCount v :=
    ⟨fun c => ⟨hx.1 c.1, by rw [← away_eidCount a h hlen hL c1 (hx.1 c.1) c2]; exact c.2⟩,
      fun c => ⟨hx.2 c.1, by rw [away_eidCount a h hlen hL c1 c.1 c2]; exact c.2⟩⟩
  by_cases c3 : HasExt v ∧ 8 < eidCount v
  · rw [if_pos c3, if_pos (k3.2 c3)]
    rfl
  rw [if_neg c3, if_neg (fun c => c3 (k3.1 c))]
  by_cases c4 : RoomSMCD v
  case neg =>
    rw [if_pos c4, if_pos (show ¬ RoomSMCD v' from fun c => c4 ((away_roomSMCD a h hlen hL c1 c2).1 c))]
    exact congrArg some (away_Q a h hlen hL p (by omega) (by omega) h' c1 c2)
  rw [if_neg (show ¬ ¬ RoomSMCD v from fun c => c c4), if_neg (show ¬ ¬ RoomSMCD v' from fun c => c ((away_roomSMCD a h hlen hL c1 c2).2 c4))]
  have k5 : HasSMCD v' ∧ 8 < gidCount v' ↔ HasSMCD v ∧ 8 < gidCount v :=
    ⟨fun c => ⟨hs.1 c.1, by rw [← away_gidCount a h hlen hL c1 c2 (hs.1 c.1)]; exact c.2⟩,
      fun c => ⟨hs.2 c.1, by rw [away_gidCount a h hlen hL c1 c2 c.1]; exact c.2⟩⟩
  by_cases c5 : HasSMCD v ∧ 8 < gidCount v
  · rw [if_pos c5, if_pos (k5.2 c5)]
    rfl
  rw [if_neg c5, if_neg (fun c => c5 (k5.1 c)), away_last4 a h hlen hL c2]
  have hR := away_R (e := e) (e' := e') a h hlen hL p (by omega) (by omega) h' c1 c2
  simp only [Go.val?, Option.map_some, Option.some.injEq]
  simp only [noOffsets, ProposalV2.mk.injEq] at hR ⊢
  simp only [hR, and_self]

/-- the message of `v2Example` with all three offsets set to 0xffff -/
def v2Wild : Bytes :=
  ((((((v2Example.set 38 0xff).set 39 0xff).set 50 0xff).set 51 0xff).set 111 0xff).set 112 0xff)

example : v2Wild.length = v2Example.length ∧ (∀ i, ¬ OffsetByte v2Example i → v2Wild[i]? = v2Example[i]?) ∧
    (ProposalV2.parse {} ⟨v2Wild, []⟩).val?.map (fun m => (m.IPAreaOffset, m.SMCv2Offset, m.SMCDv2Off)) = some (0xffff, 0xffff, 0xffff) ∧
    (ProposalV2.parse {} ⟨v2Example, []⟩).val?.map (fun m => (m.IPAreaOffset, m.SMCv2Offset, m.SMCDv2Off)) = some (40, 25, 64) := by
  refine ⟨by decide +kernel, ?_, by decide +kernel, by decide +kernel⟩
  have hx : extAt v2Example = 105 ∧ RoomIP v2Example ∧ HasExt v2Example ∧ RoomExt v2Example := by decide +kernel
  intro i hi
  unfold OffsetByte at hi
  simp only [hx.1, not_or] at hi
  unfold v2Wild
  rw [List.getElem?_set_ne (by omega), List.getElem?_set_ne (by omega), List.getElem?_set_ne (by omega),
    List.getElem?_set_ne (by omega), List.getElem?_set_ne (by omega), List.getElem?_set_ne (by omega)]

end SMC.Props
