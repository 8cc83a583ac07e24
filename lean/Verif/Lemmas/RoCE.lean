import Verif.RoCE
import Verif.Lemmas.LLC
/-!
# Closed forms of the pkg/roce parsers
-/

namespace SMC

namespace LLC

/-- `ParseLLC` does not look beyond the length of its buffer -/
theorem parseLLC_extra (v e e' : Bytes) : parseLLC ⟨v, e⟩ = parseLLC ⟨v, e'⟩ := by
  unfold parseLLC
  simp only [Slice.len_mk]
  by_cases hl : v.length = 44
  · have h : ¬ (v.length ≠ LLCMsgLen) := by simp [LLCMsgLen, hl]
    simp only [h, if_false]
    rw [Slice.idx_of_lt (by omega), Slice.idx_of_lt (by omega)]
    simp only [Go.ret_bind, parseConfirm, parseAddLink, parseAddLinkCont, parseDeleteLink, parseConfirmRKey,
      parseConfirmRKeyCont, parseDeleteRKey, parseTestLink, parseCDC, parseOther]
    rw [confirmLink_parse {} v e (by omega), confirmLink_parse {} v e' (by omega),
      addLink_parse {} v e (by omega), addLink_parse {} v e' (by omega),
      addLinkCont_parse {} rfl v e (by omega), addLinkCont_parse {} rfl v e' (by omega),
      deleteLink_parse {} v e (by omega), deleteLink_parse {} v e' (by omega),
      confirmRKey_parse {} rfl v e (by omega), confirmRKey_parse {} rfl v e' (by omega),
      confirmRKeyCont_parse_44 {} rfl v e hl, confirmRKeyCont_parse_44 {} rfl v e' hl,
      deleteRKey_parse {} rfl v e (by omega), deleteRKey_parse {} rfl v e' (by omega),
      testLink_parse {} v e (by omega), testLink_parse {} v e' (by omega),
      cdc_parse {} v e (by omega), cdc_parse {} v e' (by omega),
      other_parse, other_parse]
  · have h : v.length ≠ LLCMsgLen := by simpa [LLCMsgLen] using hl
    simp only [h, ne_eq, not_false_eq_true, if_true, parseOther, other_parse]

/-- the bytes `ParseLLC` sees, without spare capacity -/
theorem parseLLC_vis (s : Slice) : parseLLC s = parseLLC ⟨s.vis, []⟩ := parseLLC_extra s.vis s.extra []

end LLC

namespace RoCE

theorem bth_parse (b : BTH) (v e : Bytes) (h : 12 ≤ v.length) :
    b.parse ⟨v, e⟩ = .ret [] {
      Raw := v, Opcode := v[0], SE := decide (v[1] &&& 0x80 > 0), M := decide (v[1] &&& 0x40 > 0)
      Pad := (v[1] &&& 0x30) >>> 4, TVer := v[1] &&& 0x0f, PKey := u16 v[2] v[3]
      FECN := decide (v[4] &&& 0x80 > 0), BECN := decide (v[4] &&& 0x40 > 0), res1 := v[4] &&& 0x3f
      DestQP := u24 v[5] v[6] v[7], A := decide (v[8] &&& 0x80 > 0), res2 := v[8] &&& 0x7f
      PSN := u24 v[9] v[10] v[11] } := by
  goparse [BTH.parse, Slice.len_mk]
  rw [copyInto_eq (by simp)]

theorem bth_needs (b : BTH) (s : Slice) : Needs 12 s (b.parse s) := by
  unfold BTH.parse
  needs

/-- below the GRH -/
def parseRest (typ : Bytes) (grh : Option GRH) (v e : Bytes) : Go RoCE :=
  (BTH.parse {} ⟨v.take 12, []⟩) >>= fun bth =>
  (LLC.parseLLC ⟨(v.drop 12).take (v.length - 16), []⟩) >>= fun llc =>
  pure { Typ := typ, GRH := grh, BTH := bth, LLC := llc, ICRC := ⟨v.drop (v.length - 4), e⟩ }

theorem bth_parse_extra (b : BTH) (v e e' : Bytes) (h : 12 ≤ v.length) : b.parse ⟨v, e⟩ = b.parse ⟨v, e'⟩ := by
  rw [bth_parse b v e h, bth_parse b v e' h]

theorem parseRoCEv2_eq (v e : Bytes) (h : 16 ≤ v.length) :
    parseRoCEv2 ⟨v, e⟩ = parseRest (go! "RoCEv2") none v e := by
  unfold parseRoCEv2 parseRest parseBTH icrc payload Slice.sto
  rw [Slice.sub_mk (by simp) (by simp [BTHLen]; omega), Go.ret_bind]
  simp only [BTHLen, List.drop_zero, Nat.sub_zero]
  rw [bth_parse_extra _ _ _ [] (by simp; omega)]
  obtain ⟨m, hm⟩ : ∃ m, BTH.parse {} ⟨v.take 12, []⟩ = .ret [] m := ⟨_, bth_parse {} (v.take 12) [] (by simp; omega)⟩
  rw [hm, Go.ret_bind, Go.ret_bind, Slice.sfrom_mk (by omega), Go.ret_bind]
  have h4 : ¬ (Slice.mk (v.drop 12) e).len < 4 := by simp; omega
  simp only [h4, if_false]
  rw [Slice.sfrom_mk (by simp), Go.ret_bind, Slice.sub_mk (by omega) (by simp), Go.ret_bind]
  simp only [Slice.len_mk, List.length_drop, List.drop_drop, Nat.sub_zero]
  rw [LLC.parseLLC_extra _ _ [], show v.length - 12 - 4 = v.length - 16 by omega,
    show 12 + (v.length - 16) = v.length - 4 by omega]

theorem parseRoCEv1_eq (v e : Bytes) (h : 56 ≤ v.length) :
    parseRoCEv1 ⟨v, e⟩ = parseRest (go! "RoCEv1") (some (decodeIPv6 (v.take 40))) (v.drop 40) e := by
  unfold parseRoCEv1 parseRest parseBTH parseGRH icrc payload Slice.sto
  rw [Slice.sub_mk (by simp) (by simp [GRHLen]; omega), Go.ret_bind]
  simp only [GRHLen, BTHLen, List.drop_zero, Nat.sub_zero, Go.pure_eq, Go.ret_bind]
  rw [Slice.sfrom_mk (by omega), Go.ret_bind, Slice.sub_mk (by simp) (by simp; omega), Go.ret_bind]
  simp only [List.drop_zero, Nat.sub_zero]
  rw [bth_parse_extra _ _ _ [] (by simp; omega)]
  obtain ⟨m, hm⟩ : ∃ m, BTH.parse {} ⟨(v.drop 40).take 12, []⟩ = .ret [] m :=
    ⟨_, bth_parse {} ((v.drop 40).take 12) [] (by simp; omega)⟩
  rw [hm, Go.ret_bind, Go.ret_bind, Slice.sfrom_mk (by simp; omega), Go.ret_bind]
  have h4 : ¬ (Slice.mk ((v.drop 40).drop 12) e).len < 4 := by simp; omega
  simp only [h4, if_false]
  rw [Slice.sfrom_mk (by simp), Go.ret_bind, Slice.sub_mk (by omega) (by simp), Go.ret_bind]
  simp only [Slice.len_mk, List.length_drop, List.drop_drop, Nat.sub_zero]
  rw [LLC.parseLLC_extra _ _ [], show v.length - (40 + 12) - 4 = v.length - 40 - 16 by omega,
    show 40 + 12 + (v.length - 40 - 16) = 40 + (v.length - 40 - 4) by omega]

theorem icrc_needs {β : Type} (s : Slice) (f : Slice → Go β) : Needs 4 s (icrc s >>= f) := by
  intro l b hb
  obtain ⟨_, t, _, h1, h2, _⟩ := (Go.bind_eq_ret _ _ _ _).1 hb
  unfold icrc at h1
  split at h1
  · cases h1
  · omega

theorem parseRoCEv2_needs (s : Slice) : Needs 16 s (parseRoCEv2 s) := by
  unfold parseRoCEv2
  refine Needs.skip fun _ => Needs.skip fun _ => ?_
  exact Needs.sfrom (n := 4) (a := 12) fun _ => icrc_needs _ _

theorem parseRoCEv1_needs (s : Slice) : Needs 56 s (parseRoCEv1 s) := by
  unfold parseRoCEv1
  refine Needs.skip fun _ => Needs.skip fun _ => ?_
  refine Needs.sfrom (n := 16) (a := 40) fun _ => ?_
  refine Needs.skip fun _ => Needs.skip fun _ => ?_
  exact Needs.sfrom (n := 4) (a := 12) fun _ => icrc_needs _ _

end RoCE

end SMC
