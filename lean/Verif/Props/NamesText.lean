import Verif.Spec.CLCNames
import Verif.Lemmas.Show
import Verif.Props.SMCDv2Text
/-!
# C50, C90: exactly what the texts of CLC messages show
-/

namespace SMC.Props

open SMC Spec CLC

theorem eidsStr_list (n i : Nat) (es : List Bytes) : eidsStr n i es = ((es.take (n - i)).mapIdx fun j e =>
    (if i + j = 0 then [] else go! ", ") ++ (go! "EID " ++ (dec (i + j) ++ (go! ": " ++ eidStr e)))).flatten := by
  induction es generalizing i with
  | nil => simp [eidsStr]
  | cons e es ih =>
    unfold eidsStr
    by_cases h : i ≥ n
    · rw [if_pos h, show n - i = 0 from by omega]
      simp
    · rw [if_neg h, show n - i = (n - (i + 1)) + 1 from by omega, List.take_succ_cons, List.mapIdx_cons, List.flatten_cons, ih]
      unfmt [List.append_nil, Nat.add_zero, List.append_assoc]
      have hc : (if i > 0 then go! ", " else []) = if i = 0 then [] else go! ", " := by
        by_cases h0 : i = 0
        · subst h0; rfl
        · rw [if_pos (by omega), if_neg h0]
      rw [hc]
      simp only [show ∀ j, i + 1 + j = i + (j + 1) from fun j => by omega]

theorem eidList_eq (n : Nat) (es : List Bytes) : eidList eidStr (es.take n) = eidsStr n 0 es := by
  rw [eidsStr_list]
  simp only [Nat.zero_add, Nat.sub_zero, eidList, decimal_eq]

theorem gidsStr_no (n i : Nat) (gs : List GIDEntry) : (91 : UInt8) ∉ gidsStr n i gs := by
  have hd : ∀ n, (91 : UInt8) ∉ dec n := fun n => not_mem_of_all (dec_all n) (by decide)
  induction gs generalizing i with
  | nil => simp [gidsStr]
  | cons g gs ih =>
    unfold gidsStr
    split
    · simp
    · unfmt [List.append_nil]
      simp only [List.mem_append, not_or]
      refine ⟨by split <;> decide, by decide, hd _, by decide, hd _, by decide, hd _, by decide, hd _, ih _⟩

/-- cut at the last of a byte -/
theorem last_sep {x y s t : Bytes} {c : UInt8} (hs : c ∉ s) (ht : c ∉ t) (h : x ++ c :: s = y ++ c :: t) : x = y ∧ s = t := by
  have h := congrArg List.reverse h
  simp only [List.reverse_append, List.reverse_cons, List.append_assoc, List.cons_append, List.nil_append] at h
  obtain ⟨h1, h2⟩ := (append_sep (by simpa using hs) (by simpa using ht)).1 h
  exact ⟨List.reverse_inj.1 h2, List.reverse_inj.1 h1⟩

theorem gids_eq (n : Nat) {gs fs : List GIDEntry} (hl : gs.length = fs.length) (h : gidsStr n 0 gs = gidsStr n 0 fs) :
    gs.take n = fs.take n :=
  (gids_cut (i := 0) (s := []) (t := []) (l := []) n hl (by rw [h])).1

theorem ext_names {a b : ProposalV2} (hp : a.hdr.Pathv2 = b.hdr.Pathv2)
    (ga : a.GIDArea.length = 8) (gb : b.GIDArea.length = 8) (ta : IsEye a.trailer) (tb : IsEye b.trailer)
    (h : extText a = extText b) :
    a.trailer = b.trailer ∧
      (a.hdr.Pathv2 ≠ 2 → a.EIDNumber = b.EIDNumber ∧ a.GIDNumber = b.GIDNumber ∧ a.Release = b.Release ∧
        a.SEIDInd = b.SEIDInd ∧ a.SMCDv2Off = b.SMCDv2Off) ∧
      (a.hdr.Pathv2 = 1 ∨ a.hdr.Pathv2 = 3 → a.GIDArea.take a.GIDNumber.toNat = b.GIDArea.take b.GIDNumber.toNat) ∧
      namesText eidStr (.proposalV2 a) = namesText eidStr (.proposalV2 b) := by
  have tl : (go! ", Trailer: " ++ trailerStr a.trailer).length = (go! ", Trailer: " ++ trailerStr b.trailer).length := by
    rw [List.length_append, List.length_append, trailerStr_len ta, trailerStr_len tb]
  simp only [namesText, eidList_eq]
  by_cases hx : a.hdr.Pathv2 = 2
  · have hy : b.hdr.Pathv2 = 2 := hp ▸ hx
    rw [extText_none hx, extText_none hy, List.append_cancel_left_eq] at h
    refine ⟨trailerStr_inj ta tb h, fun c => absurd hx c, fun c => ?_, by rw [if_pos hx, if_pos hy]⟩
    rw [hx] at c
    rcases c with c | c <;> cases c
  · have hy : ¬ b.hdr.Pathv2 = 2 := hp ▸ hx
    rw [extText_some hx, extText_some hy] at h
    clc_fields [] at h
    obtain ⟨k1, k2, k3, k4, k5, h⟩ := h
    rw [if_neg hx, if_neg hy, k1]
    rw [k1] at h
    by_cases hz : a.hdr.Pathv2 = 1 ∨ a.hdr.Pathv2 = 3
    · have hw : b.hdr.Pathv2 = 1 ∨ b.hdr.Pathv2 = 3 := hp ▸ hz
      have f1 : a.smcdV2ExtString = _ := if_neg (fun c => hz.elim c.1 c.2)
      have f2 : b.smcdV2ExtString = _ := if_neg (fun c => hw.elim c.1 c.2)
      unfmt [List.append_nil, ProposalV2.smcdV2ExtGIDString] at f1
      unfmt [List.append_nil, ProposalV2.smcdV2ExtGIDString] at f2
      rw [withComma_cons f1, withComma_cons f2] at h
      have e : ∀ p : ProposalV2, eidsStr b.EIDNumber.toNat 0 p.EIDArea ++ (go! "]" ++ (go! ", " ++ (go! "SEID: " ++ (eidStr p.SEID ++
          (go! ", GID Area: [" ++ (gidsStr p.GIDNumber.toNat 0 p.GIDArea ++ go! "]")))) ++
            (go! ", Trailer: " ++ trailerStr p.trailer))) =
          (((eidsStr b.EIDNumber.toNat 0 p.EIDArea ++ (go! "], SEID: " ++ eidStr p.SEID)) ++ go! ", GID Area: ") ++
            (91 :: (gidsStr p.GIDNumber.toNat 0 p.GIDArea ++ go! "]"))) ++ (go! ", Trailer: " ++ trailerStr p.trailer) := by
        intro p
        simp only [List.append_assoc, List.cons_append, List.nil_append]
      rw [e a, e b] at h
      obtain ⟨h, ht⟩ := List.append_inj' h tl
      have no : ∀ p : ProposalV2, (91 : UInt8) ∉ gidsStr p.GIDNumber.toNat 0 p.GIDArea ++ go! "]" := by
        intro p
        rw [List.mem_append, not_or]
        exact ⟨gidsStr_no _ _ _, by decide⟩
      obtain ⟨h, hg⟩ := last_sep (no a) (no b) h
      have h := List.append_cancel_right h
      have hg := List.append_cancel_right hg
      rw [k2] at hg
      refine ⟨trailerStr_inj ta tb (List.append_cancel_left ht), fun _ => ⟨rfl, k2, k3, k4, k5⟩,
        fun _ => by rw [k2]; exact gids_eq _ (by rw [ga, gb]) hg, ?_⟩
      rw [if_pos hz, if_pos hw]
      exact h
    · have hw : ¬ (b.hdr.Pathv2 = 1 ∨ b.hdr.Pathv2 = 3) := hp ▸ hz
      have f1 : a.smcdV2ExtString = [] := if_pos (not_or.1 hz)
      have f2 : b.smcdV2ExtString = [] := if_pos (not_or.1 hw)
      rw [f1, f2] at h
      simp only [withComma, ne_eq, not_true_eq_false, if_false, List.nil_append, ← List.append_assoc] at h
      simp only [List.append_assoc _ _ (trailerStr _)] at h
      obtain ⟨h, ht⟩ := List.append_inj' h tl
      have h := List.append_cancel_right h
      refine ⟨trailerStr_inj ta tb (List.append_cancel_left ht), fun _ => ⟨rfl, k2, k3, k4, k5⟩, fun c => absurd c hz, ?_⟩
      rw [if_neg hz, if_neg hw, h]

theorem hexBytes_no (x : Bytes) : (32 : UInt8) ∉ hexBytes x :=
  not_mem_of_all (hexBytes_all x) (by decide)

theorem extR_names {a b : ProposalV2} (hp : a.hdr.Pathv2 = b.hdr.Pathv2)
    (ga : a.GIDArea.length = 8) (gb : b.GIDArea.length = 8) (ta : IsEye a.trailer) (tb : IsEye b.trailer)
    (h : extRText a = extRText b) :
    a.trailer = b.trailer ∧
      (a.hdr.Pathv2 ≠ 2 → a.EIDNumber = b.EIDNumber ∧ a.GIDNumber = b.GIDNumber ∧ a.rsv3 = b.rsv3 ∧ a.Release = b.Release ∧
        a.rsv4 = b.rsv4 ∧ a.SEIDInd = b.SEIDInd ∧ a.rsv5 = b.rsv5 ∧ a.SMCDv2Off = b.SMCDv2Off ∧ a.rsv6 = b.rsv6) ∧
      (a.hdr.Pathv2 = 1 ∨ a.hdr.Pathv2 = 3 → a.rsv7 = b.rsv7 ∧
        a.GIDArea.take a.GIDNumber.toNat = b.GIDArea.take b.GIDNumber.toNat) ∧
      namesText eidStr (.proposalV2 a) = namesText eidStr (.proposalV2 b) := by
  have tl : (go! ", Trailer: " ++ trailerStr a.trailer).length = (go! ", Trailer: " ++ trailerStr b.trailer).length := by
    rw [List.length_append, List.length_append, trailerStr_len ta, trailerStr_len tb]
  simp only [namesText, eidList_eq]
  by_cases hx : a.hdr.Pathv2 = 2
  · have hy : b.hdr.Pathv2 = 2 := hp ▸ hx
    rw [extRText_none hx, extRText_none hy, List.append_cancel_left_eq] at h
    refine ⟨trailerStr_inj ta tb h, fun c => absurd hx c, fun c => ?_, by rw [if_pos hx, if_pos hy]⟩
    rw [hx] at c
    rcases c with c | c <;> cases c
  · have hy : ¬ b.hdr.Pathv2 = 2 := hp ▸ hx
    rw [extRText_some hx, extRText_some hy] at h
    clc_fields [hexBytes_sep] at h
    obtain ⟨k1, k2, r1, k3, r2, k4, r3, k5, r4, h⟩ := h
    rw [if_neg hx, if_neg hy, k1]
    rw [k1] at h
    by_cases hz : a.hdr.Pathv2 = 1 ∨ a.hdr.Pathv2 = 3
    · have hw : b.hdr.Pathv2 = 1 ∨ b.hdr.Pathv2 = 3 := hp ▸ hz
      have f1 : a.smcdV2ExtReserved = _ := if_neg (fun c => hz.elim c.1 c.2)
      have f2 : b.smcdV2ExtReserved = _ := if_neg (fun c => hw.elim c.1 c.2)
      unfmt [List.append_nil, ProposalV2.smcdV2ExtGIDString] at f1
      unfmt [List.append_nil, ProposalV2.smcdV2ExtGIDString] at f2
      rw [withComma_cons f1, withComma_cons f2] at h
      have e : ∀ p : ProposalV2, eidsStr b.EIDNumber.toNat 0 p.EIDArea ++ (go! "]" ++ (go! ", " ++ (go! "SEID: " ++ (eidStr p.SEID ++
          (go! ", Reserved: " ++ (hexBytes p.rsv7 ++
          (go! ", GID Area: [" ++ (gidsStr p.GIDNumber.toNat 0 p.GIDArea ++ go! "]")))))) ++
            (go! ", Trailer: " ++ trailerStr p.trailer))) =
          (((((eidsStr b.EIDNumber.toNat 0 p.EIDArea ++ (go! "], SEID: " ++ eidStr p.SEID)) ++ go! ", Reserved:") ++
            (32 :: hexBytes p.rsv7)) ++ go! ", GID Area: ") ++
            (91 :: (gidsStr p.GIDNumber.toNat 0 p.GIDArea ++ go! "]"))) ++ (go! ", Trailer: " ++ trailerStr p.trailer) := by
        intro p
        simp only [List.append_assoc, List.cons_append, List.nil_append]
      rw [e a, e b] at h
      obtain ⟨h, ht⟩ := List.append_inj' h tl
      have no : ∀ p : ProposalV2, (91 : UInt8) ∉ gidsStr p.GIDNumber.toNat 0 p.GIDArea ++ go! "]" := by
        intro p
        rw [List.mem_append, not_or]
        exact ⟨gidsStr_no _ _ _, by decide⟩
      obtain ⟨h, hg⟩ := last_sep (no a) (no b) h
      obtain ⟨h, hr⟩ := last_sep (hexBytes_no _) (hexBytes_no _) (List.append_cancel_right h)
      have h := List.append_cancel_right h
      have hg := List.append_cancel_right hg
      rw [k2] at hg
      have hr : a.rsv7 = b.rsv7 := hexBytes_inj hr
      refine ⟨trailerStr_inj ta tb (List.append_cancel_left ht), fun _ => ⟨rfl, k2, r1, k3, r2, k4, r3, k5, r4⟩,
        fun _ => ⟨hr, by rw [k2]; exact gids_eq _ (by rw [ga, gb]) hg⟩, ?_⟩
      rw [if_pos hz, if_pos hw]
      exact h
    · have hw : ¬ (b.hdr.Pathv2 = 1 ∨ b.hdr.Pathv2 = 3) := hp ▸ hz
      have f1 : a.smcdV2ExtReserved = [] := if_pos (not_or.1 hz)
      have f2 : b.smcdV2ExtReserved = [] := if_pos (not_or.1 hw)
      rw [f1, f2] at h
      simp only [withComma, ne_eq, not_true_eq_false, if_false, List.nil_append, ← List.append_assoc] at h
      simp only [List.append_assoc _ _ (trailerStr _)] at h
      obtain ⟨h, ht⟩ := List.append_inj' h tl
      have h := List.append_cancel_right h
      refine ⟨trailerStr_inj ta tb (List.append_cancel_left ht), fun _ => ⟨rfl, k2, r1, k3, r2, k4, r3, k5, r4⟩,
        fun c => absurd c hz, ?_⟩
      rw [if_neg hz, if_neg hw, h]

set_option maxRecDepth 8000 in
theorem proposalV2_others (a b : ProposalV2) (ha : Plain (.proposalV2 a)) (hb : Plain (.proposalV2 b))
    (h : a.string = b.string) :
    otherFields eidStr (present (.proposalV2 a)) = otherFields eidStr (present (.proposalV2 b)) ∧
      namesText eidStr (.proposalV2 a) = namesText eidStr (.proposalV2 b) := by
  unfmt [ProposalV2.string, List.append_nil] at h
  obtain ⟨h1, h2, h3, h4, h5, h6, h7, h8, h9, h10⟩ := ha
  obtain ⟨g1, g2, g3, g4, g5, g6, g7, g8, g9, g10⟩ := hb
  obtain ⟨e, h⟩ := header_cut h1 g1 h
  rw [← hdrFields_rsv, ← hdrFields_rsv] at e
  have hp := hdrFields_path e
  have hp2 := hdrFields_pathv2 e h9 h10 g9 g10
  have i1 : a.IBGID.length ≠ 4 := by omega
  have i2 : b.IBGID.length ≠ 4 := by omega
  clc_fields [] at h
  obtain ⟨k1, k2, k3, k4, k5, k6, h⟩ := h
  obtain ⟨k7, h, k8⟩ := ip_cut hp hp2 h4 g4 h5 g5 h
  have k7 := UInt16.toNat_inj.1 k7
  obtain ⟨ht, k10, k11, k12⟩ := ext_names hp2 h7 g7 h8 g8 h
  refine ⟨?_, k12⟩
  clear h h9 h10 g9 g10 h1 g1 k12
  have q1 : b.hdr.Path = 2 ↔ a.hdr.Path = 2 := by rw [hp]
  have q2 : b.hdr.Pathv2 = 2 ↔ a.hdr.Pathv2 = 2 := by rw [hp2]
  have q3 : b.hdr.Pathv2 = 1 ∨ b.hdr.Pathv2 = 3 ↔ a.hdr.Pathv2 = 1 ∨ a.hdr.Pathv2 = 3 := by rw [hp2]
  simp only [present, noReserved, otherFields, Message.proposalV2.injEq, ProposalV2.mk.injEq, true_and, q1, q2, q3]
  refine ⟨e, k1, k2, k3, k4, k5, k6, k7, ?_, ?_, ?_, ?_, ?_, ?_, ?_, ?_, ?_, ?_, ht⟩
  all_goals split
  all_goals first | rfl | skip
  case refine_1 c => exact (k8 c).1
  case refine_2 c => exact (k8 c).2.1
  case refine_3 c => exact (k8 c).2.2.1
  case refine_4 c => exact (k8 c).2.2.2
  case refine_5 c => exact (k10 c).1
  case refine_6 c => exact (k10 c).2.1
  case refine_7 c => exact (k10 c).2.2.1
  case refine_8 c => exact (k10 c).2.2.2.1
  case refine_9 c => exact (k10 c).2.2.2.2
  case refine_10 c => exact k11 c

set_option maxRecDepth 8000 in
theorem proposalV2_othersR (a b : ProposalV2) (ha : Plain (.proposalV2 a)) (hb : Plain (.proposalV2 b))
    (h : a.reserved = b.reserved) :
    otherFields eidStr (every (.proposalV2 a)) = otherFields eidStr (every (.proposalV2 b)) ∧
      namesText eidStr (.proposalV2 a) = namesText eidStr (.proposalV2 b) := by
  unfmt [ProposalV2.reserved, List.append_nil] at h
  obtain ⟨h1, h2, h3, h4, h5, h6, h7, h8, h9, h10⟩ := ha
  obtain ⟨g1, g2, g3, g4, g5, g6, g7, g8, g9, g10⟩ := hb
  obtain ⟨e, h⟩ := header_cut_reserved h1 g1 h
  have hp := hdrEvery_path e
  have hp2 := hdrEvery_pathv2 e h9 h10 g9 g10
  have i1 : a.IBGID.length ≠ 4 := by omega
  have i2 : b.IBGID.length ≠ 4 := by omega
  clc_fields [] at h
  obtain ⟨k1, k2, k3, k4, k5, k6, k7, h⟩ := h
  obtain ⟨r1, h, k8⟩ := ipR_cut hp hp2 h4 g4 h5 g5 h
  obtain ⟨ht, k10, k11, k12⟩ := extR_names hp2 h7 g7 h8 g8 h
  refine ⟨?_, k12⟩
  clear h h9 h10 g9 g10 h1 g1 k12
  have q1 : b.hdr.Path = 2 ↔ a.hdr.Path = 2 := by rw [hp]
  have q2 : b.hdr.Pathv2 = 2 ↔ a.hdr.Pathv2 = 2 := by rw [hp2]
  have q3 : b.hdr.Pathv2 = 1 ∨ b.hdr.Pathv2 = 3 ↔ a.hdr.Pathv2 = 1 ∨ a.hdr.Pathv2 = 3 := by rw [hp2]
  simp only [every, otherFields, Message.proposalV2.injEq, ProposalV2.mk.injEq, true_and, q1, q2, q3]
  refine ⟨e, k1, k2, k3, k4, k5, k6, k7, r1, ?_, ?_, ?_, ?_, ?_, ?_, ?_, ?_, ?_, ?_, ?_, ?_, ?_, ?_, ?_, ?_, ht⟩
  all_goals split
  all_goals first | rfl | skip
  case refine_1 c => exact (k8 c).1
  case refine_2 c => exact (k8 c).2.1
  case refine_3 c => exact (k8 c).2.2.1
  case refine_4 c => exact (k8 c).2.2.2.1
  case refine_5 c => exact (k8 c).2.2.2.2
  case refine_6 c => exact (k10 c).1
  case refine_7 c => exact (k10 c).2.1
  case refine_8 c => exact (k10 c).2.2.1
  case refine_9 c => exact (k10 c).2.2.2.1
  case refine_10 c => exact (k10 c).2.2.2.2.1
  case refine_11 c => exact (k10 c).2.2.2.2.2.1
  case refine_12 c => exact (k10 c).2.2.2.2.2.2.1
  case refine_13 c => exact (k10 c).2.2.2.2.2.2.2.1
  case refine_14 c => exact (k10 c).2.2.2.2.2.2.2.2
  case refine_15 c => exact (k11 c).1
  case refine_16 c => exact (k11 c).2

/-! ## Texts of what is shown -/

theorem gidsStr_take (n i : Nat) (gs : List GIDEntry) : gidsStr n i (gs.take (n - i)) = gidsStr n i gs := by
  induction gs generalizing i with
  | nil => simp
  | cons g gs ih =>
    by_cases h : i ≥ n
    · rw [show n - i = 0 from by omega, List.take_zero]
      unfold gidsStr
      rw [if_pos h]
    · rw [show n - i = (n - (i + 1)) + 1 from by omega, List.take_succ_cons]
      unfold gidsStr
      rw [ih]

theorem gidsStr_congr {n : Nat} {gs fs : List GIDEntry} (h : gs.take n = fs.take n) : gidsStr n 0 gs = gidsStr n 0 fs := by
  rw [← gidsStr_take n 0 gs, ← gidsStr_take n 0 fs, Nat.sub_zero, h]

theorem ext_congr {a b : ProposalV2} (hp : a.hdr.Pathv2 = b.hdr.Pathv2) (ht : a.trailer = b.trailer)
    (h : a.hdr.Pathv2 ≠ 2 → a.EIDNumber = b.EIDNumber ∧ a.GIDNumber = b.GIDNumber ∧ a.Release = b.Release ∧
        a.SEIDInd = b.SEIDInd ∧ a.SMCDv2Off = b.SMCDv2Off)
    (hg : a.hdr.Pathv2 = 1 ∨ a.hdr.Pathv2 = 3 → a.GIDArea.take a.GIDNumber.toNat = b.GIDArea.take b.GIDNumber.toNat)
    (hn : namesText eidStr (.proposalV2 a) = namesText eidStr (.proposalV2 b)) : extText a = extText b := by
  simp only [namesText, eidList_eq] at hn
  by_cases hx : a.hdr.Pathv2 = 2
  · rw [extText_none hx, extText_none (hp ▸ hx), ht]
  · have hy : ¬ b.hdr.Pathv2 = 2 := hp ▸ hx
    obtain ⟨k1, k2, k3, k4, k5⟩ := h hx
    rw [extText_some hx, extText_some hy, k1, k2, k3, k4, k5]
    rw [if_neg hx, if_neg hy, k1] at hn
    congr 11
    by_cases hz : a.hdr.Pathv2 = 1 ∨ a.hdr.Pathv2 = 3
    · have hw : b.hdr.Pathv2 = 1 ∨ b.hdr.Pathv2 = 3 := hp ▸ hz
      have f1 : a.smcdV2ExtString = _ := if_neg (fun c => hz.elim c.1 c.2)
      have f2 : b.smcdV2ExtString = _ := if_neg (fun c => hw.elim c.1 c.2)
      unfmt [List.append_nil, ProposalV2.smcdV2ExtGIDString] at f1
      unfmt [List.append_nil, ProposalV2.smcdV2ExtGIDString] at f2
      rw [withComma_cons f1, withComma_cons f2]
      rw [if_pos hz, if_pos hw] at hn
      have e : ∀ p : ProposalV2, eidsStr b.EIDNumber.toNat 0 p.EIDArea ++ (go! "]" ++ (go! ", " ++ (go! "SEID: " ++ (eidStr p.SEID ++
          (go! ", GID Area: [" ++ (gidsStr p.GIDNumber.toNat 0 p.GIDArea ++ go! "]")))) ++
            (go! ", Trailer: " ++ trailerStr p.trailer))) =
          (eidsStr b.EIDNumber.toNat 0 p.EIDArea ++ (go! "], SEID: " ++ eidStr p.SEID)) ++ (go! ", GID Area: [" ++
            (gidsStr p.GIDNumber.toNat 0 p.GIDArea ++ (go! "], Trailer: " ++ trailerStr p.trailer))) := by
        intro p
        simp only [List.append_assoc, List.cons_append, List.nil_append]
      have hg := hg hz
      rw [k2] at hg
      rw [e a, e b, hn, k2, ht, gidsStr_congr hg]
    · have hw : ¬ (b.hdr.Pathv2 = 1 ∨ b.hdr.Pathv2 = 3) := hp ▸ hz
      have f1 : a.smcdV2ExtString = [] := if_pos (not_or.1 hz)
      have f2 : b.smcdV2ExtString = [] := if_pos (not_or.1 hw)
      rw [if_neg hz, if_neg hw, List.append_nil, List.append_nil] at hn
      rw [f1, f2, ht, hn]

theorem extR_congr {a b : ProposalV2} (hp : a.hdr.Pathv2 = b.hdr.Pathv2) (ht : a.trailer = b.trailer)
    (h : a.hdr.Pathv2 ≠ 2 → a.EIDNumber = b.EIDNumber ∧ a.GIDNumber = b.GIDNumber ∧ a.rsv3 = b.rsv3 ∧ a.Release = b.Release ∧
        a.rsv4 = b.rsv4 ∧ a.SEIDInd = b.SEIDInd ∧ a.rsv5 = b.rsv5 ∧ a.SMCDv2Off = b.SMCDv2Off ∧ a.rsv6 = b.rsv6)
    (hg : a.hdr.Pathv2 = 1 ∨ a.hdr.Pathv2 = 3 → a.rsv7 = b.rsv7 ∧
        a.GIDArea.take a.GIDNumber.toNat = b.GIDArea.take b.GIDNumber.toNat)
    (hn : namesText eidStr (.proposalV2 a) = namesText eidStr (.proposalV2 b)) : extRText a = extRText b := by
  simp only [namesText, eidList_eq] at hn
  by_cases hx : a.hdr.Pathv2 = 2
  · rw [extRText_none hx, extRText_none (hp ▸ hx), ht]
  · have hy : ¬ b.hdr.Pathv2 = 2 := hp ▸ hx
    obtain ⟨k1, k2, r1, k3, r2, k4, r3, k5, r4⟩ := h hx
    rw [extRText_some hx, extRText_some hy, k1, k2, k3, k4, k5, r1, r2, r3, r4]
    rw [if_neg hx, if_neg hy, k1] at hn
    congr 19
    by_cases hz : a.hdr.Pathv2 = 1 ∨ a.hdr.Pathv2 = 3
    · have hw : b.hdr.Pathv2 = 1 ∨ b.hdr.Pathv2 = 3 := hp ▸ hz
      have f1 : a.smcdV2ExtReserved = _ := if_neg (fun c => hz.elim c.1 c.2)
      have f2 : b.smcdV2ExtReserved = _ := if_neg (fun c => hw.elim c.1 c.2)
      unfmt [List.append_nil, ProposalV2.smcdV2ExtGIDString] at f1
      unfmt [List.append_nil, ProposalV2.smcdV2ExtGIDString] at f2
      rw [withComma_cons f1, withComma_cons f2]
      rw [if_pos hz, if_pos hw] at hn
      have e : ∀ p : ProposalV2, eidsStr b.EIDNumber.toNat 0 p.EIDArea ++ (go! "]" ++ (go! ", " ++ (go! "SEID: " ++ (eidStr p.SEID ++
          (go! ", Reserved: " ++ (hexBytes p.rsv7 ++
          (go! ", GID Area: [" ++ (gidsStr p.GIDNumber.toNat 0 p.GIDArea ++ go! "]")))))) ++
            (go! ", Trailer: " ++ trailerStr p.trailer))) =
          (eidsStr b.EIDNumber.toNat 0 p.EIDArea ++ (go! "], SEID: " ++ eidStr p.SEID)) ++ (go! ", Reserved: " ++
            (hexBytes p.rsv7 ++ (go! ", GID Area: [" ++
            (gidsStr p.GIDNumber.toNat 0 p.GIDArea ++ (go! "], Trailer: " ++ trailerStr p.trailer))))) := by
        intro p
        simp only [List.append_assoc, List.cons_append, List.nil_append]
      obtain ⟨hr, hg⟩ := hg hz
      rw [k2] at hg
      rw [e a, e b, hn, k2, ht, hr, gidsStr_congr hg]
    · have hw : ¬ (b.hdr.Pathv2 = 1 ∨ b.hdr.Pathv2 = 3) := hp ▸ hz
      have f1 : a.smcdV2ExtReserved = [] := if_pos (not_or.1 hz)
      have f2 : b.smcdV2ExtReserved = [] := if_pos (not_or.1 hw)
      rw [if_neg hz, if_neg hw, List.append_nil, List.append_nil] at hn
      rw [f1, f2, ht, hn]

/-- what both texts begin with -/
theorem proposalV2_string_ext (a : ProposalV2) : a.string = sprintf (go! "%s, Peer ID: %s, SMC-R GID: %s, RoCE MAC: %s, IP Area Offset: %d, SMC-D GID: %d, ISMv2 VCHID: %d, SMCv2 Extension Offset: %d%s")
    [.str a.hdr.string, .str (peerIDStr a.SenderPeerID), .str (ipStr a.IBGID), .str (macStr a.IBMAC),
     .num a.IPAreaOffset.toNat, .num a.SMCDGID.toNat, .num a.ISMv2VCHID.toNat, .num a.SMCv2Offset.toNat,
     .str (withComma a.ipInfoString)] ++ extText a := by
  unfmt [ProposalV2.string, extText, List.append_nil]

theorem proposalV2_reserved_ext (a : ProposalV2) : a.reserved = sprintf (go! "%s, Peer ID: %s, SMC-R GID: %s, RoCE MAC: %s, IP Area Offset: %d, SMC-D GID: %d, ISMv2 VCHID: %d, SMCv2 Extension Offset: %d, Reserved: %#x%s")
    [.str a.hdr.reserved, .str (peerIDStr a.SenderPeerID), .str (ipStr a.IBGID), .str (macStr a.IBMAC),
     .num a.IPAreaOffset.toNat, .num a.SMCDGID.toNat, .num a.ISMv2VCHID.toNat, .num a.SMCv2Offset.toNat,
     .arr a.rsv, .str (withComma a.ipInfoReserved)] ++ extRText a := by
  unfmt [ProposalV2.reserved, extRText, List.append_nil]

theorem proposalV2_same (a b : ProposalV2) (ha : Plain (.proposalV2 a)) (hb : Plain (.proposalV2 b))
    (h : otherFields eidStr (present (.proposalV2 a)) = otherFields eidStr (present (.proposalV2 b)))
    (hn : namesText eidStr (.proposalV2 a) = namesText eidStr (.proposalV2 b)) : a.string = b.string := by
  obtain ⟨-, -, -, -, -, -, -, -, h9, h10⟩ := ha
  obtain ⟨-, -, -, -, -, -, -, -, g9, g10⟩ := hb
  simp only [present, noReserved, otherFields, Message.proposalV2.injEq, ProposalV2.mk.injEq, true_and] at h
  obtain ⟨e, k1, k2, k3, k4, k5, k6, k7, p1, p2, p3, p4, x1, x2, x3, x4, x5, x6, ht⟩ := h
  have hp := hdrFields_path e
  have hp2 := hdrFields_pathv2 e h9 h10 g9 g10
  have hs : a.hdr.string = b.hdr.string := by rw [← hdrFields_string a.hdr, ← hdrFields_string b.hdr, e]
  rw [hp] at p1 p2 p3 p4
  rw [hp2] at x1 x2 x3 x4 x5 x6
  have hi : a.ipInfoString = b.ipInfoString := by
    unfold ProposalV2.ipInfoString
    rw [hp]
    by_cases c : b.hdr.Path = SMCTypeN
    · rw [if_pos c, if_pos c]
    · have c' : ¬ b.hdr.Path = 2 := c
      rw [if_neg c'] at p1 p2 p3 p4
      rw [if_neg c'] at p1 p2 p3 p4
      unfold ProposalV2.ipV4String ProposalV2.ipV6String
      rw [p1, p2, p3, p4]
  have hx : extText a = extText b := by
    refine ext_congr hp2 ht (fun c => ?_) (fun c => ?_) hn
    · rw [hp2] at c
      simp only [if_neg c] at x1 x2 x3 x4 x5
      exact ⟨x1, x2, x3, x4, x5⟩
    · rw [hp2] at c
      simp only [if_pos c] at x6
      exact x6
  rw [proposalV2_string_ext, proposalV2_string_ext, hs, k1, k2, k3, k4, k5, k6, k7, hi, hx]

theorem proposalV2_sameR (a b : ProposalV2) (ha : Plain (.proposalV2 a)) (hb : Plain (.proposalV2 b))
    (h : otherFields eidStr (every (.proposalV2 a)) = otherFields eidStr (every (.proposalV2 b)))
    (hn : namesText eidStr (.proposalV2 a) = namesText eidStr (.proposalV2 b)) : a.reserved = b.reserved := by
  obtain ⟨-, -, -, -, -, -, -, -, h9, h10⟩ := ha
  obtain ⟨-, -, -, -, -, -, -, -, g9, g10⟩ := hb
  simp only [every, otherFields, Message.proposalV2.injEq, ProposalV2.mk.injEq, true_and] at h
  obtain ⟨e, k1, k2, k3, k4, k5, k6, k7, k8, p1, p2, p3, p4, p5, x1, x2, x3, x4, x5, x6, x7, x8, x9, y1, y2, ht⟩ := h
  have hp := hdrEvery_path e
  have hp2 := hdrEvery_pathv2 e h9 h10 g9 g10
  have hs : a.hdr.reserved = b.hdr.reserved := by rw [← hdrEvery_reserved a.hdr, ← hdrEvery_reserved b.hdr, e]
  rw [hp] at p1 p2 p3 p4 p5
  rw [hp2] at x1 x2 x3 x4 x5 x6 x7 x8 x9 y1 y2
  have hi : a.ipInfoReserved = b.ipInfoReserved := by
    unfold ProposalV2.ipInfoReserved
    rw [hp]
    by_cases c : b.hdr.Path = SMCTypeN
    · rw [if_pos c, if_pos c]
    · have c' : ¬ b.hdr.Path = 2 := c
      rw [if_neg c'] at p1 p2 p3 p4 p5
      rw [if_neg c'] at p1 p2 p3 p4 p5
      unfold ProposalV2.ipV4String ProposalV2.ipV6String
      rw [p1, p2, p3, p4, p5]
  have hx : extRText a = extRText b := by
    refine extR_congr hp2 ht (fun c => ?_) (fun c => ?_) hn
    · rw [hp2] at c
      simp only [if_neg c] at x1 x2 x3 x4 x5 x6 x7 x8 x9
      exact ⟨x1, x2, x3, x4, x5, x6, x7, x8, x9⟩
    · rw [hp2] at c
      simp only [if_pos c] at y1 y2
      exact ⟨y1, y2⟩
  rw [proposalV2_reserved_ext, proposalV2_reserved_ext, hs, k1, k2, k3, k4, k5, k6, k7, k8, hi, hx]

theorem noEIDs_string (m : Message) (hn : NoEIDs (clcKind m)) : (present m).string = m.string := by
  cases m
  case proposal m =>
    simp only [present, noReserved, Message.string]
    unfold Proposal.string
    by_cases c : m.IPAreaOffset.toNat = SMCDIPAreaOffset
    · simp only [hdrFields_string, if_pos c, if_pos (show m.IPAreaOffset.toNat = 40 from c)]
    · simp only [hdrFields_string, if_neg c]
  all_goals first
    | exact absurd rfl hn.1
    | exact absurd rfl hn.2.1
    | exact absurd rfl hn.2.2
    | (simp only [present, noReserved, Message.string]
       simp only [AcceptSMCR.string, AcceptSMCD.string, Decline.string, DeclineV2.string, hdrFields_string])

theorem noEIDs_reserved (m : Message) (hn : NoEIDs (clcKind m)) : (every m).reserved = m.reserved := by
  cases m
  case proposal m =>
    simp only [every, Message.reserved]
    unfold Proposal.reserved
    by_cases c : m.IPAreaOffset.toNat = SMCDIPAreaOffset
    · simp only [hdrEvery_reserved, if_pos c, if_pos (show m.IPAreaOffset.toNat = 40 from c)]
    · simp only [hdrEvery_reserved, if_neg c]
  all_goals first
    | exact absurd rfl hn.1
    | exact absurd rfl hn.2.1
    | exact absurd rfl hn.2.2
    | (simp only [every, Message.reserved]
       simp only [AcceptSMCR.reserved, AcceptSMCD.reserved, Decline.reserved, DeclineV2.reserved, hdrEvery_reserved])

theorem noEIDs_others {m : Message} (hn : NoEIDs (clcKind m)) :
    otherFields eidStr (present m) = present m ∧ otherFields eidStr (every m) = every m ∧ namesText eidStr m = [] ∧
      CleanEIDs eidStr m := by
  cases m <;> first
    | exact absurd rfl hn.1
    | exact absurd rfl hn.2.1
    | exact absurd rfl hn.2.2
    | exact ⟨rfl, rfl, rfl, trivial⟩

theorem proposalV2_message {m : Message} (h : clcKind m = .proposalV2) : ∃ a, m = .proposalV2 a := by
  cases m <;> first | exact ⟨_, rfl⟩ | cases h

/-- C50, exactly: two messages of one kind have the same text if and only if they agree on every field that is there and not
reserved, except for names (`f` is the text of an EID): those of SMC-Dv2 messages must have the same texts, and those of
version 2 Proposals the same text in a row. So names in a Proposal can at most pass for other names. -/
theorem C50_exact (f : Bytes → Bytes) (hf : ∀ e, EIDText e (f e)) (m m' : Message) (hk : clcKind m = clcKind m')
    (hp : Plain m) (hp' : Plain m') (hs : Sized m) (hs' : Sized m') :
    m.string = m'.string ↔
      otherFields f (present m) = otherFields f (present m') ∧ namesText f m = namesText f m' := by
  have : f = eidStr := funext fun e => C51_eid_text_unique e _ (hf e)
  subst this
  by_cases h1 : clcKind m = .proposalV2
  · obtain ⟨a, rfl⟩ := proposalV2_message h1
    obtain ⟨b, rfl⟩ := proposalV2_message (hk ▸ h1)
    exact ⟨proposalV2_others a b hp hp', fun h => proposalV2_same a b hp hp' h.1 h.2⟩
  by_cases h2 : clcKind m = .acceptSMCDv2 ∨ clcKind m = .confirmSMCDv2
  · rw [C50_smcdv2_exact eidStr hf m m' hk h2 hp hp' hs hs']
    obtain ⟨a, rfl | rfl⟩ := smcdv2_message h2 <;> obtain ⟨b, rfl | rfl⟩ := smcdv2_message (hk ▸ h2) <;>
      first | exact (and_iff_left rfl).symm | cases hk
  · have hn : NoEIDs (clcKind m) := ⟨h1, not_or.1 h2⟩
    rw [(noEIDs_others hn).1, (noEIDs_others hn).2.2.1, (noEIDs_others (hk ▸ hn)).1, (noEIDs_others (hk ▸ hn)).2.2.1]
    refine ⟨fun h => ⟨C50_string_noEIDs m m' hk hn hp hp' h, rfl⟩, fun h => ?_⟩
    rw [← noEIDs_string m hn, ← noEIDs_string m' (hk ▸ hn), h.1]

/-- C90, exactly: the same with the reserved fields. -/
theorem C90_exact (f : Bytes → Bytes) (hf : ∀ e, EIDText e (f e)) (m m' : Message) (hk : clcKind m = clcKind m')
    (hp : Plain m) (hp' : Plain m') (hs : Sized m) (hs' : Sized m') :
    m.reserved = m'.reserved ↔
      otherFields f (every m) = otherFields f (every m') ∧ namesText f m = namesText f m' := by
  have : f = eidStr := funext fun e => C51_eid_text_unique e _ (hf e)
  subst this
  by_cases h1 : clcKind m = .proposalV2
  · obtain ⟨a, rfl⟩ := proposalV2_message h1
    obtain ⟨b, rfl⟩ := proposalV2_message (hk ▸ h1)
    exact ⟨proposalV2_othersR a b hp hp', fun h => proposalV2_sameR a b hp hp' h.1 h.2⟩
  by_cases h2 : clcKind m = .acceptSMCDv2 ∨ clcKind m = .confirmSMCDv2
  · rw [C90_smcdv2_exact eidStr hf m m' hk h2 hp hp' hs hs']
    obtain ⟨a, rfl | rfl⟩ := smcdv2_message h2 <;> obtain ⟨b, rfl | rfl⟩ := smcdv2_message (hk ▸ h2) <;>
      first | exact (and_iff_left rfl).symm | cases hk
  · have hn : NoEIDs (clcKind m) := ⟨h1, not_or.1 h2⟩
    have hc := (noEIDs_others hn).2.2.2
    have hc' := (noEIDs_others (hk ▸ hn)).2.2.2
    refine ⟨fun h => ?_, fun h => ?_⟩
    · refine ⟨?_, by rw [(noEIDs_others hn).2.2.1, (noEIDs_others (hk ▸ hn)).2.2.1]⟩
      have g := C90_reserved_partial eidStr hf m m' hk hp hp' hc hc' h
      cases m <;> cases m' <;> simp only [clcKind, reduceCtorEq] at hk <;>
        first | exact g | exact absurd rfl hn.1 | exact absurd rfl hn.2.1 | exact absurd rfl hn.2.2
    · have h := h.1
      rw [(noEIDs_others hn).2.1, (noEIDs_others (hk ▸ hn)).2.1] at h
      rw [← noEIDs_reserved m hn, ← noEIDs_reserved m' (hk ▸ hn), h]

/-- a Proposal with two EIDs and a SEID -/
def twoNamed (a b c : Bytes) : ProposalV2 :=
  let padded (e : Bytes) := e ++ List.replicate (32 - e.length) 0
  { hdr := { Eyecatcher := hex! "e2d4c3d9", Typ := 1, Length := 200, Version := 2, Path := 2, Pathv2 := 1 }
    EIDNumber := 2
    EIDArea := padded a :: padded b :: List.replicate 6 (padded [])
    SEID := padded c
    IBGID := List.replicate 16 0
    trailer := hex! "e2d4c3d9" }

/-- two Proposals with other names in each place: one of them hides in another, and the SEID is only a part of what it looks
like -/
example : let m := twoNamed (go! "a, EID 1: b") (go! "c") (go! "d], SEID: e")
    let m' := twoNamed (go! "a") (go! "b, EID 1: c], SEID: d") (go! "e")
    (Plain (.proposalV2 m) ∧ Sized (.proposalV2 m)) ∧ (Plain (.proposalV2 m') ∧ Sized (.proposalV2 m')) ∧
    namesText eidStr (.proposalV2 m) = go! "EID 0: a, EID 1: b, EID 1: c], SEID: d], SEID: e" ∧
    m.string = m'.string ∧ m.reserved = m'.reserved := by
  have hp : ∀ a b c : Bytes, Plain (.proposalV2 (twoNamed a b c)) := fun a b c =>
    ⟨⟨.inl rfl, (by decide : (2 : UInt8).toNat < 4), (by decide : (1 : UInt8).toNat < 4)⟩, rfl, rfl,
      fun h => absurd rfl h, (fun _ h => nomatch h), rfl, rfl, .inl rfl, rfl, rfl⟩
  refine ⟨⟨hp _ _ _, ?_⟩, ⟨hp _ _ _, ?_⟩, by decide +kernel, by decide +kernel, by decide +kernel⟩
  · exact (by decide +kernel : SizedProposalV2 (twoNamed (go! "a, EID 1: b") (go! "c") (go! "d], SEID: e")))
  · exact (by decide +kernel : SizedProposalV2 (twoNamed (go! "a") (go! "b, EID 1: c], SEID: d") (go! "e")))

end SMC.Props
