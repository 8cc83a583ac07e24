import Verif.Props.CLCText
/-!
# C50: what the texts of CLC messages show
-/

namespace SMC.Props

open SMC Spec CLC

theorem hdrFields_rsv (h : Header) : { hdrFields h with rsv := 0 } = hdrFields { h with rsv := 0 } := by
  unfold hdrFields; split <;> rfl

section
variable {h h' : Header} (e : { hdrFields h with rsv := 0 } = { hdrFields h' with rsv := 0 })
include e

theorem hdrFields_length : h.Length = h'.Length := by
  have := congrArg Header.Length e
  unfold hdrFields at this
  split at this <;> split at this <;> exact this

theorem hdrFields_path : h.Path = h'.Path := by
  have := congrArg Header.Path e
  unfold hdrFields at this
  split at this <;> split at this <;> exact this

theorem hdrFields_pathv2 (h1 : h.Typ = 1) (h2 : h.Version = 2) (h3 : h'.Typ = 1) (h4 : h'.Version = 2) :
    h.Pathv2 = h'.Pathv2 := by
  have := congrArg Header.Pathv2 e
  unfold hdrFields at this
  rw [if_pos ⟨h1, h2⟩, if_pos ⟨h3, h4⟩] at this
  exact this

end

/-- the header and the other fields of two messages of one kind with equal texts -/
macro "clc_fields" "[" ls:Lean.Parser.Tactic.simpLemma,* "]" " at " h:ident : tactic => `(tactic|
  simp (disch := first | decide | assumption) only [List.append_cancel_left_eq, dec_sep, hexInt_sep, macStr_sep, ipStr_sep, rmbeSizeStr_sep, clcQpmtuStr_sep, osTypeStr_sep,
    peerDiagnosisStr_sep, peerIDStr_sep, UInt8.toNat_inj, UInt16.toNat_inj, UInt32.toNat_inj, UInt64.toNat_inj,
    and_true, true_and, $ls,*] at $h:ident)

theorem trailerStr_inj {a b : Bytes} (ha : IsEye a) (hb : IsEye b) (h : trailerStr a = trailerStr b) : a = b :=
  eyecatcherStr_inj ha hb h

set_option maxRecDepth 8000 in
theorem decline_text (a b : Decline) (ha : Plain (.decline a)) (hb : Plain (.decline b)) (h : a.string = b.string) :
    present (.decline a) = present (.decline b) := by
  unfmt [Decline.string, List.append_nil] at h
  obtain ⟨h1, h2, h3⟩ := ha
  obtain ⟨g1, g2, g3⟩ := hb
  obtain ⟨e, h⟩ := header_cut h1 g1 h
  rw [← hdrFields_rsv, ← hdrFields_rsv] at e
  clc_fields [] at h
  have ht := trailerStr_inj h3 g3 h.2.2
  cases a; cases b; simp_all [present, noReserved]

set_option maxRecDepth 8000 in
theorem declineV2_text (a b : DeclineV2) (ha : Plain (.declineV2 a)) (hb : Plain (.declineV2 b)) (h : a.string = b.string) :
    present (.declineV2 a) = present (.declineV2 b) := by
  unfmt [DeclineV2.string, List.append_nil] at h
  obtain ⟨h1, h2, h3⟩ := ha
  obtain ⟨g1, g2, g3⟩ := hb
  obtain ⟨e, h⟩ := header_cut h1 g1 h
  rw [← hdrFields_rsv, ← hdrFields_rsv] at e
  clc_fields [] at h
  have ht := trailerStr_inj h3 g3 h.2.2.2
  cases a; cases b; simp_all [present, noReserved]

set_option maxRecDepth 8000 in
theorem smcr_text (a b : AcceptSMCR) (ha : Plain (.acceptSMCR a)) (hb : Plain (.acceptSMCR b)) (h : a.string = b.string) :
    present (.acceptSMCR a) = present (.acceptSMCR b) := by
  unfmt [AcceptSMCR.string, List.append_nil] at h
  obtain ⟨h1, h2, h3, h4⟩ := ha
  obtain ⟨g1, g2, g3, g4⟩ := hb
  obtain ⟨e, h⟩ := header_cut h1 g1 h
  rw [← hdrFields_rsv, ← hdrFields_rsv] at e
  have i1 : a.IBGID.length ≠ 4 := by omega
  have i2 : b.IBGID.length ≠ 4 := by omega
  clc_fields [] at h
  obtain ⟨k1, k2, k3, k4, k5, k6, k7, k8, k9, k10, k11, k12⟩ := h
  have ht := trailerStr_inj h4 g4 k12
  cases a; cases b; simp_all [present, noReserved]

set_option maxRecDepth 8000 in
theorem smcd_text (a b : AcceptSMCD) (ha : Plain (.acceptSMCD a)) (hb : Plain (.acceptSMCD b)) (h : a.string = b.string) :
    present (.acceptSMCD a) = present (.acceptSMCD b) := by
  unfmt [AcceptSMCD.string, List.append_nil] at h
  obtain ⟨h1, h4⟩ := ha
  obtain ⟨g1, g4⟩ := hb
  obtain ⟨e, h⟩ := header_cut h1 g1 h
  rw [← hdrFields_rsv, ← hdrFields_rsv] at e
  clc_fields [] at h
  obtain ⟨k1, k2, k3, k4, k5, k6⟩ := h
  have ht := trailerStr_inj h4 g4 k6
  cases a; cases b; simp_all [present, noReserved]

set_option maxRecDepth 8000 in
theorem smcdv2_text (a b : AcceptSMCDv2) (ha : Plain (.acceptSMCDv2 a)) (hb : Plain (.acceptSMCDv2 b))
    (ca : CleanEIDs eidStr (.acceptSMCDv2 a)) (cb : CleanEIDs eidStr (.acceptSMCDv2 b)) (h : a.string = b.string) :
    eidTexts eidStr (present (.acceptSMCDv2 a)) = eidTexts eidStr (present (.acceptSMCDv2 b)) := by
  unfmt [AcceptSMCDv2.string, List.append_nil] at h
  obtain ⟨h1, h4⟩ := ha
  obtain ⟨g1, g4⟩ := hb
  obtain ⟨c1, c2⟩ := ca
  obtain ⟨d1, d2⟩ := cb
  obtain ⟨e, h⟩ := header_cut h1 g1 h
  rw [← hdrFields_rsv, ← hdrFields_rsv] at e
  have hl := hdrFields_length e
  clc_fields [] at h
  obtain ⟨k1, k2, k3, k4, k5, k6, h⟩ := h
  by_cases hx : a.hdr.Length.toNat < 114
  · have hy : b.hdr.Length.toNat < 114 := hl ▸ hx
    have f1 : a.fceString = [] := if_pos hx
    have f2 : b.fceString = [] := if_pos hy
    rw [f1, f2] at h
    simp only [List.nil_append] at h
    obtain ⟨k7, h⟩ := (str_sep c1 d1).1 h
    have ht := trailerStr_inj h4 g4 h
    cases a; cases b; simp_all [present, noReserved, eidTexts]
  · have hy : ¬ b.hdr.Length.toNat < 114 := hl ▸ hx
    have f1 : a.fceString = _ := if_neg hx
    have f2 : b.fceString = _ := if_neg hy
    rw [f1, f2] at h
    unfmt [] at h
    obtain ⟨k7, h⟩ := (str_sep c1 d1).1 h
    clc_fields [] at h
    obtain ⟨k8, k9, h⟩ := h
    obtain ⟨k10, h⟩ := (str_sep c2 d2).1 h
    have ht := trailerStr_inj h4 g4 h
    clear f1 f2
    cases a; cases b; simp_all [present, noReserved, eidTexts]
    rw [if_neg (by omega), if_neg (by omega), k10]

set_option maxRecDepth 8000 in
theorem proposal_text (a b : Proposal) (ha : Plain (.proposal a)) (hb : Plain (.proposal b)) (h : a.string = b.string) :
    present (.proposal a) = present (.proposal b) := by
  unfmt [Proposal.string, List.append_nil] at h
  obtain ⟨h1, h2, h3, h4, h5, h6⟩ := ha
  obtain ⟨g1, g2, g3, g4, g5, g6⟩ := hb
  obtain ⟨e, h⟩ := header_cut h1 g1 h
  rw [← hdrFields_rsv, ← hdrFields_rsv] at e
  have i1 : a.IBGID.length ≠ 4 := by omega
  have i2 : b.IBGID.length ≠ 4 := by omega
  clc_fields [] at h
  obtain ⟨k1, k2, k3, k4, h⟩ := h
  by_cases hx : a.IPAreaOffset.toNat = 40
  · have hy : b.IPAreaOffset.toNat = 40 := k4 ▸ hx
    simp only [SMCDIPAreaOffset, hx, hy, if_true] at h
    unfmt [] at h
    clc_fields [ip4_sep] at h
    obtain ⟨k5, k6, k7, h⟩ := h
    obtain ⟨k8, k9, h⟩ := count_cut h5 g5 (by decide) h
    have k8 := UInt8.toNat_inj.1 k8
    have ht := trailerStr_inj h6 g6 h
    cases a; cases b; simp_all [present, noReserved]
  · have hy : ¬ b.IPAreaOffset.toNat = 40 := k4 ▸ hx
    simp only [SMCDIPAreaOffset, hx, hy, if_false] at h
    unfmt [] at h
    clc_fields [ip4_sep] at h
    obtain ⟨k6, k7, h⟩ := h
    obtain ⟨k8, k9, h⟩ := count_cut h5 g5 (by decide) h
    have k8 := UInt8.toNat_inj.1 k8
    have ht := trailerStr_inj h6 g6 h
    cases a; cases b; simp_all [present, noReserved]

/-- the text from the v2 extension on -/
def extText (p : ProposalV2) : Bytes :=
  withComma p.propV2ExtString ++ (withComma p.smcdV2ExtString ++ (go! ", Trailer: " ++ trailerStr p.trailer))

theorem withComma_of_ne {s : Bytes} (h : s ≠ []) : withComma s = go! ", " ++ s := if_pos h

theorem withComma_cons {c : UInt8} {l s t : Bytes} (h : t = (c :: l) ++ s) : withComma t = go! ", " ++ ((c :: l) ++ s) := by
  rw [withComma_of_ne (by rw [h]; simp), h]

theorem extText_none {p : ProposalV2} (h : p.hdr.Pathv2 = 2) : extText p = go! ", Trailer: " ++ trailerStr p.trailer := by
  have h1 : p.propV2ExtString = [] := if_pos h
  have h2 : p.smcdV2ExtString = [] := if_pos (by rw [h]; decide)
  unfold extText
  rw [h1, h2]
  rfl

theorem extText_some {p : ProposalV2} (h : ¬ p.hdr.Pathv2 = 2) : extText p =
    go! ", EID Number: " ++ (dec p.EIDNumber.toNat ++ (go! ", GID Number: " ++ (dec p.GIDNumber.toNat ++
      (go! ", Release: " ++ (dec p.Release.toNat ++ (go! ", SEID Indicator: " ++ (dec p.SEIDInd.toNat ++
      (go! ", SMC-Dv2 Extension Offset: " ++ (dec p.SMCDv2Off.toNat ++ (go! ", EID Area: [" ++
      (eidsStr p.EIDNumber.toNat 0 p.EIDArea ++ (go! "]" ++
      (withComma p.smcdV2ExtString ++ (go! ", Trailer: " ++ trailerStr p.trailer)))))))))))))) := by
  have h1 : p.propV2ExtString = _ := if_neg h
  unfmt [List.append_nil] at h1
  unfold extText
  rw [withComma_cons h1]
  simp only [List.append_assoc, ProposalV2.propV2ExtEIDString]
  rfl

theorem smcd_cut {a b : ProposalV2} (hp : a.hdr.Pathv2 = b.hdr.Pathv2) (hg : a.GIDNumber = b.GIDNumber)
    (ha : a.GIDArea.length = 8) (hb : b.GIDArea.length = 8) (ca : 44 ∉ eidStr a.SEID) (cb : 44 ∉ eidStr b.SEID)
    (h : withComma a.smcdV2ExtString ++ (go! ", Trailer: " ++ trailerStr a.trailer) =
      withComma b.smcdV2ExtString ++ (go! ", Trailer: " ++ trailerStr b.trailer)) :
    trailerStr a.trailer = trailerStr b.trailer ∧
      (a.hdr.Pathv2 = 1 ∨ a.hdr.Pathv2 = 3 → eidStr a.SEID = eidStr b.SEID ∧
        a.GIDArea.take a.GIDNumber.toNat = b.GIDArea.take b.GIDNumber.toNat) := by
  by_cases hx : a.hdr.Pathv2 ≠ 1 ∧ a.hdr.Pathv2 ≠ 3
  · have hy : b.hdr.Pathv2 ≠ 1 ∧ b.hdr.Pathv2 ≠ 3 := hp ▸ hx
    have f1 : a.smcdV2ExtString = [] := if_pos hx
    have f2 : b.smcdV2ExtString = [] := if_pos hy
    rw [f1, f2] at h
    refine ⟨by simpa [withComma] using h, fun c => ?_⟩
    rcases c with c | c
    · exact absurd c hx.1
    · exact absurd c hx.2
  · have hy : ¬ (b.hdr.Pathv2 ≠ 1 ∧ b.hdr.Pathv2 ≠ 3) := hp ▸ hx
    have f1 : a.smcdV2ExtString = _ := if_neg hx
    have f2 : b.smcdV2ExtString = _ := if_neg hy
    unfmt [List.append_nil, ProposalV2.smcdV2ExtGIDString] at f1
    unfmt [List.append_nil, ProposalV2.smcdV2ExtGIDString] at f2
    rw [withComma_cons f1, withComma_cons f2] at h
    simp only [List.append_assoc, List.append_cancel_left_eq] at h
    obtain ⟨e1, h⟩ := (str_sep ca cb).1 h
    rw [hg] at h
    obtain ⟨e2, h⟩ := gids_cut _ (by rw [ha, hb]) h
    simp only [List.append_cancel_left_eq] at h
    exact ⟨h, fun _ => ⟨e1, by rw [hg]; exact e2⟩⟩

theorem ext_cut {a b : ProposalV2} (hp : a.hdr.Pathv2 = b.hdr.Pathv2)
    (la : a.EIDArea.length = 8) (lb : b.EIDArea.length = 8) (ga : a.GIDArea.length = 8) (gb : b.GIDArea.length = 8)
    (ca : CleanEIDs eidStr (.proposalV2 a)) (cb : CleanEIDs eidStr (.proposalV2 b)) (h : extText a = extText b) :
    trailerStr a.trailer = trailerStr b.trailer ∧
      (a.hdr.Pathv2 ≠ 2 → a.EIDNumber = b.EIDNumber ∧ a.GIDNumber = b.GIDNumber ∧ a.Release = b.Release ∧
        a.SEIDInd = b.SEIDInd ∧ a.SMCDv2Off = b.SMCDv2Off ∧
        (a.EIDArea.take a.EIDNumber.toNat).map eidStr = (b.EIDArea.take b.EIDNumber.toNat).map eidStr) ∧
      (a.hdr.Pathv2 = 1 ∨ a.hdr.Pathv2 = 3 → eidStr a.SEID = eidStr b.SEID ∧
        a.GIDArea.take a.GIDNumber.toNat = b.GIDArea.take b.GIDNumber.toNat) := by
  by_cases hx : a.hdr.Pathv2 = 2
  · have hy : b.hdr.Pathv2 = 2 := hp ▸ hx
    rw [extText_none hx, extText_none hy, List.append_cancel_left_eq] at h
    refine ⟨h, fun c => absurd hx c, fun c => ?_⟩
    rw [hx] at c
    rcases c with c | c <;> cases c
  · have hy : ¬ b.hdr.Pathv2 = 2 := hp ▸ hx
    rw [extText_some hx, extText_some hy] at h
    clc_fields [] at h
    obtain ⟨k1, k2, k3, k4, k5, h⟩ := h
    rw [k1] at h
    obtain ⟨k6, h⟩ := eids_cut _ (by rw [la, lb]) ca.1 cb.1 h
    obtain ⟨k7, k8⟩ := smcd_cut hp k2 ga gb ca.2 cb.2 h
    exact ⟨k7, fun _ => ⟨k1, k2, k3, k4, k5, by rw [k1]; exact k6⟩, k8⟩

/-- how the text from the v2 extension on begins -/
theorem extText_shape {a b : ProposalV2} (hp : a.hdr.Pathv2 = b.hdr.Pathv2) :
    ∃ c l s t, c ≠ 73 ∧ extText a = (44 :: 32 :: c :: l) ++ s ∧ extText b = (44 :: 32 :: c :: l) ++ t := by
  by_cases hx : a.hdr.Pathv2 = 2
  · have hy : b.hdr.Pathv2 = 2 := hp ▸ hx
    exact ⟨84, _, _, _, by decide, extText_none hx, extText_none hy⟩
  · have hy : ¬ b.hdr.Pathv2 = 2 := hp ▸ hx
    exact ⟨69, _, _, _, by decide, extText_some hx, extText_some hy⟩

theorem ipText {p : ProposalV2} (h : ¬ p.hdr.Path = 2) (r : Bytes) : withComma p.ipInfoString ++ r =
    go! ", IPv4 Prefix: " ++ (ipStr p.Prefix ++ (go! "/" ++ (dec p.PrefixLen.toNat ++ (go! ", IPv6 Prefix Count: " ++
      (dec p.IPv6PrefixesCnt.toNat ++ (prefixesStr p.IPv6Prefixes ++ r)))))) := by
  have h1 : p.ipInfoString = _ := if_neg h
  unfmt [List.append_nil, ProposalV2.ipV4String, ProposalV2.ipV6String] at h1
  rw [withComma_cons h1]
  simp only [List.append_assoc]
  rfl

theorem ip_cut {a b : ProposalV2} (hp : a.hdr.Path = b.hdr.Path) (hp2 : a.hdr.Pathv2 = b.hdr.Pathv2)
    (ha : a.hdr.Path ≠ 2 → a.Prefix.length = 4) (hb : b.hdr.Path ≠ 2 → b.Prefix.length = 4)
    (pa : PlainPrefixes a.IPv6Prefixes) (pb : PlainPrefixes b.IPv6Prefixes) {n m : Nat}
    (h : dec n ++ (withComma a.ipInfoString ++ extText a) = dec m ++ (withComma b.ipInfoString ++ extText b)) :
    n = m ∧ extText a = extText b ∧ (a.hdr.Path ≠ 2 → a.Prefix = b.Prefix ∧ a.PrefixLen = b.PrefixLen ∧
      a.IPv6PrefixesCnt = b.IPv6PrefixesCnt ∧ a.IPv6Prefixes = b.IPv6Prefixes) := by
  obtain ⟨c, l, s, t, hc, e1, e2⟩ := extText_shape hp2
  by_cases hx : a.hdr.Path = 2
  · have hy : b.hdr.Path = 2 := hp ▸ hx
    have f1 : a.ipInfoString = [] := if_pos hx
    have f2 : b.ipInfoString = [] := if_pos hy
    rw [f1, f2] at h
    simp only [withComma, ne_eq, not_true_eq_false, if_false, List.nil_append] at h
    rw [e1, e2] at h
    obtain ⟨h1, rfl⟩ := (dec_sep (by decide)).1 h
    exact ⟨h1, by rw [e1, e2], fun c => absurd hx c⟩
  · have hy : ¬ b.hdr.Path = 2 := hp ▸ hx
    rw [ipText hx, ipText hy] at h
    have l1 := ha hx
    have l2 := hb hy
    clc_fields [ip4_sep] at h
    obtain ⟨k1, k2, k3, h⟩ := h
    rw [e1, e2] at h
    obtain ⟨k4, k5, rfl⟩ := count_cut pa pb hc h
    exact ⟨k1, by rw [e1, e2], fun _ => ⟨k2, k3, UInt8.toNat_inj.1 k4, k5⟩⟩

set_option maxRecDepth 8000 in
theorem proposalV2_text (a b : ProposalV2) (ha : Plain (.proposalV2 a)) (hb : Plain (.proposalV2 b))
    (ca : CleanEIDs eidStr (.proposalV2 a)) (cb : CleanEIDs eidStr (.proposalV2 b)) (h : a.string = b.string) :
    eidTexts eidStr (present (.proposalV2 a)) = eidTexts eidStr (present (.proposalV2 b)) := by
  unfmt [ProposalV2.string, List.append_nil] at h
  obtain ⟨h1, h2, h3, h4, h5, h6, h7, h8, h9, h10⟩ := ha
  obtain ⟨g1, g2, g3, g4, g5, g6, g7, g8, g9, g10⟩ := hb
  obtain ⟨c1, c2⟩ := ca
  obtain ⟨d1, d2⟩ := cb
  obtain ⟨e, h⟩ := header_cut h1 g1 h
  rw [← hdrFields_rsv, ← hdrFields_rsv] at e
  have hp := hdrFields_path e
  have hp2 := hdrFields_pathv2 e h9 h10 g9 g10
  have i1 : a.IBGID.length ≠ 4 := by omega
  have i2 : b.IBGID.length ≠ 4 := by omega
  clc_fields [] at h
  obtain ⟨k1, k2, k3, k4, k5, k6, h⟩ := h
  obtain ⟨k7, h, k8⟩ := ip_cut hp hp2 h4 g4 h5 g5 h
  have k7 := UInt16.toNat_inj.1 k7
  obtain ⟨k9, k10, k11⟩ := ext_cut hp2 h6 g6 h7 g7 ⟨c1, c2⟩ ⟨d1, d2⟩ h
  have ht := trailerStr_inj h8 g8 k9
  clear h h9 h10 g9 g10 c1 c2 d1 d2 h1 g1
  have q1 : b.hdr.Path = 2 ↔ a.hdr.Path = 2 := by rw [hp]
  have q2 : b.hdr.Pathv2 = 2 ↔ a.hdr.Pathv2 = 2 := by rw [hp2]
  have q3 : b.hdr.Pathv2 = 1 ∨ b.hdr.Pathv2 = 3 ↔ a.hdr.Pathv2 = 1 ∨ a.hdr.Pathv2 = 3 := by rw [hp2]
  simp only [present, noReserved, eidTexts, Message.proposalV2.injEq, ProposalV2.mk.injEq, true_and, q1, q2, q3]
  refine ⟨e, k1, k2, k3, k4, k5, k6, k7, ?_, ?_, ?_, ?_, ?_, ?_, ?_, ?_, ?_, ?_, ?_, ?_, ht⟩
  all_goals split
  all_goals first | rfl | skip
  case refine_1 c => exact (k8 c).1
  case refine_2 c => exact (k8 c).2.1
  case refine_3 c => exact (k8 c).2.2.1
  case refine_4 c => exact (k8 c).2.2.2
  case refine_5 c => exact (k10 c).1
  case refine_6 c => exact (k10 c).2.1
  case refine_7 c => exact (k10 c).2.2.1
  case refine_8 c => exact (k10 c).2.2.2.1
  case refine_9 c => exact (k10 c).2.2.2.2.1
  case refine_10 c => exact (k10 c).2.2.2.2.2
  case refine_11 c => exact (k11 c).1
  case refine_12 c => exact (k11 c).2

end SMC.Props
