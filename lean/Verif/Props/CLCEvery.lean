import Verif.Spec.CLCEvery
import Verif.Props.CLCTextParsed
import Verif.Props.CLCRound
/-!
# C90: what the texts of CLC messages with reserved fields show
-/

namespace SMC.Props

open SMC Spec CLC

theorem header_cut_reserved {h h' : Header} (hp : PlainHeader h) (hp' : PlainHeader h') {l s t : Bytes}
    (e : h.reserved ++ ((44 :: l) ++ s) = h'.reserved ++ ((44 :: l) ++ t)) :
    hdrEvery h = hdrEvery h' ∧ s = t := by
  have key : ∀ h : Header, ∃ r, h.reserved = msgTypeStr h.Typ ++ ((58 :: go! " Eyecatcher: ") ++ (eyecatcherStr h.Eyecatcher ++
      ((44 :: go! " Type: ") ++ (dec h.Typ.toNat ++ ((32 :: go! "(") ++ (msgTypeStr h.Typ ++ ((41 :: go! ", Length: ") ++
      (dec h.Length.toNat ++ ((44 :: go! " Version: ") ++ (dec h.Version.toNat ++ ((44 :: go! " ") ++ (h.flagString ++
      ((44 :: 32 :: r) ++ ((if h.Typ = 1 ∧ h.Version = 2 then [] else hexInt h.rsv.toNat ++ ((44 :: go! " Path: "))) ++
      pathStr h.Path)))))))))))))) ∧ r = (if h.Typ = 1 ∧ h.Version = 2 then go! "Path: " else go! "Reserved: ") := by
    intro h
    refine ⟨_, ?_, rfl⟩
    unfold Header.reserved
    change (if h.Typ = 1 ∧ h.Version = 2 then _ else _) = _
    split <;> rename_i c
    · unfmt [List.append_nil, if_pos c]
    · unfmt [List.append_nil, if_neg c]
  obtain ⟨r, k1, q1⟩ := key h
  obtain ⟨r', k2, q2⟩ := key h'
  rw [k1, k2] at e
  simp only [List.append_assoc] at e
  have e1 := (str_sep (msgTypeStr_no h.Typ _ (Or.inl rfl)) (msgTypeStr_no h'.Typ _ (Or.inl rfl))).1 e
  have e2 := (str_sep (eyecatcherStr_no h.Eyecatcher) (eyecatcherStr_no h'.Eyecatcher)).1 e1.2
  have e3 := (dec_sep (by decide)).1 e2.2
  have e4 := (str_sep (msgTypeStr_no h.Typ _ (Or.inr rfl)) (msgTypeStr_no h'.Typ _ (Or.inr rfl))).1 e3.2
  have e5 := (dec_sep (by decide)).1 e4.2
  have e6 := (dec_sep (by decide)).1 e5.2
  have f2 := UInt8.toNat_inj.1 e3.1
  have f4 := UInt8.toNat_inj.1 e6.1
  rw [← f2, ← f4] at q2
  obtain rfl : r = r' := q1.trans q2.symm
  have e7 := (str_sep (flagString_no h) (flagString_no h')).1 e6.2
  have f1 := eyecatcherStr_inj hp.eye hp'.eye e2.1
  have f3 := UInt16.toNat_inj.1 e5.1
  by_cases c : h.Typ = 1 ∧ h.Version = 2
  · have c' : h'.Typ = 1 ∧ h'.Version = 2 := by rw [← f2, ← f4]; exact c
    have e8 := e7.2
    rw [if_pos c, if_pos c', List.nil_append, List.nil_append] at e8
    have e8 := (str_sep (l := l) (pathStr_no h.Path) (pathStr_no h'.Path)).1 e8
    have f5 := pathStr_inj hp.path hp'.path e8.1
    have f6 := flagString_inj f2 f4 f5 hp.pathv2 hp'.pathv2 e7.1
    rw [if_pos c] at f6
    refine ⟨?_, e8.2⟩
    unfold hdrEvery
    rw [if_pos c, if_pos c']
    cases h; cases h'
    simp only at *
    subst f1 f2 f3 f4 f5 f6
    rfl
  · have c' : ¬ (h'.Typ = 1 ∧ h'.Version = 2) := by rw [← f2, ← f4]; exact c
    have e8 := e7.2
    rw [if_neg c, if_neg c', List.append_assoc, List.append_assoc] at e8
    have e9 := (hexInt_sep (by decide)).1 e8
    have f7 := UInt8.toNat_inj.1 e9.1
    have e8 := (str_sep (l := l) (pathStr_no h.Path) (pathStr_no h'.Path)).1 e9.2
    have f5 := pathStr_inj hp.path hp'.path e8.1
    have f6 := flagString_inj f2 f4 f5 hp.pathv2 hp'.pathv2 e7.1
    rw [if_neg c] at f6
    refine ⟨?_, e8.2⟩
    unfold hdrEvery
    rw [if_neg c, if_neg c']
    cases h; cases h'
    simp only at *
    subst f1 f2 f3 f4 f5 f6 f7
    rfl

section
variable {h h' : Header} (e : hdrEvery h = hdrEvery h')
include e

theorem hdrEvery_length : h.Length = h'.Length := by
  have := congrArg Header.Length e
  unfold hdrEvery at this
  split at this <;> split at this <;> exact this

theorem hdrEvery_path : h.Path = h'.Path := by
  have := congrArg Header.Path e
  unfold hdrEvery at this
  split at this <;> split at this <;> exact this

theorem hdrEvery_pathv2 (h1 : h.Typ = 1) (h2 : h.Version = 2) (h3 : h'.Typ = 1) (h4 : h'.Version = 2) :
    h.Pathv2 = h'.Pathv2 := by
  have := congrArg Header.Pathv2 e
  unfold hdrEvery at this
  rw [if_pos ⟨h1, h2⟩, if_pos ⟨h3, h4⟩] at this
  exact this

end

/-! ## Kinds without EIDs -/

set_option maxRecDepth 8000 in
theorem decline_every (a b : Decline) (ha : Plain (.decline a)) (hb : Plain (.decline b)) (h : a.reserved = b.reserved) :
    every (.decline a) = every (.decline b) := by
  unfmt [Decline.reserved, List.append_nil] at h
  obtain ⟨h1, h2, h3⟩ := ha
  obtain ⟨g1, g2, g3⟩ := hb
  obtain ⟨e, h⟩ := header_cut_reserved h1 g1 h
  clc_fields [hexBytes_sep] at h
  have ht := trailerStr_inj h3 g3 h.2.2.2
  cases a; cases b; simp_all [every]

set_option maxRecDepth 8000 in
theorem declineV2_every (a b : DeclineV2) (ha : Plain (.declineV2 a)) (hb : Plain (.declineV2 b)) (h : a.reserved = b.reserved) :
    every (.declineV2 a) = every (.declineV2 b) := by
  unfmt [DeclineV2.reserved, List.append_nil] at h
  obtain ⟨h1, h2, h3⟩ := ha
  obtain ⟨g1, g2, g3⟩ := hb
  obtain ⟨e, h⟩ := header_cut_reserved h1 g1 h
  clc_fields [hexBytes_sep] at h
  have ht := trailerStr_inj h3 g3 h.2.2.2.2
  cases a; cases b; simp_all [every]

set_option maxRecDepth 8000 in
theorem smcr_every (a b : AcceptSMCR) (ha : Plain (.acceptSMCR a)) (hb : Plain (.acceptSMCR b)) (h : a.reserved = b.reserved) :
    every (.acceptSMCR a) = every (.acceptSMCR b) := by
  unfmt [AcceptSMCR.reserved, List.append_nil] at h
  obtain ⟨h1, h2, h3, h4⟩ := ha
  obtain ⟨g1, g2, g3, g4⟩ := hb
  obtain ⟨e, h⟩ := header_cut_reserved h1 g1 h
  have i1 : a.IBGID.length ≠ 4 := by omega
  have i2 : b.IBGID.length ≠ 4 := by omega
  clc_fields [hexBytes_sep] at h
  obtain ⟨k1, k2, k3, k4, k5, k6, k7, k8, k9, k10, k11, k12, k13, k14⟩ := h
  have ht := trailerStr_inj h4 g4 k14
  cases a; cases b; simp_all [every]

set_option maxRecDepth 8000 in
theorem smcd_every (a b : AcceptSMCD) (ha : Plain (.acceptSMCD a)) (hb : Plain (.acceptSMCD b)) (h : a.reserved = b.reserved) :
    every (.acceptSMCD a) = every (.acceptSMCD b) := by
  unfmt [AcceptSMCD.reserved, List.append_nil] at h
  obtain ⟨h1, h4⟩ := ha
  obtain ⟨g1, g4⟩ := hb
  obtain ⟨e, h⟩ := header_cut_reserved h1 g1 h
  clc_fields [hexBytes_sep] at h
  obtain ⟨k1, k2, k3, k4, k5, k6, k7, k8, k9⟩ := h
  have ht := trailerStr_inj h4 g4 k9
  cases a; cases b; simp_all [every]

set_option maxRecDepth 8000 in
theorem proposal_every (a b : Proposal) (ha : Plain (.proposal a)) (hb : Plain (.proposal b)) (h : a.reserved = b.reserved) :
    every (.proposal a) = every (.proposal b) := by
  unfmt [Proposal.reserved, List.append_nil] at h
  obtain ⟨h1, h2, h3, h4, h5, h6⟩ := ha
  obtain ⟨g1, g2, g3, g4, g5, g6⟩ := hb
  obtain ⟨e, h⟩ := header_cut_reserved h1 g1 h
  have i1 : a.IBGID.length ≠ 4 := by omega
  have i2 : b.IBGID.length ≠ 4 := by omega
  clc_fields [] at h
  obtain ⟨k1, k2, k3, k4, h⟩ := h
  by_cases hx : a.IPAreaOffset.toNat = 40
  · have hy : b.IPAreaOffset.toNat = 40 := k4 ▸ hx
    simp only [SMCDIPAreaOffset, hx, hy, if_true] at h
    unfmt [] at h
    clc_fields [ip4_sep, hexBytes_sep] at h
    obtain ⟨k5, k5', k6, k7, k7', h⟩ := h
    obtain ⟨k8, k9, h⟩ := count_cut h5 g5 (by decide) h
    have k8 := UInt8.toNat_inj.1 k8
    have ht := trailerStr_inj h6 g6 h
    cases a; cases b; simp_all [every]
  · have hy : ¬ b.IPAreaOffset.toNat = 40 := k4 ▸ hx
    simp only [SMCDIPAreaOffset, hx, hy, if_false] at h
    unfmt [] at h
    clc_fields [ip4_sep, hexBytes_sep] at h
    obtain ⟨k6, k7, k7', h⟩ := h
    obtain ⟨k8, k9, h⟩ := count_cut h5 g5 (by decide) h
    have k8 := UInt8.toNat_inj.1 k8
    have ht := trailerStr_inj h6 g6 h
    cases a; cases b; simp_all [every]

/-! ## SMC-Dv2 -/

set_option maxRecDepth 8000 in
theorem smcdv2_every (a b : AcceptSMCDv2) (ha : Plain (.acceptSMCDv2 a)) (hb : Plain (.acceptSMCDv2 b))
    (ca : CleanEIDs eidStr (.acceptSMCDv2 a)) (cb : CleanEIDs eidStr (.acceptSMCDv2 b)) (h : a.reserved = b.reserved) :
    eidTexts eidStr (every (.acceptSMCDv2 a)) = eidTexts eidStr (every (.acceptSMCDv2 b)) := by
  unfmt [AcceptSMCDv2.reserved, List.append_nil] at h
  obtain ⟨h1, h4⟩ := ha
  obtain ⟨g1, g4⟩ := hb
  obtain ⟨c1, c2⟩ := ca
  obtain ⟨d1, d2⟩ := cb
  obtain ⟨e, h⟩ := header_cut_reserved h1 g1 h
  have hl := hdrEvery_length e
  clc_fields [hexBytes_sep] at h
  obtain ⟨k1, k2, k3, k4, r1, r2, k5, k6, h⟩ := h
  obtain ⟨k7, h⟩ := (str_sep c1 d1).1 h
  by_cases hx : a.hdr.Length.toNat < 114
  · have hy : b.hdr.Length.toNat < 114 := hl ▸ hx
    have f1 : a.fceReserved = [] := if_pos hx
    have f2 : b.fceReserved = [] := if_pos hy
    rw [f1, f2] at h
    simp only [List.nil_append] at h
    clc_fields [hexBytes_sep] at h
    have ht := trailerStr_inj h4 g4 h.2
    simp only [every, everySMCDv2, if_pos hx, if_pos hy, eidTexts]
    cases a; cases b; simp_all
  · have hy : ¬ b.hdr.Length.toNat < 114 := hl ▸ hx
    have f1 : a.fceReserved = _ := if_neg hx
    have f2 : b.fceReserved = _ := if_neg hy
    rw [f1, f2] at h
    unfmt [] at h
    clc_fields [hexBytes_sep] at h
    obtain ⟨r3, r4, k8, k9, r5, h⟩ := h
    obtain ⟨k10, h⟩ := (str_sep c2 d2).1 h
    have ht := trailerStr_inj h4 g4 h
    clear f1 f2
    simp only [every, everySMCDv2, if_neg hx, if_neg hy, eidTexts]
    cases a; cases b; simp_all

/-! ## Proposals of version 2 -/

/-- the text from the v2 extension on -/
def extRText (p : ProposalV2) : Bytes :=
  withComma p.propV2ExtReserved ++ (withComma p.smcdV2ExtReserved ++ (go! ", Trailer: " ++ trailerStr p.trailer))

theorem extRText_none {p : ProposalV2} (h : p.hdr.Pathv2 = 2) : extRText p = go! ", Trailer: " ++ trailerStr p.trailer := by
  have h1 : p.propV2ExtReserved = [] := if_pos h
  have h2 : p.smcdV2ExtReserved = [] := if_pos (by rw [h]; decide)
  unfold extRText
  rw [h1, h2]
  rfl

theorem extRText_some {p : ProposalV2} (h : ¬ p.hdr.Pathv2 = 2) : extRText p =
    go! ", EID Number: " ++ (dec p.EIDNumber.toNat ++ (go! ", GID Number: " ++ (dec p.GIDNumber.toNat ++
      (go! ", Reserved: " ++ (hexInt p.rsv3.toNat ++
      (go! ", Release: " ++ (dec p.Release.toNat ++ (go! ", Reserved: " ++ (hexInt p.rsv4.toNat ++
      (go! ", SEID Indicator: " ++ (dec p.SEIDInd.toNat ++ (go! ", Reserved: " ++ (hexBytes p.rsv5 ++
      (go! ", SMC-Dv2 Extension Offset: " ++ (dec p.SMCDv2Off.toNat ++ (go! ", Reserved: " ++ (hexBytes p.rsv6 ++
      (go! ", EID Area: [" ++
      (eidsStr p.EIDNumber.toNat 0 p.EIDArea ++ (go! "]" ++
      (withComma p.smcdV2ExtReserved ++ (go! ", Trailer: " ++ trailerStr p.trailer)))))))))))))))))))))) := by
  have h1 : p.propV2ExtReserved = _ := if_neg h
  unfmt [List.append_nil] at h1
  unfold extRText
  rw [withComma_cons h1]
  simp only [List.append_assoc, ProposalV2.propV2ExtEIDString]
  rfl

theorem smcdR_cut {a b : ProposalV2} (hp : a.hdr.Pathv2 = b.hdr.Pathv2) (hg : a.GIDNumber = b.GIDNumber)
    (ha : a.GIDArea.length = 8) (hb : b.GIDArea.length = 8) (ca : 44 ∉ eidStr a.SEID) (cb : 44 ∉ eidStr b.SEID)
    (h : withComma a.smcdV2ExtReserved ++ (go! ", Trailer: " ++ trailerStr a.trailer) =
      withComma b.smcdV2ExtReserved ++ (go! ", Trailer: " ++ trailerStr b.trailer)) :
    trailerStr a.trailer = trailerStr b.trailer ∧
      (a.hdr.Pathv2 = 1 ∨ a.hdr.Pathv2 = 3 → eidStr a.SEID = eidStr b.SEID ∧ a.rsv7 = b.rsv7 ∧
        a.GIDArea.take a.GIDNumber.toNat = b.GIDArea.take b.GIDNumber.toNat) := by
  by_cases hx : a.hdr.Pathv2 ≠ 1 ∧ a.hdr.Pathv2 ≠ 3
  · have hy : b.hdr.Pathv2 ≠ 1 ∧ b.hdr.Pathv2 ≠ 3 := hp ▸ hx
    have f1 : a.smcdV2ExtReserved = [] := if_pos hx
    have f2 : b.smcdV2ExtReserved = [] := if_pos hy
    rw [f1, f2] at h
    refine ⟨by simpa [withComma] using h, fun c => ?_⟩
    rcases c with c | c
    · exact absurd c hx.1
    · exact absurd c hx.2
  · have hy : ¬ (b.hdr.Pathv2 ≠ 1 ∧ b.hdr.Pathv2 ≠ 3) := hp ▸ hx
    have f1 : a.smcdV2ExtReserved = _ := if_neg hx
    have f2 : b.smcdV2ExtReserved = _ := if_neg hy
    unfmt [List.append_nil, ProposalV2.smcdV2ExtGIDString] at f1
    unfmt [List.append_nil, ProposalV2.smcdV2ExtGIDString] at f2
    rw [withComma_cons f1, withComma_cons f2] at h
    simp only [List.append_assoc, List.append_cancel_left_eq] at h
    obtain ⟨e1, h⟩ := (str_sep ca cb).1 h
    obtain ⟨e3, h⟩ := (hexBytes_sep (by decide)).1 h
    rw [hg] at h
    obtain ⟨e2, h⟩ := gids_cut _ (by rw [ha, hb]) h
    simp only [List.append_cancel_left_eq] at h
    exact ⟨h, fun _ => ⟨e1, e3, by rw [hg]; exact e2⟩⟩

theorem extR_cut {a b : ProposalV2} (hp : a.hdr.Pathv2 = b.hdr.Pathv2)
    (la : a.EIDArea.length = 8) (lb : b.EIDArea.length = 8) (ga : a.GIDArea.length = 8) (gb : b.GIDArea.length = 8)
    (ca : CleanEIDs eidStr (.proposalV2 a)) (cb : CleanEIDs eidStr (.proposalV2 b)) (h : extRText a = extRText b) :
    trailerStr a.trailer = trailerStr b.trailer ∧
      (a.hdr.Pathv2 ≠ 2 → a.EIDNumber = b.EIDNumber ∧ a.GIDNumber = b.GIDNumber ∧ a.rsv3 = b.rsv3 ∧ a.Release = b.Release ∧
        a.rsv4 = b.rsv4 ∧ a.SEIDInd = b.SEIDInd ∧ a.rsv5 = b.rsv5 ∧ a.SMCDv2Off = b.SMCDv2Off ∧ a.rsv6 = b.rsv6 ∧
        (a.EIDArea.take a.EIDNumber.toNat).map eidStr = (b.EIDArea.take b.EIDNumber.toNat).map eidStr) ∧
      (a.hdr.Pathv2 = 1 ∨ a.hdr.Pathv2 = 3 → eidStr a.SEID = eidStr b.SEID ∧ a.rsv7 = b.rsv7 ∧
        a.GIDArea.take a.GIDNumber.toNat = b.GIDArea.take b.GIDNumber.toNat) := by
  by_cases hx : a.hdr.Pathv2 = 2
  · have hy : b.hdr.Pathv2 = 2 := hp ▸ hx
    rw [extRText_none hx, extRText_none hy, List.append_cancel_left_eq] at h
    refine ⟨h, fun c => absurd hx c, fun c => ?_⟩
    rw [hx] at c
    rcases c with c | c <;> cases c
  · have hy : ¬ b.hdr.Pathv2 = 2 := hp ▸ hx
    rw [extRText_some hx, extRText_some hy] at h
    clc_fields [hexBytes_sep] at h
    obtain ⟨k1, k2, r1, k3, r2, k4, r3, k5, r4, h⟩ := h
    rw [k1] at h
    obtain ⟨k6, h⟩ := eids_cut _ (by rw [la, lb]) ca.1 cb.1 h
    obtain ⟨k7, k8⟩ := smcdR_cut hp k2 ga gb ca.2 cb.2 h
    exact ⟨k7, fun _ => ⟨k1, k2, r1, k3, r2, k4, r3, k5, r4, by rw [k1]; exact k6⟩, k8⟩

/-- how the text from the v2 extension on begins -/
theorem extRText_shape {a b : ProposalV2} (hp : a.hdr.Pathv2 = b.hdr.Pathv2) :
    ∃ c l s t, c ≠ 73 ∧ extRText a = (44 :: 32 :: c :: l) ++ s ∧ extRText b = (44 :: 32 :: c :: l) ++ t := by
  by_cases hx : a.hdr.Pathv2 = 2
  · have hy : b.hdr.Pathv2 = 2 := hp ▸ hx
    exact ⟨84, _, _, _, by decide, extRText_none hx, extRText_none hy⟩
  · have hy : ¬ b.hdr.Pathv2 = 2 := hp ▸ hx
    exact ⟨69, _, _, _, by decide, extRText_some hx, extRText_some hy⟩

theorem ipRText {p : ProposalV2} (h : ¬ p.hdr.Path = 2) (r : Bytes) : withComma p.ipInfoReserved ++ r =
    go! ", IPv4 Prefix: " ++ (ipStr p.Prefix ++ (go! "/" ++ (dec p.PrefixLen.toNat ++ (go! ", Reserved: " ++ (hexBytes p.rsv2 ++
      (go! ", IPv6 Prefix Count: " ++ (dec p.IPv6PrefixesCnt.toNat ++ (prefixesStr p.IPv6Prefixes ++ r)))))))) := by
  have h1 : p.ipInfoReserved = _ := if_neg h
  unfmt [List.append_nil, ProposalV2.ipV4String, ProposalV2.ipV6String] at h1
  rw [withComma_cons h1]
  simp only [List.append_assoc]
  rfl

theorem ipR_cut {a b : ProposalV2} (hp : a.hdr.Path = b.hdr.Path) (hp2 : a.hdr.Pathv2 = b.hdr.Pathv2)
    (ha : a.hdr.Path ≠ 2 → a.Prefix.length = 4) (hb : b.hdr.Path ≠ 2 → b.Prefix.length = 4)
    (pa : PlainPrefixes a.IPv6Prefixes) (pb : PlainPrefixes b.IPv6Prefixes) {n m : Bytes}
    (h : hexBytes n ++ (withComma a.ipInfoReserved ++ extRText a) = hexBytes m ++ (withComma b.ipInfoReserved ++ extRText b)) :
    n = m ∧ extRText a = extRText b ∧ (a.hdr.Path ≠ 2 → a.Prefix = b.Prefix ∧ a.PrefixLen = b.PrefixLen ∧ a.rsv2 = b.rsv2 ∧
      a.IPv6PrefixesCnt = b.IPv6PrefixesCnt ∧ a.IPv6Prefixes = b.IPv6Prefixes) := by
  obtain ⟨c, l, s, t, hc, e1, e2⟩ := extRText_shape hp2
  by_cases hx : a.hdr.Path = 2
  · have hy : b.hdr.Path = 2 := hp ▸ hx
    have f1 : a.ipInfoReserved = [] := if_pos hx
    have f2 : b.ipInfoReserved = [] := if_pos hy
    rw [f1, f2] at h
    simp only [withComma, ne_eq, not_true_eq_false, if_false, List.nil_append] at h
    rw [e1, e2] at h
    obtain ⟨h1, rfl⟩ := (hexBytes_sep (by decide)).1 h
    exact ⟨h1, by rw [e1, e2], fun c => absurd hx c⟩
  · have hy : ¬ b.hdr.Path = 2 := hp ▸ hx
    rw [ipRText hx, ipRText hy] at h
    have l1 := ha hx
    have l2 := hb hy
    clc_fields [ip4_sep, hexBytes_sep] at h
    obtain ⟨k1, k2, k3, r1, h⟩ := h
    rw [e1, e2] at h
    obtain ⟨k4, k5, rfl⟩ := count_cut pa pb hc h
    exact ⟨k1, by rw [e1, e2], fun _ => ⟨k2, k3, r1, UInt8.toNat_inj.1 k4, k5⟩⟩

set_option maxRecDepth 8000 in
theorem proposalV2_every (a b : ProposalV2) (ha : Plain (.proposalV2 a)) (hb : Plain (.proposalV2 b))
    (ca : CleanEIDs eidStr (.proposalV2 a)) (cb : CleanEIDs eidStr (.proposalV2 b)) (h : a.reserved = b.reserved) :
    eidTexts eidStr (every (.proposalV2 a)) = eidTexts eidStr (every (.proposalV2 b)) := by
  unfmt [ProposalV2.reserved, List.append_nil] at h
  obtain ⟨h1, h2, h3, h4, h5, h6, h7, h8, h9, h10⟩ := ha
  obtain ⟨g1, g2, g3, g4, g5, g6, g7, g8, g9, g10⟩ := hb
  obtain ⟨c1, c2⟩ := ca
  obtain ⟨d1, d2⟩ := cb
  obtain ⟨e, h⟩ := header_cut_reserved h1 g1 h
  have hp := hdrEvery_path e
  have hp2 := hdrEvery_pathv2 e h9 h10 g9 g10
  have i1 : a.IBGID.length ≠ 4 := by omega
  have i2 : b.IBGID.length ≠ 4 := by omega
  clc_fields [] at h
  obtain ⟨k1, k2, k3, k4, k5, k6, k7, h⟩ := h
  obtain ⟨r1, h, k8⟩ := ipR_cut hp hp2 h4 g4 h5 g5 h
  obtain ⟨k9, k10, k11⟩ := extR_cut hp2 h6 g6 h7 g7 ⟨c1, c2⟩ ⟨d1, d2⟩ h
  have ht := trailerStr_inj h8 g8 k9
  clear h h9 h10 g9 g10 c1 c2 d1 d2 h1 g1
  have q1 : b.hdr.Path = 2 ↔ a.hdr.Path = 2 := by rw [hp]
  have q2 : b.hdr.Pathv2 = 2 ↔ a.hdr.Pathv2 = 2 := by rw [hp2]
  have q3 : b.hdr.Pathv2 = 1 ∨ b.hdr.Pathv2 = 3 ↔ a.hdr.Pathv2 = 1 ∨ a.hdr.Pathv2 = 3 := by rw [hp2]
  simp only [every, eidTexts, Message.proposalV2.injEq, ProposalV2.mk.injEq, true_and, q1, q2, q3]
  refine ⟨e, k1, k2, k3, k4, k5, k6, k7, r1, ?_, ?_, ?_, ?_, ?_, ?_, ?_, ?_, ?_, ?_, ?_, ?_, ?_, ?_, ?_, ?_, ?_, ?_, ht⟩
  all_goals split
  all_goals first | rfl | skip
  case refine_1 c => exact (k8 c).1
  case refine_2 c => exact (k8 c).2.1
  case refine_3 c => exact (k8 c).2.2.1
  case refine_4 c => exact (k8 c).2.2.2.1
  case refine_5 c => exact (k8 c).2.2.2.2
  case refine_6 c => exact (k10 c).1
  case refine_7 c => exact (k10 c).2.1
  case refine_8 c => exact (k10 c).2.2.1
  case refine_9 c => exact (k10 c).2.2.2.1
  case refine_10 c => exact (k10 c).2.2.2.2.1
  case refine_11 c => exact (k10 c).2.2.2.2.2.1
  case refine_12 c => exact (k10 c).2.2.2.2.2.2.1
  case refine_13 c => exact (k10 c).2.2.2.2.2.2.2.1
  case refine_14 c => exact (k10 c).2.2.2.2.2.2.2.2.1
  case refine_15 c => exact (k10 c).2.2.2.2.2.2.2.2.2
  case refine_16 c => exact (k11 c).1
  case refine_17 c => exact (k11 c).2.1
  case refine_18 c => exact (k11 c).2.2

/-! ## C90 -/

/-- C90: messages of one kind with equal texts agree on every field that is there, reserved or
not; of EIDs and host names (`f` is the text of an EID), on their texts if these contain neither
commas nor closing brackets. Missing: all other EID texts, for which it is false, see
`C90_eid_false`. -/
theorem C90_reserved_partial (f : Bytes → Bytes) (hf : ∀ e, EIDText e (f e)) (m m' : Message)
    (hk : clcKind m = clcKind m') (hp : Plain m) (hp' : Plain m') (hc : CleanEIDs f m) (hc' : CleanEIDs f m')
    (h : m.reserved = m'.reserved) : eidTexts f (every m) = eidTexts f (every m') := by
  have : f = eidStr := funext fun e => C51_eid_text_unique e _ (hf e)
  subst this
  cases m <;> cases m' <;> simp only [clcKind, reduceCtorEq] at hk <;> simp only [Message.reserved] at h
  case proposal.proposal a b => rw [proposal_every a b hp hp' h]
  case proposalV2.proposalV2 a b => exact proposalV2_every a b hp hp' hc hc' h
  case acceptSMCR.acceptSMCR a b => rw [smcr_every a b hp hp' h]
  case acceptSMCD.acceptSMCD a b => rw [smcd_every a b hp hp' h]
  case acceptSMCDv2.acceptSMCDv2 a b => exact smcdv2_every a b hp hp' hc hc' h
  case decline.decline a b => rw [decline_every a b hp hp' h]
  case declineV2.declineV2 a b => rw [declineV2_every a b hp hp' h]
  case confirmSMCR.confirmSMCR a b =>
    have := smcr_every a b hp hp' h
    simp only [every, Message.acceptSMCR.injEq] at this
    simp only [every, this]
  case confirmSMCD.confirmSMCD a b =>
    have := smcd_every a b hp hp' h
    simp only [every, Message.acceptSMCD.injEq] at this
    simp only [every, this]
  case confirmSMCDv2.confirmSMCDv2 a b =>
    have := smcdv2_every a b hp hp' hc hc' h
    simp only [every, eidTexts, Message.acceptSMCDv2.injEq] at this
    simp only [every, eidTexts, this]

theorem hdrEvery_inj {h h' : Header} {n n' : Nat} (hf : FitsHeader h n) (hf' : FitsHeader h' n')
    (e : hdrEvery h = hdrEvery h') : h = h' := by
  have e1 : h.Typ = h'.Typ := by
    have := congrArg Header.Typ e
    unfold hdrEvery at this
    split at this <;> split at this <;> exact this
  have e2 : h.Version = h'.Version := by
    have := congrArg Header.Version e
    unfold hdrEvery at this
    split at this <;> split at this <;> exact this
  obtain ⟨-, -, -, a1, a2, a3, -⟩ := hf
  obtain ⟨-, -, -, b1, b2, b3, -⟩ := hf'
  unfold hdrEvery at e
  rw [← e1, ← e2] at e
  cases h; cases h'
  simp only at *
  subst e1 e2
  split at e <;> simp only [Header.mk.injEq, true_and] at e ⊢
  · obtain ⟨q1, q3, q7, q8⟩ := e
    have := congrArg UInt8.toNat q7
    exact ⟨q1, q3, UInt8.toNat_inj.1 (by omega), UInt8.toNat_inj.1 (by omega), q7, q8⟩
  · obtain ⟨q1, q3, q4, q5, q8⟩ := e
    have := congrArg UInt8.toNat q4
    have := congrArg UInt8.toNat q5
    exact ⟨q1, q3, q4, q5, UInt8.toNat_inj.1 (by omega), q8⟩

/-- EIDs and host names without NUL bytes have different texts. -/
theorem eidStr_inj {a b : Bytes} (ha : 0 ∉ a) (hb : 0 ∉ b) (hl : a.length = b.length) (h : eidStr a = eidStr b) : a = b := by
  have key : ∀ e : Bytes, 0 ∉ e → ∃ n, e = eidStr e ++ List.replicate n 32 := by
    intro e he
    obtain ⟨n, rest, h1, h2⟩ := (C51_eid_text e).split
    rcases h2 with rfl | ⟨r, rfl⟩
    · exact ⟨n, by rw [List.append_nil] at h1; exact h1⟩
    · exact absurd (by rw [h1]; simp) he
  obtain ⟨n, hn⟩ := key a ha
  obtain ⟨k, hk⟩ := key b hb
  have l1 := congrArg List.length hn
  have l2 := congrArg List.length hk
  rw [List.length_append, List.length_replicate] at l1 l2
  rw [h] at l1
  have : n = k := by omega
  rw [hn, hk, h, this]

theorem eidStr_list_inj {as bs : List Bytes} (ha : ∀ e ∈ as, 0 ∉ e ∧ e.length = 32) (hb : ∀ e ∈ bs, 0 ∉ e ∧ e.length = 32)
    (h : as.map eidStr = bs.map eidStr) : as = bs := by
  induction as generalizing bs with
  | nil => cases bs with
    | nil => rfl
    | cons b bs => cases h
  | cons a as ih => cases bs with
    | nil => cases h
    | cons b bs =>
      simp only [List.map_cons, List.cons.injEq] at h
      obtain ⟨a1, a2⟩ := ha a (by simp)
      obtain ⟨b1, b2⟩ := hb b (by simp)
      rw [eidStr_inj a1 b1 (a2.trans b2.symm) h.1,
        ih (fun e he => ha e (by simp [he])) (fun e he => hb e (by simp [he])) h.2]

theorem smcdv2_bits_eq {a b : AcceptSMCDv2} (ha : FitsCLC (.acceptSMCDv2 a)) (hb : FitsCLC (.acceptSMCDv2 b))
    (fa : FullEIDs (.acceptSMCDv2 a)) (fb : FullEIDs (.acceptSMCDv2 b))
    (h : eidTexts eidStr (every (.acceptSMCDv2 a)) = eidTexts eidStr (every (.acceptSMCDv2 b))) :
    bitsSMCDv2 a = bitsSMCDv2 b := by
  have fit : ∀ {a : AcceptSMCDv2}, FitsCLC (.acceptSMCDv2 a) → ∃ n, FitsHeader a.hdr n := by
    rintro a ⟨h | h, -⟩ <;> exact ⟨_, h.1⟩
  obtain ⟨n, f1⟩ := fit ha
  obtain ⟨n', f2⟩ := fit hb
  obtain ⟨a1, s1⟩ : a.EID.length = 32 ∧ a.Hostname.length = 32 := by have := ha.2.1; simp only [SizedSMCDv2] at this; omega
  obtain ⟨b1, s2⟩ : b.EID.length = 32 ∧ b.Hostname.length = 32 := by have := hb.2.1; simp only [SizedSMCDv2] at this; omega
  have e : hdrEvery a.hdr = hdrEvery b.hdr := by
    simp only [every, everySMCDv2] at h
    split at h <;> split at h <;> simp only [eidTexts, Message.acceptSMCDv2.injEq, AcceptSMCDv2.mk.injEq] at h <;> exact h.2.1
  have e := hdrEvery_inj f1 f2 e
  have hl : a.hdr.Length = b.hdr.Length := by rw [e]
  by_cases hx : a.hdr.Length.toNat < 114
  · have hy : b.hdr.Length.toNat < 114 := hl ▸ hx
    have n1 : ¬ a.hdr.Length.toNat = 114 := by omega
    have n2 : ¬ b.hdr.Length.toNat = 114 := by omega
    simp only [every, everySMCDv2, if_pos hx, if_pos hy, eidTexts, Message.acceptSMCDv2.injEq, AcceptSMCDv2.mk.injEq] at h
    simp only [bitsSMCDv2, if_neg n1, if_neg n2]
    have := eidStr_inj fa.1 fb.1 (a1.trans b1.symm) (by simp only [h])
    simp only [h, e, this]
  · have hy : ¬ b.hdr.Length.toNat < 114 := hl ▸ hx
    simp only [every, everySMCDv2, if_neg hx, if_neg hy, eidTexts, Message.acceptSMCDv2.injEq, AcceptSMCDv2.mk.injEq] at h
    have := eidStr_inj fa.1 fb.1 (a1.trans b1.symm) (by simp only [h])
    have h2 := eidStr_inj (fa.2 hx) (fb.2 hy) (s1.trans s2.symm) (by simp only [h])
    simp only [bitsSMCDv2, bitsFCE, h, e, this, h2]

theorem proposalV2_bits_eq {a b : ProposalV2} (ha : FitsCLC (.proposalV2 a)) (hb : FitsCLC (.proposalV2 b))
    (fa : FullEIDs (.proposalV2 a)) (fb : FullEIDs (.proposalV2 b))
    (h : eidTexts eidStr (every (.proposalV2 a)) = eidTexts eidStr (every (.proposalV2 b))) :
    bitsProposalV2 a = bitsProposalV2 b := by
  simp only [every, eidTexts, Message.proposalV2.injEq, ProposalV2.mk.injEq, true_and] at h
  have e := hdrEvery_inj ha.1 hb.1 h.1
  obtain ⟨a1, a2⟩ : (∀ x ∈ a.EIDArea, x.length = 32) ∧ a.SEID.length = 32 := by
    obtain ⟨-, -, -, -, -, -, -, h1, h2, -⟩ := ha.2.1; exact ⟨h1, h2⟩
  obtain ⟨b1, b2⟩ : (∀ x ∈ b.EIDArea, x.length = 32) ∧ b.SEID.length = 32 := by
    obtain ⟨-, -, -, -, -, -, -, h1, h2, -⟩ := hb.2.1; exact ⟨h1, h2⟩
  obtain ⟨f1, f2⟩ := fa
  obtain ⟨g1, g2⟩ := fb
  clear ha hb
  rw [e] at f1 f2
  simp only [e] at h
  obtain ⟨-, k1, k2, k3, k4, k5, k6, k7, k8, h1, h2, h3, h4, h5, i1, i2, i3, i4, i5, i6, i7, i8, i9, i10, j1, j2, j3, kt⟩ := h
  have p1 : (if a.hdr.Path = 2 then [] else bitsV2IP a) = (if b.hdr.Path = 2 then [] else bitsV2IP b) := by
    rw [e]
    split <;> rename_i c
    · rfl
    · simp only [if_neg c] at h1 h2 h3 h4 h5
      simp only [bitsV2IP, h1, h2, h3, h4, h5]
  have p2 : (if a.hdr.Pathv2 = 2 then [] else bitsV2Ext a) = (if b.hdr.Pathv2 = 2 then [] else bitsV2Ext b) := by
    rw [e]
    split <;> rename_i c
    · rfl
    · simp only [if_neg c] at i1 i2 i3 i4 i5 i6 i7 i8 i9 i10
      have := eidStr_list_inj (fun x hx => ⟨f1 c x hx, a1 x (List.mem_of_mem_take hx)⟩)
        (fun x hx => ⟨g1 c x hx, b1 x (List.mem_of_mem_take hx)⟩) i10
      rw [i1] at this
      simp only [bitsV2Ext, i1, i2, i3, i4, i5, i6, i7, i8, i9, this]
  have p3 : (if a.hdr.Pathv2 = 1 ∨ a.hdr.Pathv2 = 3 then bitsV2SMCD a else []) =
      (if b.hdr.Pathv2 = 1 ∨ b.hdr.Pathv2 = 3 then bitsV2SMCD b else []) := by
    rw [e]
    split <;> rename_i c
    · simp only [if_pos c] at j1 j2 j3
      have := eidStr_inj (f2 c) (g2 c) (a2.trans b2.symm) j1
      simp only [bitsV2SMCD, this, j2, j3]
    · rfl
  unfold bitsProposalV2
  rw [p1, p2, p3, e, k1, k2, k3, k4, k5, k6, k7, k8, kt]

/-- Equal fields give equal bytes. -/
theorem bits_every {m m' : Message} (hk : clcKind m = clcKind m') (hf : FitsCLC m) (hf' : FitsCLC m')
    (he : FullEIDs m) (he' : FullEIDs m') (h : eidTexts eidStr (every m) = eidTexts eidStr (every m')) :
    bitsCLC m = bitsCLC m' := by
  cases m <;> cases m' <;> simp only [clcKind, reduceCtorEq] at hk
  case acceptSMCDv2.acceptSMCDv2 a b => exact smcdv2_bits_eq hf hf' he he' h
  case confirmSMCDv2.confirmSMCDv2 a b =>
    refine smcdv2_bits_eq hf hf' he he' ?_
    simp only [every, eidTexts, Message.confirmSMCDv2.injEq] at h
    simp only [every, eidTexts, h]
  case proposalV2.proposalV2 a b => exact proposalV2_bits_eq hf hf' he he' h
  case proposal.proposal a b =>
    simp only [every, eidTexts, Message.proposal.injEq, Proposal.mk.injEq, true_and] at h
    have e := hdrEvery_inj hf.1 hf'.1 h.1
    have ho : a.IPAreaOffset = b.IPAreaOffset := by simp only [h]
    have q : a.IPAreaOffset = 40 ↔ a.IPAreaOffset.toNat = 40 := ⟨fun c => by rw [c]; rfl, fun c => UInt16.toNat_inj.1 c⟩
    by_cases hx : a.IPAreaOffset = 40
    · have hy : b.IPAreaOffset = 40 := ho ▸ hx
      have hx' := q.1 hx
      have hy' : b.IPAreaOffset.toNat = 40 := ho ▸ hx'
      simp only [if_pos hx', if_pos hy'] at h
      simp only [bitsCLC, bitsProposal, if_pos hx, if_pos hy]
      simp only [h, e]
    · have hy : ¬ b.IPAreaOffset = 40 := ho ▸ hx
      simp only [bitsCLC, bitsProposal, if_neg hx, if_neg hy]
      simp only [h, e]
  case decline.decline a b =>
    simp only [every, eidTexts, Message.decline.injEq, Decline.mk.injEq, true_and] at h
    have e := hdrEvery_inj hf.1 hf'.1 h.1
    simp only [bitsCLC, bitsDecline, h, e]
  case declineV2.declineV2 a b =>
    simp only [every, eidTexts, Message.declineV2.injEq, DeclineV2.mk.injEq, true_and] at h
    have e := hdrEvery_inj hf.1 hf'.1 h.1
    simp only [bitsCLC, bitsDeclineV2, h, e]
  case acceptSMCR.acceptSMCR a b =>
    simp only [every, eidTexts, Message.acceptSMCR.injEq, AcceptSMCR.mk.injEq, true_and] at h
    have e := hdrEvery_inj hf.1 hf'.1 h.1
    simp only [bitsCLC, bitsSMCR, h, e]
  case confirmSMCR.confirmSMCR a b =>
    simp only [every, eidTexts, Message.confirmSMCR.injEq, AcceptSMCR.mk.injEq, true_and] at h
    have e := hdrEvery_inj hf.1 hf'.1 h.1
    simp only [bitsCLC, bitsSMCR, h, e]
  case acceptSMCD.acceptSMCD a b =>
    simp only [every, eidTexts, Message.acceptSMCD.injEq, AcceptSMCD.mk.injEq, true_and] at h
    have e := hdrEvery_inj hf.1 hf'.1 h.1
    simp only [bitsCLC, bitsSMCD, h, e]
  case confirmSMCD.confirmSMCD a b =>
    simp only [every, eidTexts, Message.confirmSMCD.injEq, AcceptSMCD.mk.injEq, true_and] at h
    have e := hdrEvery_inj hf.1 hf'.1 h.1
    simp only [bitsCLC, bitsSMCD, h, e]

/-- a message that consists of the parts of its kind, a trailer and nothing else -/
structure Exact (k : CLCKind) (s : Slice) : Prop where
  kind : classify s.vis = some k
  complete : declared s.vis = s.len
  snug : Snug k s.vis
  trailer : IsEye (lastFour s.vis)

theorem Exact.plain {k : CLCKind} {s : Slice} (hs : Exact k s) {l : List Bytes} {m : Message}
    (h : (freshCLC k).parse s = .ret l m) : Plain m := by
  have ha := snug_accepted hs.snug
  have h8 : 8 ≤ s.len := by
    rw [← hs.complete]
    have := ha.1
    cases k <;> simp only [minLen] at this <;> omega
  exact C50_plain s k hs.kind h8 (by rw [hs.complete]; exact Nat.le_refl _) ha hs.trailer l m h

/-- C90 for the bytes: complete messages of one kind with equal texts are the same bytes, if their
EIDs and host names contain neither NUL bytes nor commas nor closing brackets. -/
theorem C90_bytes_partial (f : Bytes → Bytes) (hf : ∀ e, EIDText e (f e)) (k : CLCKind) (s s' : Slice) (hs : Exact k s)
    (hs' : Exact k s') (l l' : List Bytes) (m m' : Message) (h : (freshCLC k).parse s = .ret l m)
    (h' : (freshCLC k).parse s' = .ret l' m') (hc : CleanEIDs f m) (hc' : CleanEIDs f m') (he : FullEIDs m)
    (he' : FullEIDs m') (ht : m.reserved = m'.reserved) : s.vis = s'.vis := by
  obtain ⟨f1, k1⟩ := C81_fits k s hs.complete hs.snug l m h
  obtain ⟨f2, k2⟩ := C81_fits k s' hs'.complete hs'.snug l' m' h'
  have e := C90_reserved_partial f hf m m' (k1.trans k2.symm) (hs.plain h) (hs'.plain h') hc hc' ht
  have : f = eidStr := funext fun e => C51_eid_text_unique e _ (hf e)
  subst this
  rw [← (C81_lossless k s hs.complete hs.snug l m h).2, ← (C81_lossless k s' hs'.complete hs'.snug l' m' h').2,
    bits_every (k1.trans k2.symm) f1 f2 he he' e]

/-- C90 for the bytes of messages without EIDs: the text determines the message. -/
theorem C90_bytes_noEIDs (k : CLCKind) (hn : NoEIDs k) (s s' : Slice) (hs : Exact k s)
    (hs' : Exact k s') (l l' : List Bytes) (m m' : Message) (h : (freshCLC k).parse s = .ret l m)
    (h' : (freshCLC k).parse s' = .ret l' m') (ht : m.reserved = m'.reserved) : s.vis = s'.vis := by
  have key : ∀ {s l m}, Exact k s → (freshCLC k).parse s = .ret l m → CleanEIDs eidStr m ∧ FullEIDs m := by
    intro s l m hs h
    have := (C81_fits k s hs.complete hs.snug l m h).2
    subst this
    cases m <;> first
      | exact ⟨trivial, trivial⟩
      | exact absurd rfl hn.1
      | exact absurd rfl hn.2.1
      | exact absurd rfl hn.2.2
  exact C90_bytes_partial eidStr C51_eid_text k s s' hs hs' l l' m m' h h' (key hs h).1 (key hs' h').1 (key hs h).2
    (key hs' h').2 ht

example : Exact .decline ⟨declineBytes, []⟩ ∧ NoEIDs .decline ∧
    ((freshCLC .decline).parse ⟨declineBytes, []⟩).val?.isSome = true :=
  ⟨⟨by decide +kernel, by decide +kernel, (by decide +kernel : declared declineBytes = 28), by decide +kernel⟩, by decide,
    by decide +kernel⟩

/-- an SMC-Dv2 Accept with an EID padded with blanks -/
def blankEID : Bytes :=
  hex! "e2d4c3c402004e21" ++ zeros 26 ++ go! "EID                             " ++ zeros 8 ++ hex! "e2d4c3c4"

example : Exact .acceptSMCDv2 ⟨blankEID, []⟩ ∧
    (AcceptSMCDv2.parse {} ⟨blankEID, []⟩).val?.map (fun m => (eidStr m.EID, decide (0 ∈ m.EID))) = some (go! "EID", false) :=
  ⟨⟨by decide +kernel, by decide +kernel, (by decide +kernel : declared blankEID = 78 ∨ declared blankEID = 114),
    by decide +kernel⟩, by decide +kernel⟩

/-- C90 is false: two complete Proposals that differ in their EIDs have the same text. -/
theorem C90_eid_false :
    let v := twoEIDs (go! "a") (go! "b, EID 1: c")
    let w := twoEIDs (go! "a, EID 1: b") (go! "c")
    Exact .proposalV2 ⟨v, []⟩ ∧ Exact .proposalV2 ⟨w, []⟩ ∧ v ≠ w ∧
    ((ProposalV2.parse {} ⟨v, []⟩).val?.map (·.reserved)).isSome ∧
    (ProposalV2.parse {} ⟨v, []⟩).val?.map (·.reserved) = (ProposalV2.parse {} ⟨w, []⟩).val?.map (·.reserved) := by
  refine ⟨⟨by decide +kernel, by decide +kernel, ?_, by decide +kernel⟩,
    ⟨by decide +kernel, by decide +kernel, ?_, by decide +kernel⟩, by decide +kernel, by decide +kernel, by decide +kernel⟩
  · exact (by decide +kernel : declared (twoEIDs (go! "a") (go! "b, EID 1: c")) = smcdEnd (twoEIDs (go! "a") (go! "b, EID 1: c")) + 4)
  · exact (by decide +kernel : declared (twoEIDs (go! "a, EID 1: b") (go! "c")) = smcdEnd (twoEIDs (go! "a, EID 1: b") (go! "c")) + 4)

/-- C90 is false: what follows the first NUL byte of an EID is not shown. -/
theorem C90_padding_false :
    let v := twoEIDs (go! "a") (go! "b")
    let w := twoEIDs (go! "a ") (go! "b" ++ hex! "00 63")
    v ≠ w ∧ ((ProposalV2.parse {} ⟨v, []⟩).val?.map (·.reserved)).isSome ∧
    (ProposalV2.parse {} ⟨v, []⟩).val?.map (·.reserved) = (ProposalV2.parse {} ⟨w, []⟩).val?.map (·.reserved) := by
  decide +kernel

end SMC.Props
