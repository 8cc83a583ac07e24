import Verif.Spec.CLCShown
import Verif.Props.CLCShow
/-!
# C89: what the texts of CLC messages are, whatever their bytes are
-/

namespace SMC.Props

open SMC Spec CLC

set_option maxRecDepth 20000

/-! ## Header -/

theorem typeName_eq : ∀ t : UInt8, typeName t.toNat = msgTypeStr t := by byte_decide

theorem flag_any {v : Bytes} {h : Header} (w : WireHeader v h) :
    h.flagString = if num v 4 0 8 = 1 ∧ num v 7 0 4 = 2 then go! "Pathv2: " ++ pathName (pathv2Of v)
      else flagName (num v 4 0 8) (num v 7 0 4) (pathOf v) ++ (go! ": " ++ dec (num v 7 4 1)) := by
  have h1 : ∀ c : UInt8, h.Typ = c ↔ num v 4 0 8 = c.toNat := fun c => by rw [← w.typ, UInt8.toNat_inj]
  have h2 : h.Version = SMCv2 ↔ num v 7 0 4 = 2 := by rw [← w.version, ← UInt8.toNat_inj]; rfl
  have h3 : h.Path = SMCTypeD ↔ pathOf v = 1 := by rw [pathOf, ← w.path, ← UInt8.toNat_inj]; rfl
  unfold Header.flagString flagName
  unfmt [h1, h2, h3, w.flag, List.append_nil, pathv2Of, ← w.pathv2, pathName_eq]
  simp only [show TypeProposal.toNat = 1 from rfl, show TypeAccept.toNat = 2 from rfl, show TypeConfirm.toNat = 3 from rfl,
    show TypeDecline.toNat = 4 from rfl]
  by_cases c1 : num v 4 0 8 = 1
  · by_cases c2 : num v 7 0 4 = 2 <;> simp [c1, c2] <;> rfl
  by_cases c2 : num v 4 0 8 = 2
  · simp [c2]
  by_cases c3 : num v 4 0 8 = 3
  · by_cases c4 : num v 7 0 4 = 2 ∧ pathOf v = 1 <;> simp [c3, c4] <;> rfl
  by_cases c4 : num v 4 0 8 = 4
  · simp [c4]
  simp [c1, c2, c3, c4]

theorem header_any {v : Bytes} {h : Header} (w : WireHeader v h) :
    h.string = shownLine v (visibleItems (shownHeader v)) ∧ h.reserved = shownLine v (shownHeader v) := by
  have h1 : h.Typ = TypeProposal ↔ num v 4 0 8 = 1 := by rw [← w.typ, ← UInt8.toNat_inj]; rfl
  have h2 : h.Version = SMCv2 ↔ num v 7 0 4 = 2 := by rw [← w.version, ← UInt8.toNat_inj]; rfl
  have h3 : msgTypeStr h.Typ = typeName (num v 4 0 8) := by rw [← w.typ, typeName_eq]
  unfold Header.string Header.reserved
  simp only [h1, h2]
  by_cases c : num v 4 0 8 = 1 ∧ num v 7 0 4 = 2
  · clc_text [shownLine, shownHeader, h3, c, and_self, pathOf, ← w.path, pathName_eq]
    unfmt [h3, flag_any w, w.eyecatcher, w.typ, w.length, w.version, c, and_self, List.append_nil, if_true]
    rfl
  · rw [if_neg c]
    clc_text [shownLine, shownHeader, h3, c, and_self, pathOf, ← w.path, pathName_eq]
    unfmt [flag_any w, w.eyecatcher, w.typ, w.length, w.version, w.rsv, c, List.append_nil, if_false, pathOf]
    rw [w.path]
    exact ⟨rfl, rfl⟩

/-- the texts consist of the header, some items and the trailer -/
structure Shows (h : Header) (t : Bytes) (is : List Item) (str res : Bytes) : Prop where
  str : str = h.string ++ (tails (visibleItems is) ++ (go! ", Trailer: " ++ eyecatcherStr t))
  res : res = h.reserved ++ (tails is ++ (go! ", Trailer: " ++ eyecatcherStr t))

theorem shows_parts {v : Bytes} {h : Header} (w : WireHeader v h) {t : Bytes} {is : List Item} {str res : Bytes}
    (hs : Shows h t is str res) :
    str = shownLine v (visibleItems (shownHeader v ++ is ++ [field (go! "Trailer") (eyeName t)])) ∧
    res = shownLine v (shownHeader v ++ is ++ [field (go! "Trailer") (eyeName t)]) := by
  rw [hs.str, hs.res, (header_any w).1, (header_any w).2]
  constructor <;>
  simp only [shownLine, visibleItems, shownHeader, List.filter_append, List.append_assoc, field,
    List.cons_append, List.filter_cons, Bool.not_false, if_true, row_tails, tails_append, tails_cons, List.filter_nil,
    tails_nil, eyeName_eq, Item.text, List.append_nil] <;> rfl

/-- the simp set for items -/
syntax "parts_text" "[" Lean.Parser.Tactic.simpLemma,* "]" : tactic
macro_rules
  | `(tactic| parts_text [$ls,*]) => `(tactic|
    (simp only [bodyItems, rdmaItems, dmbItems, visibleItems,
      field, rsvd, reduceCtorEq, ite_false, ite_true,
      List.cons_append, List.nil_append, List.filter_append, List.filter_cons, List.filter_nil, Bool.not_true, Bool.not_false, if_true,
      Bool.false_eq_true, if_false, row_tails, tails_append, tails_cons, tails_nil, Item.text,
      decimal_eq, hexadecimal_eq, octets_eq, hardware_eq, eyeName_eq, List.append_assoc, List.append_nil, $ls,*]))

/-! ## Messages of fixed size -/

theorem decline_shows {v : Bytes} {m : Decline} (hv : 28 ≤ v.length) (w : WireDecline v m) :
    Shows m.hdr m.trailer (bodyItems v .decline) m.string m.reserved := by
  constructor <;> parts_text [← w.diagnosis, diagnosis_eq, peerText_eq (raw v 8 8) (by simp [raw]; omega)]
  · unfold Decline.string trailerStr
    unfmt [w.peerID, List.append_nil]
    rfl
  · unfold Decline.reserved trailerStr
    unfmt [w.peerID, w.rsv, List.append_nil]
    rfl

theorem declineV2_rsv {v : Bytes} {m : DeclineV2} (w : WireDeclineV2 v m) :
    m.rsv = UInt8.ofNat (num v 20 4 4) :: raw v 21 3 := by
  obtain ⟨h1, h2, h3, h4⟩ := w.rsv
  match hm : m.rsv, h1 with
  | [a, b, c, d], _ =>
    rw [hm] at h2 h3 h4
    rw [← h4, ← h3]
    rw [num_byte _ _ _ _ (by simp) (by omega)] at h2 ⊢
    have : ∀ a : UInt8, ofBits (((byteBits a).drop 0).take 4) = 0 → a = UInt8.ofNat (ofBits (((byteBits a).drop 4).take 4)) := by
      byte_decide
    exact congrArg (· :: [b, c, d]) (this a h2)

theorem declineV2_shows {v : Bytes} {m : DeclineV2} (hv : 28 ≤ v.length) (w : WireDeclineV2 v m) :
    Shows m.hdr m.trailer (bodyItems v .declineV2) m.string m.reserved := by
  constructor <;> parts_text [← w.diagnosis, diagnosis_eq, peerText_eq (raw v 8 8) (by simp [raw]; omega), ← w.osType, osType_eq]
  · unfold DeclineV2.string trailerStr
    unfmt [w.peerID, List.append_nil]
    rfl
  · unfold DeclineV2.reserved trailerStr
    unfmt [w.peerID, declineV2_rsv w, List.append_nil]
    rfl

theorem smcr_shows {v : Bytes} {m : AcceptSMCR} (hv : 68 ≤ v.length) (w : WireSMCR v m) :
    Shows m.hdr m.trailer (bodyItems v .acceptSMCR) m.string m.reserved := by
  have hs := @num_lt v 50 0 4
  constructor <;>
  parts_text [peerText_eq (raw v 8 8) (by simp [raw]; omega), address_eq (raw v 16 16) (by simp [raw]; omega),
    ← w.rmbeSize, ← w.mtu, qpmtu_eq, sizeText_eq m.RMBESize (by rw [w.rmbeSize]; omega)]
  all_goals
    first | unfold AcceptSMCR.string trailerStr | unfold AcceptSMCR.reserved trailerStr
    unfmt [w.peerID, w.gid, w.mac, w.qpn, w.rkey, w.rmbeIdx, w.alert, w.rsv, w.vaddr, w.rsv2, w.psn, List.append_nil]
    rfl

theorem smcd_shows {v : Bytes} {m : AcceptSMCD} (w : WireSMCD v m) :
    Shows m.hdr m.trailer (bodyItems v .acceptSMCD) m.string m.reserved := by
  have hs := @num_lt v 25 0 4
  constructor <;> parts_text [← w.dmbeSize, sizeText_eq m.DMBESize (by rw [w.dmbeSize]; omega)]
  all_goals
    first | unfold AcceptSMCD.string trailerStr | unfold AcceptSMCD.reserved trailerStr
    unfmt [w.gid, w.token, w.dmbeIdx, w.rsv, w.rsv2, w.linkID, w.rsv3, List.append_nil]
    rfl

theorem smcdv2_shows {v : Bytes} {m : AcceptSMCDv2} (e : Bytes) (w : WireSMCDv2 v m)
    (hf : declared v = 114 → WireFCE v m)
    (hb : declared v ≠ 114 → m.rsv4 = 0 ∧ m.OSType = 0 ∧ m.Release = 0 ∧ m.rsv5 = zeros 2 ∧ m.Hostname = zeros 32) :
    Shows m.hdr m.trailer (shownBody v e .acceptSMCDv2) m.string m.reserved := by
  have hlen : m.hdr.Length.toNat = declared v := w.hdr.length
  have hs := @num_lt v 25 0 4
  rcases Nat.lt_trichotomy (declared v) 114 with hd | hd | hd
  · constructor <;> parts_text [shownBody, ← w.dmbeSize, sizeText_eq m.DMBESize (by rw [w.dmbeSize]; omega), plainText_eq, hd]
    all_goals
      first | unfold AcceptSMCDv2.string trailerStr AcceptSMCDv2.fceString AcceptSMCDv2FCELen
            | unfold AcceptSMCDv2.reserved trailerStr AcceptSMCDv2.fceReserved AcceptSMCDv2FCELen
      unfmt [w.gid, w.token, w.dmbeIdx, w.rsv, w.rsv2, w.linkID, w.vchid, w.eid, w.rsv3, hlen, hd, if_true, List.append_nil]
      rfl
  · have wf := hf hd
    constructor <;> parts_text [shownBody, ← w.dmbeSize, sizeText_eq m.DMBESize (by rw [w.dmbeSize]; omega), plainText_eq, hd,
      Nat.lt_irrefl, ← wf.osType, osType_eq]
    all_goals
      first | unfold AcceptSMCDv2.string trailerStr AcceptSMCDv2.fceString AcceptSMCDv2FCELen
            | unfold AcceptSMCDv2.reserved trailerStr AcceptSMCDv2.fceReserved AcceptSMCDv2FCELen
      unfmt [w.gid, w.token, w.dmbeIdx, w.rsv, w.rsv2, w.linkID, w.vchid, w.eid, w.rsv3, hlen, hd, Nat.lt_irrefl, if_false, wf.rsv4, wf.release, wf.rsv5, wf.hostname, List.append_nil]
      rfl
  · obtain ⟨b1, b2, b3, b4, b5⟩ := hb (by omega)
    have hd' : ¬ declared v < 114 := by omega
    constructor <;> parts_text [shownBody, blankFCE, ← w.dmbeSize, sizeText_eq m.DMBESize (by rw [w.dmbeSize]; omega), plainText_eq, hd, hd']
    all_goals
      first | unfold AcceptSMCDv2.string trailerStr AcceptSMCDv2.fceString AcceptSMCDv2FCELen
            | unfold AcceptSMCDv2.reserved trailerStr AcceptSMCDv2.fceReserved AcceptSMCDv2FCELen
      unfmt [w.gid, w.token, w.dmbeIdx, w.rsv, w.rsv2, w.linkID, w.vchid, w.eid, w.rsv3, hlen, hd', if_false, b1, b2, b3, b4, b5, List.append_nil]
      rfl

/-! ## Parts that were not decoded -/

theorem peerText_zeros : peerText (zeros 8) = peerIDStr (zeros 8) := by decide +kernel

theorem decline_blank (s : Slice) (h : Header) (v : Bytes) (m : Decline) (hm : m = { raw := s, hdr := h }) :
    Shows h m.trailer (blankBody v .decline) m.string m.reserved := by
  subst hm
  constructor <;> parts_text [blankBody, peerText_zeros]
  all_goals
    first | unfold Decline.string trailerStr | unfold Decline.reserved trailerStr
    unfmt [List.append_nil]
    rfl

theorem declineV2_blank (s : Slice) (h : Header) (v : Bytes) (m : DeclineV2) (hm : m = { raw := s, hdr := h }) :
    Shows h m.trailer (blankBody v .declineV2) m.string m.reserved := by
  subst hm
  constructor <;> parts_text [blankBody, peerText_zeros]
  all_goals
    first | unfold DeclineV2.string trailerStr | unfold DeclineV2.reserved trailerStr
    unfmt [List.append_nil]
    rfl

theorem smcr_blank (s : Slice) (h : Header) (v : Bytes) (m : AcceptSMCR) (hm : m = { raw := s, hdr := h }) :
    Shows h m.trailer (blankBody v .acceptSMCR) m.string m.reserved := by
  subst hm
  constructor <;> parts_text [blankBody, blankRdma, peerText_zeros]
  all_goals
    first | unfold AcceptSMCR.string trailerStr | unfold AcceptSMCR.reserved trailerStr
    unfmt [List.append_nil]
    rfl

theorem smcd_blank (s : Slice) (h : Header) (v : Bytes) (m : AcceptSMCD) (hm : m = { raw := s, hdr := h }) :
    Shows h m.trailer (blankBody v .acceptSMCD) m.string m.reserved := by
  subst hm
  constructor <;> parts_text [blankBody, blankDmb]
  all_goals
    first | unfold AcceptSMCD.string trailerStr | unfold AcceptSMCD.reserved trailerStr
    unfmt [List.append_nil]
    rfl

theorem smcdv2_blank (s : Slice) (h : Header) (v : Bytes) (m : AcceptSMCDv2) (hm : m = { raw := s, hdr := h })
    (hl : h.Length.toNat < 114) :
    Shows h m.trailer (blankBody v .acceptSMCDv2) m.string m.reserved := by
  subst hm
  constructor <;> parts_text [blankBody, blankDmb]
  all_goals
    first | unfold AcceptSMCDv2.string trailerStr AcceptSMCDv2.fceString AcceptSMCDv2FCELen
          | unfold AcceptSMCDv2.reserved trailerStr AcceptSMCDv2.fceReserved AcceptSMCDv2FCELen
    unfmt [hl, if_true, List.append_nil]
    rfl

theorem proposal_blank (s : Slice) (h : Header) (v : Bytes) (m : Proposal) (hm : m = { raw := s, hdr := h }) :
    Shows h m.trailer (blankBody v .proposal) m.string m.reserved := by
  subst hm
  constructor <;> parts_text [blankBody, blankRdma, blankIP, peerText_zeros]
  all_goals
    first | unfold Proposal.string trailerStr SMCDIPAreaOffset prefixesStr
          | unfold Proposal.reserved trailerStr SMCDIPAreaOffset prefixesStr
    unfmt [List.append_nil]
    rfl

/-! ## Proposals -/

theorem proposal_shows {v : Bytes} {m : Proposal} (e : Bytes) (hv : 52 ≤ v.length) (w : WireProposal v m)
    (ws : num v 38 0 16 = 40 → m.SMCDGID.toNat = num v 40 0 64 ∧ m.rsv = raw (v ++ e) 48 32)
    (hi : ipAreaAt v + 12 ≤ declared v → WireIPArea v (ipAreaAt v) m ∧ ipAreaAt v + 12 ≤ v.length ∧
      Prefixes v (ipAreaAt v + 8) (entries (declared v) (ipAreaAt v + 8) 17 (num v (ipAreaAt v + 7) 0 8)) [] m.IPv6Prefixes ∧
      ipAreaAt v + 8 + 17 * entries (declared v) (ipAreaAt v + 8) 17 (num v (ipAreaAt v + 7) 0 8) ≤ v.length)
    (ho : ¬ ipAreaAt v + 12 ≤ declared v → m.Prefix = [] ∧ m.PrefixLen = 0 ∧ m.rsv2 = zeros 2 ∧ m.IPv6PrefixesCnt = 0 ∧
      m.IPv6Prefixes = []) :
    Shows m.hdr m.trailer (shownBody v e .proposal) m.string m.reserved := by
  by_cases hin : ipAreaAt v + 12 ≤ declared v
  · obtain ⟨wi, hl, wp, hp⟩ := hi hin
    have hps := prefixes_show wp hp
    have h4 : prefixText (raw v (ipAreaAt v) 4) (num v (ipAreaAt v + 4) 0 8)
        = ipStr (raw v (ipAreaAt v) 4) ++ (go! "/" ++ dec (num v (ipAreaAt v + 4) 0 8)) :=
      prefixText_eq _ (by left; simp [raw]; omega) _
    by_cases h40 : num v 38 0 16 = 40
    · obtain ⟨ws1, ws2⟩ := ws h40
      constructor <;>
      parts_text [shownBody, hin, h40, shownIP, h4, peerText_eq (raw v 8 8) (by simp [raw]; omega), address_eq (raw v 16 16) (by simp [raw]; omega)]
      case str => rw [visible_range (fun _ => rfl)]; unfold Proposal.string trailerStr SMCDIPAreaOffset; unfmt [w.peerID, w.gid, w.mac, w.offset, h40, if_true, ws1, ws2, wi.pfx, wi.pfxLen, wi.rsv2, wi.count, hps, field, List.append_nil]; rfl
      case res => unfold Proposal.reserved trailerStr SMCDIPAreaOffset; unfmt [w.peerID, w.gid, w.mac, w.offset, h40, if_true, ws1, ws2, wi.pfx, wi.pfxLen, wi.rsv2, wi.count, hps, field, List.append_nil]; rfl
    · constructor <;>
      parts_text [shownBody, hin, h40, shownIP, h4, peerText_eq (raw v 8 8) (by simp [raw]; omega), address_eq (raw v 16 16) (by simp [raw]; omega)]
      case str => rw [visible_range (fun _ => rfl)]; unfold Proposal.string trailerStr SMCDIPAreaOffset; unfmt [w.peerID, w.gid, w.mac, w.offset, h40, if_false, wi.pfx, wi.pfxLen, wi.rsv2, wi.count, hps, field, List.append_nil]; rfl
      case res => unfold Proposal.reserved trailerStr SMCDIPAreaOffset; unfmt [w.peerID, w.gid, w.mac, w.offset, h40, if_false, wi.pfx, wi.pfxLen, wi.rsv2, wi.count, hps, field, List.append_nil]; rfl
  · obtain ⟨b1, b2, b3, b4, b5⟩ := ho hin
    by_cases h40 : num v 38 0 16 = 40
    · obtain ⟨ws1, ws2⟩ := ws h40
      constructor <;>
      parts_text [shownBody, hin, h40, blankIP, peerText_eq (raw v 8 8) (by simp [raw]; omega), address_eq (raw v 16 16) (by simp [raw]; omega)]
      all_goals
        first | unfold Proposal.string trailerStr SMCDIPAreaOffset | unfold Proposal.reserved trailerStr SMCDIPAreaOffset
        unfmt [w.peerID, w.gid, w.mac, w.offset, h40, if_true, ws1, ws2, b1, b2, b3, b4, b5, List.append_nil]
        rfl
    · constructor <;>
      parts_text [shownBody, hin, h40, blankIP, peerText_eq (raw v 8 8) (by simp [raw]; omega), address_eq (raw v 16 16) (by simp [raw]; omega)]
      all_goals
        first | unfold Proposal.string trailerStr SMCDIPAreaOffset | unfold Proposal.reserved trailerStr SMCDIPAreaOffset
        unfmt [w.peerID, w.gid, w.mac, w.offset, h40, if_false, b1, b2, b3, b4, b5, List.append_nil]
        rfl

/-! ## Proposals of version 2 -/

theorem eidsStr_cap (n i : Nat) (es : List Bytes) : eidsStr n i es = eidsStr (min (i + es.length) n) i es := by
  induction es generalizing i with
  | nil => rfl
  | cons e es ih =>
    unfold eidsStr
    by_cases h : i ≥ n
    · rw [if_pos h, if_pos (by omega)]
    · rw [if_neg h, ih (i + 1), List.length_cons, Nat.add_assoc, Nat.add_comm 1,
        if_neg (show ¬ i ≥ min (i + (es.length + 1)) n by omega)]

theorem gidsStr_cap (n i : Nat) (gs : List GIDEntry) : gidsStr n i gs = gidsStr (min (i + gs.length) n) i gs := by
  induction gs generalizing i with
  | nil => rfl
  | cons e es ih =>
    unfold gidsStr
    by_cases h : i ≥ n
    · rw [if_pos h, if_pos (by omega)]
    · rw [if_neg h, ih (i + 1), List.length_cons, Nat.add_assoc, Nat.add_comm 1,
        if_neg (show ¬ i ≥ min (i + (es.length + 1)) n by omega)]

/-- the two items of a GID -/
def gidPair (a b : Nat → Nat) (i : Nat) : List Item :=
  [field (go! "GID " ++ decimal i) (decimal (a i)), field (go! "VCHID " ++ decimal i) (decimal (b i))]

theorem gidsStr_from {a b : Nat → Nat} {n : Nat} (i : Nat) (gs : List GIDEntry) (hi : 0 < i)
    (h : ∀ j, i + j < n → ∃ g, gs[j]? = some g ∧ g.GID.toNat = a (i + j) ∧ g.VCHID.toNat = b (i + j)) :
    gidsStr n i gs = tails ((List.range' i (n - i)).flatMap (gidPair a b)) := by
  induction gs generalizing i with
  | nil =>
    have : n ≤ i := by
      apply Nat.le_of_not_lt; intro hlt
      obtain ⟨g, hg, -⟩ := h 0 (by omega)
      simp at hg
    rw [Nat.sub_eq_zero_of_le this]; rfl
  | cons g gs ih =>
    unfold gidsStr
    by_cases hn : i ≥ n
    · rw [if_pos hn, Nat.sub_eq_zero_of_le hn]; rfl
    · obtain ⟨g', hg, w1, w2⟩ := h 0 (by omega)
      obtain rfl : g = g' := by simpa using hg
      rw [Nat.add_zero] at w1 w2
      rw [if_neg hn, if_pos hi, ih (i + 1) (by omega) (fun j hj => by
        obtain ⟨g', hg, w⟩ := h (j + 1) (by omega)
        rw [show i + (j + 1) = i + 1 + j by omega] at w
        exact ⟨g', by simpa using hg, w⟩)]
      rw [show n - i = n - (i + 1) + 1 by omega, List.range'_succ, List.flatMap_cons, tails_append, gidPair, tails_cons, tails_cons, tails_nil]
      simp only [field, Item.text, decimal_eq]
      unfmt [w1, w2, List.append_nil]
      rfl

theorem gids_shown {a b : Nat → Nat} {n : Nat} (gs : List GIDEntry)
    (h : ∀ j, j < n → ∃ g, gs[j]? = some g ∧ g.GID.toNat = a j ∧ g.VCHID.toNat = b j) :
    gidsStr n 0 gs = row ((List.range n).flatMap (gidPair a b)) := by
  cases n with
  | zero => cases gs <;> rfl
  | succ n =>
    cases gs with
    | nil => obtain ⟨g, hg, -⟩ := h 0 (by omega); simp at hg
    | cons g gs =>
      obtain ⟨g', hg, w1, w2⟩ := h 0 (by omega)
      obtain rfl : g = g' := by simpa using hg
      unfold gidsStr
      rw [if_neg (by omega), if_neg (by omega), gidsStr_from (a := a) (b := b) 1 gs (by omega) (fun j hj => by
        obtain ⟨g', hg, w⟩ := h (j + 1) (by omega)
        rw [show j + 1 = 1 + j by omega] at w
        exact ⟨g', by simpa using hg, w⟩)]
      rw [List.range_eq_range', List.range'_succ, List.flatMap_cons, Nat.add_sub_cancel, gidPair, List.cons_append, row_tails,
        tails_append, tails_cons, tails_nil]
      simp only [field, Item.text, decimal_eq]
      unfmt [w1, w2, List.append_nil]
      rfl

/-- the items of an optional part, without and with the reserved ones -/
structure Part (is : List Item) (str res : Bytes) : Prop where
  str : withComma str = tails (visibleItems is)
  res : withComma res = tails is

theorem ip_part {v : Bytes} {m : ProposalV2} (hh : WireHeader v m.hdr)
    (w : HasIP v → RoomIP v → WireV2IP v 80 m ∧ Prefixes v 88 (pfxCount v) [] m.IPv6Prefixes ∧ 88 + 17 * pfxCount v ≤ v.length)
    (b : ¬ RoomIP v → m.Prefix = [] ∧ m.PrefixLen = 0 ∧ m.rsv2 = zeros 2 ∧ m.IPv6PrefixesCnt = 0 ∧ m.IPv6Prefixes = []) :
    Part (if HasIP v then (if RoomIP v then shownIP v 80 (pfxCount v) else blankIP) else []) m.ipInfoString m.ipInfoReserved := by
  have hn : m.hdr.Path = SMCTypeN ↔ ¬ HasIP v := by
    unfold HasIP; rw [Decidable.not_not, pathOf, ← hh.path, ← UInt8.toNat_inj]; rfl
  unfold ProposalV2.ipInfoString ProposalV2.ipInfoReserved
  by_cases h : HasIP v
  · rw [if_neg (mt hn.1 (fun c => c h)), if_neg (mt hn.1 (fun c => c h)), if_pos h]
    unfold ProposalV2.ipV4String ProposalV2.ipV6String
    by_cases hr : RoomIP v
    · obtain ⟨w, wp, hp⟩ := w h hr
      have hps := prefixes_show wp hp
      have h4 : prefixText (raw v 80 4) (num v (80 + 4) 0 8) = ipStr (raw v 80 4) ++ (go! "/" ++ dec (num v (80 + 4) 0 8)) :=
        prefixText_eq _ (by left; simp [raw]; omega) _
      rw [if_pos hr]
      constructor
      · parts_text [shownIP, h4, Nat.reduceAdd]
        rw [visible_range (fun _ => rfl)]
        unfmt [w.pfx, w.pfxLen, w.rsv2, w.count, hps, field, List.append_nil]
        rfl
      · parts_text [shownIP, h4, Nat.reduceAdd]
        unfmt [w.pfx, w.pfxLen, w.rsv2, w.count, hps, field, List.append_nil]
        rfl
    · obtain ⟨b1, b2, b3, b4, b5⟩ := b hr
      rw [if_neg hr]
      constructor <;> parts_text [blankIP] <;> unfmt [b1, b2, b3, b4, b5, List.append_nil] <;> rfl
  · rw [if_pos (hn.2 h), if_pos (hn.2 h), if_neg h]; exact ⟨rfl, rfl⟩

theorem ext_part {v : Bytes} {m : ProposalV2} (hh : WireHeader v m.hdr) (h8 : m.EIDArea.length = 8)
    (w : ExtDecoded v → WireV2Ext v (extAt v) m ∧
      ∀ i, i < 8 → m.EIDArea[i]? = some (if i < eidCount v then raw v (extAt v + 40 + 32 * i) 32 else zeros 32))
    (b : ¬ ExtDecoded v → SameExt m {}) :
    Part (if HasExt v then (if ExtDecoded v then shownExt v (extAt v) (eidCount v) else blankExt) else [])
      m.propV2ExtString m.propV2ExtReserved := by
  have hn : m.hdr.Pathv2 = SMCTypeN ↔ ¬ HasExt v := by
    unfold HasExt; rw [Decidable.not_not, pathv2Of, ← hh.pathv2, ← UInt8.toNat_inj]; rfl
  unfold ProposalV2.propV2ExtString ProposalV2.propV2ExtReserved
  by_cases h : HasExt v
  · rw [if_neg (mt hn.1 (fun c => c h)), if_neg (mt hn.1 (fun c => c h)), if_pos h]
    unfold ProposalV2.propV2ExtEIDString
    by_cases hr : ExtDecoded v
    · obtain ⟨w, we⟩ := w hr
      rw [if_pos hr, w.eidNumber, eidsStr_cap, h8, Nat.zero_add,
        eids_show (f := fun i => if i < eidCount v then raw v (extAt v + 40 + 32 * i) 32 else zeros 32) m.EIDArea
          (fun j hj => we j (by omega))]
      have hp : ∀ i, plainText (if i < eidCount v then raw v (extAt v + 40 + 32 * i) 32 else zeros 32)
          = if i < eidCount v then plainText (raw v (extAt v + 40 + 32 * i) 32) else [] := fun i => by
        split
        · rfl
        · decide +kernel
      simp only [hp, shownExt]
      generalize row _ = X
      constructor
      all_goals
        parts_text []
        unfmt [w.gidNumber, w.rsv3, w.release, w.rsv4, w.seidInd, w.rsv5, w.smcdOffset, w.rsv6, List.append_nil]
        rfl
    · obtain ⟨b1, b2, b3, b4, b5, b6, b7, b8, b9, b10⟩ := b hr
      rw [if_neg hr]
      constructor <;> parts_text [blankExt] <;> unfmt [b1, b2, b3, b4, b5, b6, b7, b8, b9, b10, List.append_nil] <;> rfl
  · rw [if_pos (hn.2 h), if_pos (hn.2 h), if_neg h]; exact ⟨rfl, rfl⟩

theorem smcd_part {v : Bytes} {m : ProposalV2} (hh : WireHeader v m.hdr) (h8 : m.GIDArea.length = 8)
    (hx : HasSMCD v → m.GIDNumber.toNat = if ExtDecoded v then num v (extAt v + 1) 0 8 else 0)
    (w : SMCDDecoded v → WireV2SMCD v (smcdAt v) m ∧ ∀ i, i < 8 → ∃ g, m.GIDArea[i]? = some g ∧
      g.GID.toNat = (if i < gidCount v then num v (smcdAt v + 48 + 10 * i) 0 64 else 0) ∧
      g.VCHID.toNat = (if i < gidCount v then num v (smcdAt v + 48 + 10 * i + 8) 0 16 else 0))
    (b : ¬ SMCDDecoded v → SameSMCD m {}) :
    Part (if HasSMCD v then
      (if SMCDDecoded v then
        [field (go! "SEID") (plainText (raw v (smcdAt v) 32)), rsvd (octets (raw v (smcdAt v + 32) 16)),
         field (go! "GID Area") (shownGIDs v (smcdAt v + 48) (num v (extAt v + 1) 0 8) (gidCount v))]
       else
        [field (go! "SEID") [], rsvd (octets (zeros 16)),
         field (go! "GID Area") (shownGIDs v 0 (if ExtDecoded v then num v (extAt v + 1) 0 8 else 0) 0)])
      else []) m.smcdV2ExtString m.smcdV2ExtReserved := by
  have hn : (m.hdr.Pathv2 ≠ SMCTypeD ∧ m.hdr.Pathv2 ≠ SMCTypeB) ↔ ¬ HasSMCD v := by
    unfold HasSMCD; rw [not_or, pathv2Of, ← hh.pathv2, ne_eq, ne_eq, ← UInt8.toNat_inj, ← UInt8.toNat_inj]; rfl
  unfold ProposalV2.smcdV2ExtString ProposalV2.smcdV2ExtReserved
  by_cases h : HasSMCD v
  · rw [if_neg (mt hn.1 (fun c => c h)), if_neg (mt hn.1 (fun c => c h)), if_pos h]
    unfold ProposalV2.smcdV2ExtGIDString
    rw [hx h, gidsStr_cap, h8, Nat.zero_add]
    by_cases hr : SMCDDecoded v
    · obtain ⟨w, wg⟩ := w hr
      have he : ExtDecoded v := ⟨hr.1, by rcases h with h | h <;> (unfold HasExt; omega), hr.2.1⟩
      rw [if_pos hr, if_pos he, gids_shown m.GIDArea (fun j hj => wg j (by omega))]
      have hg : ∀ k a n, shownGIDs v k a n = go! "[" ++ row ((List.range (min 8 a)).flatMap
          (gidPair (fun i => if i < n then num v (k + 10 * i) 0 64 else 0) fun i => if i < n then num v (k + 10 * i + 8) 0 16 else 0))
          ++ go! "]" := fun _ _ _ => rfl
      rw [hg]
      generalize row _ = X
      constructor
      all_goals
        parts_text []
        unfmt [w.seid, w.rsv7, plainText_eq, List.append_nil]
        rfl
    · obtain ⟨b1, b2, b3⟩ := b hr
      rw [if_neg hr, gids_shown (a := fun _ => 0) (b := fun _ => 0) m.GIDArea (fun j hj => by
        have : j < 8 := by omega
        rw [b3]
        match j, this with
        | 0, _ | 1, _ | 2, _ | 3, _ | 4, _ | 5, _ | 6, _ | 7, _ => exact ⟨_, rfl, rfl, rfl⟩)]
      have hg : ∀ a, shownGIDs v 0 a 0 = go! "[" ++ row ((List.range (min 8 a)).flatMap (gidPair (fun _ => 0) fun _ => 0))
          ++ go! "]" := fun a => by simp only [shownGIDs, Nat.not_lt_zero, if_false]; rfl
      rw [hg]
      generalize row _ = X
      constructor
      all_goals
        parts_text []
        unfmt [b1, b2, List.append_nil]
        rfl
  · rw [if_pos (hn.2 h), if_pos (hn.2 h), if_neg h]; exact ⟨rfl, rfl⟩

theorem visibleItems_append (is js : List Item) : visibleItems (is ++ js) = visibleItems is ++ visibleItems js :=
  List.filter_append ..

/-- the three optional parts -/
theorem options_tails {v : Bytes} {s1 s2 s3 r1 r2 r3 : Bytes}
    (h1 : Part (if HasIP v then (if RoomIP v then shownIP v 80 (pfxCount v) else blankIP) else []) s1 r1)
    (h2 : Part (if HasExt v then (if ExtDecoded v then shownExt v (extAt v) (eidCount v) else blankExt) else []) s2 r2)
    (h3 : Part (if HasSMCD v then
      (if SMCDDecoded v then
        [field (go! "SEID") (plainText (raw v (smcdAt v) 32)), rsvd (octets (raw v (smcdAt v + 32) 16)),
         field (go! "GID Area") (shownGIDs v (smcdAt v + 48) (num v (extAt v + 1) 0 8) (gidCount v))]
       else
        [field (go! "SEID") [], rsvd (octets (zeros 16)),
         field (go! "GID Area") (shownGIDs v 0 (if ExtDecoded v then num v (extAt v + 1) 0 8 else 0) 0)])
      else []) s3 r3) :
    tails (visibleItems (shownOptions v)) = withComma s1 ++ (withComma s2 ++ withComma s3) ∧
    tails (shownOptions v) = withComma r1 ++ (withComma r2 ++ withComma r3) := by
  unfold shownOptions
  rw [visibleItems_append, visibleItems_append, tails_append, tails_append, tails_append, tails_append, h1.str, h2.str, h3.str,
    h1.res, h2.res, h3.res, List.append_assoc, List.append_assoc]
  exact ⟨rfl, rfl⟩

theorem proposalV2_shows {v : Bytes} {m : ProposalV2} (e : Bytes) (hv : 84 ≤ v.length) (w : WireV2 v m)
    (ho : tails (visibleItems (shownOptions v))
        = withComma m.ipInfoString ++ (withComma m.propV2ExtString ++ withComma m.smcdV2ExtString) ∧
      tails (shownOptions v) = withComma m.ipInfoReserved ++ (withComma m.propV2ExtReserved ++ withComma m.smcdV2ExtReserved)) :
    Shows m.hdr m.trailer (shownBody v e .proposalV2) m.string m.reserved := by
  simp only [shownBody]
  generalize shownOptions v = os at ho
  unfold visibleItems at ho
  constructor <;>
  parts_text [peerText_eq (raw v 8 8) (by simp [raw]; omega), address_eq (raw v 16 16) (by simp [raw]; omega), ho]
  · unfold ProposalV2.string trailerStr
    unfmt [w.peerID, w.gid, w.mac, w.offset, w.smcdGID, w.vchid, w.v2Offset, List.append_nil]
    rfl
  · unfold ProposalV2.reserved trailerStr
    unfmt [w.peerID, w.gid, w.mac, w.offset, w.smcdGID, w.vchid, w.v2Offset, w.rsv, List.append_nil]
    rfl

theorem blank_options {v : Bytes} (hs : declared v < 84) :
    shownOptions v = (if HasIP v then blankIP else []) ++ (if HasExt v then blankExt else []) ++
      (if HasSMCD v then [field (go! "SEID") [], rsvd (octets (zeros 16)), field (go! "GID Area") (go! "[]")] else []) := by
  have hx : 80 ≤ extAt v := by unfold extAt; split <;> omega
  have hi : HasIP v → ¬ RoomIP v := fun h r => by have := r h; omega
  have he : ¬ ExtDecoded v := fun ⟨_, h, r⟩ => by have := r h; omega
  have hd : ¬ SMCDDecoded v := fun ⟨r0, r1, h, r2⟩ => he ⟨r0, by rcases h with h | h <;> (unfold HasExt; omega), r1⟩
  unfold shownOptions
  rw [if_neg he, if_neg he, if_neg hd]
  congr 1
  congr 1
  by_cases h : HasIP v
  · rw [if_pos h, if_pos h, if_neg (hi h)]
  · rw [if_neg h, if_neg h]

theorem proposalV2_blank (s : Slice) {v : Bytes} {h : Header} (w : WireHeader v h) (hs : declared v < 84) (m : ProposalV2)
    (hm : m = { raw := s, hdr := h }) : Shows h m.trailer (blankBody v .proposalV2) m.string m.reserved := by
  have hx : 80 ≤ extAt v := by unfold extAt; split <;> omega
  have hi : HasIP v → ¬ RoomIP v := fun h r => by have := r h; omega
  have he : ¬ ExtDecoded v := fun ⟨_, h, r⟩ => by have := r h; omega
  have hd : ¬ SMCDDecoded v := fun ⟨r0, r1, h, r2⟩ => he ⟨r0, by rcases h with h | h <;> (unfold HasExt; omega), r1⟩
  subst hm
  have ho := options_tails
    (ip_part (m := { raw := s, hdr := h }) w (fun c r => absurd r (hi c)) (fun _ => ⟨rfl, rfl, rfl, rfl, rfl⟩))
    (ext_part (m := { raw := s, hdr := h }) w rfl (fun c => absurd c he) (fun _ => ⟨rfl, rfl, rfl, rfl, rfl, rfl, rfl, rfl, rfl, rfl⟩))
    (smcd_part (m := { raw := s, hdr := h }) w rfl (fun _ => by rw [if_neg he]; rfl) (fun c => absurd c hd) (fun _ => ⟨rfl, rfl, rfl⟩))
  have hb : blankBody v .proposalV2 = blankRdma ++
    [field (go! "IP Area Offset") (go! "0"), field (go! "SMC-D GID") (go! "0"), field (go! "ISMv2 VCHID") (go! "0"),
     field (go! "SMCv2 Extension Offset") (go! "0"), rsvd (octets (zeros 28))] ++ shownOptions v := by
    rw [blank_options hs]; simp only [blankBody, List.append_assoc]
  rw [hb]
  generalize shownOptions v = os at ho
  unfold visibleItems at ho
  constructor <;> parts_text [blankRdma, peerText_zeros, ho]
  all_goals
    first | unfold ProposalV2.string trailerStr | unfold ProposalV2.reserved trailerStr
    unfmt [List.append_nil]
    rfl

/-! ## C89 -/

/-- the body of a message that was parsed into a fresh one -/
theorem message_shows (s : Slice) (hs : 8 ≤ s.len) (hL : declared s.vis ≤ s.len) (k : CLCKind) {l : List Bytes} {m : Message}
    (h : (freshCLC k).parse s = .ret l m) :
    ∃ hd, WireHeader s.vis hd ∧ Shows hd m.trailer
      (if declared s.vis < minLen k then blankBody s.vis k else shownBody s.vis s.extra k) m.string m.reserved := by
  have hsz := sized_fresh k
  have hkk := kind_fresh k
  have hl : declared s.vis ≤ s.vis.length := hL
  by_cases hmin : declared s.vis < minLen k
  · rw [if_pos hmin]
    obtain ⟨hd, w, h1⟩ := C40_short (freshCLC k) hsz s hs (by rw [hkk]; exact hmin) (by unfold Slice.cap; omega)
    rw [h] at h1
    obtain ⟨-, rfl⟩ := Go.ret.inj h1
    refine ⟨hd, w, ?_⟩
    cases k
    case decline => exact decline_blank s hd _ _ rfl
    case declineV2 => exact declineV2_blank s hd _ _ rfl
    case acceptSMCR => exact smcr_blank s hd _ _ rfl
    case confirmSMCR => exact smcr_blank s hd s.vis _ rfl
    case acceptSMCD => exact smcd_blank s hd _ _ rfl
    case confirmSMCD => exact smcd_blank s hd s.vis _ rfl
    case acceptSMCDv2 => exact smcdv2_blank s hd _ _ rfl (by rw [w.length]; simp only [minLen] at hmin; exact Nat.lt_trans hmin (by omega))
    case confirmSMCDv2 => exact smcdv2_blank s hd s.vis _ rfl (by rw [w.length]; simp only [minLen] at hmin; exact Nat.lt_trans hmin (by omega))
    case proposal => exact proposal_blank s hd _ _ rfl
    case proposalV2 => exact proposalV2_blank s w hmin _ rfl
  · rw [if_neg hmin]
    have hmin := Nat.le_of_not_lt hmin
    cases k <;> simp only [minLen] at hmin
    case decline =>
      obtain ⟨l0, m0, h0, w, -⟩ := C34_decline_wire {} hsz s (by omega) hmin
      simp only [freshCLC, Message.parse, h0, map_ret] at h
      cases h
      exact ⟨m0.hdr, w.hdr, decline_shows (by omega) w⟩
    case declineV2 =>
      obtain ⟨l0, m0, h0, w⟩ := C34_declineV2_wire {} hsz s (by omega) hmin
      simp only [freshCLC, Message.parse, h0, map_ret] at h
      cases h
      exact ⟨m0.hdr, w.hdr, declineV2_shows (by omega) w⟩
    case acceptSMCR =>
      obtain ⟨l0, m0, h0, w⟩ := C35_smcr_wire {} hsz s (by omega) hmin
      simp only [freshCLC, Message.parse, h0, map_ret] at h
      cases h
      exact ⟨m0.hdr, w.hdr, smcr_shows (by omega) w⟩
    case confirmSMCR =>
      obtain ⟨l0, m0, h0, w⟩ := C35_smcr_wire {} hsz s (by omega) hmin
      simp only [freshCLC, Message.parse, h0, map_ret] at h
      cases h
      exact ⟨m0.hdr, w.hdr, smcr_shows (by omega) w⟩
    case acceptSMCD =>
      obtain ⟨l0, m0, h0, w⟩ := C36_smcd_wire {} hsz s (by omega) hmin
      simp only [freshCLC, Message.parse, h0, map_ret] at h
      cases h
      exact ⟨m0.hdr, w.hdr, smcd_shows w⟩
    case confirmSMCD =>
      obtain ⟨l0, m0, h0, w⟩ := C36_smcd_wire {} hsz s (by omega) hmin
      simp only [freshCLC, Message.parse, h0, map_ret] at h
      cases h
      exact ⟨m0.hdr, w.hdr, smcd_shows w⟩
    case acceptSMCDv2 =>
      obtain ⟨l0, m0, h0, w, wf, wb⟩ := C37_smcdv2_wire {} hsz s (by omega) hmin hL
      simp only [freshCLC, Message.parse, h0, map_ret] at h
      cases h
      exact ⟨m0.hdr, w.hdr, smcdv2_shows s.extra w wf wb⟩
    case confirmSMCDv2 =>
      obtain ⟨l0, m0, h0, w, wf, wb⟩ := C37_smcdv2_wire {} hsz s (by omega) hmin hL
      simp only [freshCLC, Message.parse, h0, map_ret] at h
      cases h
      exact ⟨m0.hdr, w.hdr, smcdv2_shows s.extra w wf wb⟩
    case proposal =>
      obtain ⟨v, e⟩ := s
      simp only [Slice.len_mk] at *
      cases h0 : Proposal.parse {} ⟨v, e⟩ with
      | panic l => simp only [freshCLC, Message.parse, h0] at h; cases h
      | ret l0 m0 =>
        simp only [freshCLC, Message.parse, h0, map_ret] at h
        cases h
        have hv : 52 ≤ v.length := by omega
        have hfix := propFixed_wire v e (by omega) {} hv
        have ho : (u16 v[38] v[39]).toNat = num v 38 0 16 := by rw [num_16 v 38 (by omega), u16_toNat]
        have hsm : num v 38 0 16 = 40 → (propFixed v e hs {} hv).SMCDGID.toNat = num v 40 0 64 ∧
            (propFixed v e hs {} hv).rsv = raw (v ++ e) 48 32 := fun h40 => by
          unfold propFixed
          rw [if_pos (by rw [ho]; exact h40), num_64 v 40 (by omega)]
          exact ⟨by rw [u64_toNat], rfl⟩
        by_cases hin : ipAreaAt v + 12 ≤ declared v
        · obtain ⟨l1, m1, h1, w, wi, -⟩ := C38_proposal_wire {} hsz ⟨v, e⟩ hmin hL hin
          obtain ⟨l2, m2, h2, wp, -⟩ := C41_proposal_prefixes {} hsz ⟨v, e⟩ hmin hL hin
          rw [h0] at h1 h2; cases h1; cases h2
          have hm : m0.SMCDGID = (propFixed v e hs {} hv).SMCDGID ∧ m0.rsv = (propFixed v e hs {} hv).rsv := by
            rw [proposal_result v e hs {} hsz hv hmin hL] at h0
            unfold propResult at h0
            rw [if_neg (by intro c; unfold ipAreaAt at hin; omega), if_neg (by omega)] at h0
            cases h0
            exact ⟨rfl, rfl⟩
          refine ⟨m0.hdr, w.hdr, proposal_shows e hv w (fun c => by rw [hm.1, hm.2]; exact hsm c)
            (fun _ => ⟨wi, by omega, wp, ?_⟩) (fun c => absurd hin c)⟩
          have := @entries_room (declared v) (ipAreaAt v + 8) 17 (num v (ipAreaAt v + 7) 0 8) (by omega)
          omega
        · rw [proposal_result v e hs {} hsz hv hmin hL] at h0
          unfold propResult at h0
          split at h0
          · cases h0
          · rw [if_pos (by omega)] at h0
            cases h0
            refine ⟨_, hfix.hdr, proposal_shows e hv hfix hsm (fun c => absurd c hin) (fun _ => ?_)⟩
            unfold propFixed
            split <;> exact ⟨rfl, rfl, rfl, rfl, rfl⟩
    case proposalV2 =>
      cases h0 : ProposalV2.parse {} s with
      | panic l => simp only [freshCLC, Message.parse, h0] at h; cases h
      | ret l0 m0 =>
        simp only [freshCLC, Message.parse, h0, map_ret] at h
        cases h
        obtain ⟨w, wi, bi, we, be, wg, bg⟩ := C39_proposalV2_wire {} hsz s hmin hL h0
        have hxe : HasSMCD s.vis → HasExt s.vis := by rintro (h3 | h3) <;> (unfold HasExt; omega)
        refine ⟨m0.hdr, w.hdr, proposalV2_shows _ (by omega) w (options_tails
          (ip_part w.hdr (fun c r => ⟨wi ⟨c, r⟩, ?_, ?_⟩) (fun c => bi (fun d => c d.2)))
          (ext_part w.hdr ?_ (fun c => ⟨we c, ?_⟩) be) (smcd_part w.hdr ?_ (fun c => ?_) (fun c => ⟨wg c, ?_⟩) bg))⟩
        · exact (C41_proposalV2_prefixes {} hsz s hmin hL h0 c r).1
        · have := r c
          have := @entries_room (declared s.vis) 88 17 (num s.vis 87 0 8) (by omega)
          unfold pfxCount
          omega
        · by_cases c : ExtDecoded s.vis
          · rw [(C42_eids {} hsz s hmin hL h0 c.1 c.2.1 c.2.2).2.1.length]; rfl
          · obtain ⟨-, -, -, -, -, -, -, -, -, b10⟩ := be c
            rw [b10]; rfl
        · intro i hi
          have hE := (C42_eids {} hsz s hmin hL h0 c.1 c.2.1 c.2.2).2.1
          by_cases hc : i < eidCount s.vis
          · rw [if_pos hc]; exact hE.entry i hc
          · rw [if_neg hc, hE.kept i (by omega)]
            match i, hi with
            | 0, _ | 1, _ | 2, _ | 3, _ | 4, _ | 5, _ | 6, _ | 7, _ => rfl
        · by_cases c : SMCDDecoded s.vis
          · rw [(C42_gids {} hsz s hmin hL h0 c.1 c.2.1 c.2.2.1 c.2.2.2).2.1.length]; rfl
          · obtain ⟨-, -, b3⟩ := bg c
            rw [b3]; rfl
        · by_cases d : ExtDecoded s.vis
          · rw [if_pos d]; exact (we d).gidNumber
          · rw [if_neg d]
            obtain ⟨-, b2, -⟩ := be d
            rw [b2]; rfl
        · intro i hi
          have hG := (C42_gids {} hsz s hmin hL h0 c.1 c.2.1 c.2.2.1 c.2.2.2).2.1
          by_cases hc : i < gidCount s.vis
          · rw [if_pos hc, if_pos hc]
            obtain ⟨g, hg, wg⟩ := hG.entry i hc
            exact ⟨g, hg, wg.gid, wg.vchid⟩
          · rw [if_neg hc, if_neg hc, hG.kept i (by omega)]
            match i, hi with
            | 0, _ | 1, _ | 2, _ | 3, _ | 4, _ | 5, _ | 6, _ | 7, _ => exact ⟨_, rfl, rfl, rfl⟩

/-- C89: `String()` and `Reserved()` of a message, parsed as any kind from a buffer that holds it, whatever
its bytes are, are the lines that show the decoded parts as they are on the wire and the others as
zero. -/
theorem C89_texts (k : CLCKind) (s : Slice) (hs : 8 ≤ s.len) (hL : declared s.vis ≤ s.len) (l : List Bytes) (m : Message)
    (h : (freshCLC k).parse s = .ret l m) :
    m.string = shownLine s.vis (visibleItems (shownItems s.vis s.extra k)) ∧
    m.reserved = shownLine s.vis (shownItems s.vis s.extra k) := by
  obtain ⟨hd, w, hsh⟩ := message_shows s hs hL k h
  have ht : eyeName m.trailer = if Accepted k s.vis then eyeName (lastFour s.vis) else go! "Unknown" := by
    have hsz := sized_fresh k
    have hkk := kind_fresh k
    by_cases ha : Accepted k s.vis
    · rw [if_pos ha, (C44_trailer (freshCLC k) hsz s hs hL (by rw [hkk]; exact ha) l m h).1]
    · rw [if_neg ha, (C44_rejected (freshCLC k) hsz s hs hL (by rw [hkk]; exact ha) l m h).1]
      cases k <;> decide +kernel
  have := shows_parts w hsh
  rw [ht] at this
  exact this

/-- C89, headers: the texts of any header of 8 bytes. -/
theorem C89_header (h : Header) (hh : h.Eyecatcher.length = 4) (s : Slice) (hs : 8 ≤ s.len) :
    ∃ h', h.parse s = .ret [] h' ∧ h'.string = shownLine s.vis (visibleItems (shownHeader s.vis)) ∧
      h'.reserved = shownLine s.vis (shownHeader s.vis) := by
  obtain ⟨v, e⟩ := s
  exact ⟨_, header_parse h hh v e hs, header_any (hdrOf_wire v hs)⟩

/-- a Proposal of version 2 without IP area that announces three EIDs and two GIDs; two EIDs fit
in, then there is no room for the SMC-D extension -/
def faultyProposal : Bytes :=
  hex! "e2d4c3c40100d6260001020304050607" ++ zeros 64 ++ hex! "03 02 00 11 0000 0000" ++ zeros 32 ++
    go! "EID" ++ zeros 29 ++ go! "SEID" ++ zeros 28 ++ zeros 16 ++
    hex! "0000000000000005 0006" ++ hex! "e2d4c300"

/-- the hypotheses hold of this message, and this is what is printed -/
example : 8 ≤ faultyProposal.length ∧ declared faultyProposal = faultyProposal.length ∧
    ((freshCLC .proposalV2).parse ⟨faultyProposal, []⟩).val?.isSome = true ∧
    shownLine faultyProposal (visibleItems (shownItems faultyProposal [] .proposalV2)) = go! "Proposal: Eyecatcher: SMC-D, Type: 1 (Proposal), Length: 214, Version: 2, Pathv2: SMC-D, Path: No SMC-R/SMC-D, Peer ID: 1@02:03:04:05:06:07, SMC-R GID: ::, RoCE MAC: 00:00:00:00:00:00, IP Area Offset: 0, SMC-D GID: 0, ISMv2 VCHID: 0, SMCv2 Extension Offset: 0, EID Number: 3, GID Number: 2, Release: 1, SEID Indicator: 1, SMC-Dv2 Extension Offset: 0, EID Area: [EID 0: EID, EID 1: SEID, EID 2: ], SEID: , GID Area: [GID 0: 0, VCHID 0: 0, GID 1: 0, VCHID 1: 0], Trailer: Unknown" := by
  decide +kernel

/-- a header of an unknown type -/
example : shownLine (hex! "0102030409ffffff") (shownHeader (hex! "0102030409ffffff")) = go! "Unknown: Eyecatcher: Unknown, Type: 9 (Unknown), Length: 65535, Version: 15, Flag: 1, Reserved: 0x1, Path: SMC-R + SMC-D" := by
  decide +kernel

end SMC.Props
