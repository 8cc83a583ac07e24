import Verif.Props.CLCTextAll
import Verif.Props.CLCParse
import Verif.Lemmas.Bits
/-!
# C50, C52, C57: texts of parsed CLC messages
-/

namespace SMC.Props

open SMC Spec CLC

/-! ## C50 -/

/-- C50 for texts without EIDs, and with EIDs and a host name whose texts contain neither commas
nor closing brackets (`f` is the text of an EID): messages of one kind with equal texts agree on
every field that is there and not reserved; of EIDs, on their texts. Missing: all other EID
texts, for which it is false, see `C50_eid_false` and `C50_eid_padding_false`. -/
theorem C50_string_partial (f : Bytes → Bytes) (hf : ∀ e, EIDText e (f e)) (m m' : Message)
    (hk : clcKind m = clcKind m') (hp : Plain m) (hp' : Plain m') (hc : CleanEIDs f m) (hc' : CleanEIDs f m')
    (h : m.string = m'.string) : eidTexts f (present m) = eidTexts f (present m') := by
  have : f = eidStr := funext fun e => C51_eid_text_unique e _ (hf e)
  subst this
  cases m <;> cases m' <;> simp only [clcKind, reduceCtorEq] at hk <;> simp only [Message.string] at h
  case proposal.proposal a b => rw [proposal_text a b hp hp' h]
  case proposalV2.proposalV2 a b => exact proposalV2_text a b hp hp' hc hc' h
  case acceptSMCR.acceptSMCR a b => rw [smcr_text a b hp hp' h]
  case acceptSMCD.acceptSMCD a b => rw [smcd_text a b hp hp' h]
  case acceptSMCDv2.acceptSMCDv2 a b => exact smcdv2_text a b hp hp' hc hc' h
  case decline.decline a b => rw [decline_text a b hp hp' h]
  case declineV2.declineV2 a b => rw [declineV2_text a b hp hp' h]
  case confirmSMCR.confirmSMCR a b =>
    have := smcr_text a b hp hp' h
    simp only [present, noReserved, Message.acceptSMCR.injEq] at this
    simp only [present, noReserved, this]
  case confirmSMCD.confirmSMCD a b =>
    have := smcd_text a b hp hp' h
    simp only [present, noReserved, Message.acceptSMCD.injEq] at this
    simp only [present, noReserved, this]
  case confirmSMCDv2.confirmSMCDv2 a b =>
    have := smcdv2_text a b hp hp' hc hc' h
    simp only [present, noReserved, eidTexts, Message.acceptSMCDv2.injEq] at this
    simp only [present, noReserved, eidTexts, this]

/-- the kinds without EIDs -/
abbrev NoEIDs (k : CLCKind) : Prop := k ≠ .proposalV2 ∧ k ≠ .acceptSMCDv2 ∧ k ≠ .confirmSMCDv2

/-- C50 for the kinds without EIDs: the text determines every field that is there and not
reserved. -/
theorem C50_string_noEIDs (m m' : Message) (hk : clcKind m = clcKind m') (hn : NoEIDs (clcKind m)) (hp : Plain m)
    (hp' : Plain m') (h : m.string = m'.string) : present m = present m' := by
  have g := C50_string_partial eidStr C51_eid_text m m' hk hp hp'
    (by cases m <;> first | trivial | exact absurd rfl hn.1 | exact absurd rfl hn.2.1 | exact absurd rfl hn.2.2)
    (by rw [hk] at hn; cases m' <;> first | trivial | exact absurd rfl hn.1 | exact absurd rfl hn.2.1 | exact absurd rfl hn.2.2) h
  cases m <;> cases m' <;> simp only [clcKind, reduceCtorEq] at hk <;>
    first | exact g | exact absurd rfl hn.1 | exact absurd rfl hn.2.1 | exact absurd rfl hn.2.2

theorem raw_len {v : Bytes} {k n : Nat} (h : k + n ≤ v.length) : (raw v k n).length = n := by
  unfold raw; rw [List.length_take, List.length_drop]; omega

theorem plainHeader {v : Bytes} {h : Header} (w : WireHeader v h) (he : IsEye (raw v 0 4)) : PlainHeader h :=
  ⟨w.eyecatcher ▸ he, w.path ▸ num_lt, w.pathv2 ▸ num_lt⟩

theorem plainPrefixes {v : Bytes} {k n : Nat} {new : List IPv6Prefix} (h : Prefixes v k n [] new)
    (hl : k + 17 * n ≤ v.length) : PlainPrefixes new := by
  intro p hp
  obtain ⟨i, hi, rfl⟩ := List.mem_iff_getElem.1 hp
  have hn := h.length
  simp only [List.length_nil, Nat.zero_add] at hn
  obtain ⟨q, hq, w⟩ := h.entry i (by omega)
  simp only [List.length_nil, Nat.zero_add] at hq
  rw [List.getElem?_eq_getElem hi] at hq
  cases Option.some.inj hq
  rw [w.pfx]
  exact raw_len (by omega)

theorem entries_room {L k w n : Nat} (h : k + 4 ≤ L) : k + w * entries L k w n + 4 ≤ L := by
  have h1 : w * ((L - 4 - k) / w) ≤ L - 4 - k := Nat.mul_div_le _ _
  have h2 : w * entries L k w n ≤ w * ((L - 4 - k) / w) := Nat.mul_le_mul_left _ (Nat.min_le_right _ _)
  omega

theorem map_ret_inv {α β : Type} {f : α → β} {x : Go α} {l : List Bytes} {m : β}
    (h : (do let a ← x; pure (f a)) = Go.ret l m) : ∃ a, x = .ret l a ∧ m = f a := by
  cases x with
  | ret l' a =>
    rw [map_ret] at h
    injection h with h1 h2
    exact ⟨a, by rw [h1], h2.symm⟩
  | panic l' => cases h

/-- The messages that `NewMessage` and `Parse` make of complete messages with trailers meet the
hypothesis of C50. -/
theorem C50_plain (s : Slice) (k : CLCKind) (hk : classify s.vis = some k) (hs : 8 ≤ s.len) (hL : declared s.vis ≤ s.len)
    (ha : Accepted k s.vis) (ht : IsEye (lastFour s.vis)) (l : List Bytes) (m : Message)
    (h : (freshCLC k).parse s = .ret l m) : Plain m := by
  have hc : clcKind (freshCLC k) = k := by cases k <;> rfl
  have tr := (C44_trailer (freshCLC k) (sized_fresh k) s hs hL (by rwa [hc]) l m h).1
  have he : IsEye (raw s.vis 0 4) := by
    unfold classify at hk
    split at hk
    · rename_i c; exact c.1
    · cases hk
  have hm := ha.1
  obtain ⟨v, e⟩ := s
  simp only [Slice.len_mk] at *
  cases k <;> simp only [minLen] at hm <;> simp only [freshCLC, Message.parse] at h
  all_goals
    obtain ⟨a, h0, rfl⟩ := map_ret_inv h
    replace h := h0
    simp only [Message.trailer] at tr
    have ht : IsEye a.trailer := tr ▸ ht
  case proposal =>
    have hin := ha.2
    simp only at hin
    obtain ⟨l1, m1, e1, w, w2, -, -⟩ := C38_proposal_wire {} (by decide) ⟨v, e⟩ hm hL hin
    obtain ⟨l2, m2, e2, w3, -⟩ := C41_proposal_prefixes {} (by decide) ⟨v, e⟩ hm hL hin
    rw [h] at e1 e2
    cases e1; cases e2
    have hv : 52 ≤ v.length := by omega
    refine ⟨plainHeader w.hdr he, by rw [w.peerID]; exact raw_len (by dsimp only; omega),
      by rw [w.gid]; exact raw_len (by dsimp only; omega),
      by rw [w2.pfx]; exact raw_len (by dsimp only; omega), plainPrefixes w3 ?_, ht⟩
    dsimp only
    have := @entries_room (declared v) (ipAreaAt v + 8) 17 (num v (ipAreaAt v + 7) 0 8) (by omega)
    omega
  case proposalV2 =>
    obtain ⟨r1, r2, r3⟩ := ha.2
    obtain ⟨w, w1, w2, w3, w4, w5, w6⟩ := C39_proposalV2_wire {} (by decide +kernel) ⟨v, e⟩ hm hL h
    have hcl : a.hdr.Typ = 1 ∧ a.hdr.Version = 2 := by
      unfold classify at hk
      split at hk
      · rename_i c
        have g : num v 4 0 8 = 1 ∧ num v 7 0 4 = 2 := by
          unfold select at hk
          split at hk <;> (try split at hk) <;> simp_all
        exact ⟨UInt8.toNat_inj.1 (w.hdr.typ.trans g.1), UInt8.toNat_inj.1 (w.hdr.version.trans g.2)⟩
      · cases hk
    have hpath : a.hdr.Path ≠ 2 ↔ HasIP v := by
      have := w.hdr.path
      rw [ne_eq, ← UInt8.toNat_inj, this]
      rfl
    refine ⟨plainHeader w.hdr he, by rw [w.peerID]; exact raw_len (by dsimp only; omega),
      by rw [w.gid]; exact raw_len (by dsimp only; omega), ?_, ?_, ?_, ?_, ht, hcl.1, hcl.2⟩
    · intro c
      have c := hpath.1 c
      have := r1 c
      rw [(w1 ⟨c, r1⟩).pfx]
      exact raw_len (by dsimp only; omega)
    · by_cases c : HasIP v
      · have := r1 c
        refine plainPrefixes (C41_proposalV2_prefixes {} (by decide +kernel) ⟨v, e⟩ hm hL h c r1).1 ?_
        have := @entries_room (declared v) 88 17 (num v 87 0 8) (by omega)
        unfold pfxCount
        dsimp only
        omega
      · rw [(w2 (fun x => c x.1)).2.2.2.2]
        intro p hp
        cases hp
    · by_cases c : HasExt v
      · have := (C42_eids {} (by decide +kernel) ⟨v, e⟩ hm hL h r1 c r2).2.1.length
        rw [this]; rfl
      · rw [(w4 (fun x => c x.2.1)).2.2.2.2.2.2.2.2.2]
        rfl
    · by_cases c : HasSMCD v
      · have := (C42_gids {} (by decide +kernel) ⟨v, e⟩ hm hL h r1 r2 c r3).2.1.length
        rw [this]; rfl
      · rw [(w6 (fun x => c x.2.2.1)).2.2]
        rfl
  case acceptSMCR =>
    obtain ⟨l1, m1, e1, w⟩ := C35_smcr_wire {} (by decide) ⟨v, e⟩ (by simp only [Slice.len_mk]; omega) hm
    rw [h] at e1; cases e1
    exact ⟨plainHeader w.hdr he, by rw [w.peerID]; exact raw_len (by dsimp only; omega),
      by rw [w.gid]; exact raw_len (by dsimp only; omega), ht⟩
  case confirmSMCR =>
    obtain ⟨l1, m1, e1, w⟩ := C35_smcr_wire {} (by decide) ⟨v, e⟩ (by simp only [Slice.len_mk]; omega) hm
    rw [h] at e1; cases e1
    exact ⟨plainHeader w.hdr he, by rw [w.peerID]; exact raw_len (by dsimp only; omega),
      by rw [w.gid]; exact raw_len (by dsimp only; omega), ht⟩
  case acceptSMCD =>
    obtain ⟨l1, m1, e1, w⟩ := C36_smcd_wire {} (by decide) ⟨v, e⟩ (by simp only [Slice.len_mk]; omega) hm
    rw [h] at e1; cases e1
    exact ⟨plainHeader w.hdr he, ht⟩
  case confirmSMCD =>
    obtain ⟨l1, m1, e1, w⟩ := C36_smcd_wire {} (by decide) ⟨v, e⟩ (by simp only [Slice.len_mk]; omega) hm
    rw [h] at e1; cases e1
    exact ⟨plainHeader w.hdr he, ht⟩
  case acceptSMCDv2 =>
    obtain ⟨l1, m1, e1, w, -⟩ := C37_smcdv2_wire {} (by decide) ⟨v, e⟩ (by simp only [Slice.len_mk]; omega) hm hL
    rw [h] at e1; cases e1
    exact ⟨plainHeader w.hdr he, ht⟩
  case confirmSMCDv2 =>
    obtain ⟨l1, m1, e1, w, -⟩ := C37_smcdv2_wire {} (by decide) ⟨v, e⟩ (by simp only [Slice.len_mk]; omega) hm hL
    rw [h] at e1; cases e1
    exact ⟨plainHeader w.hdr he, ht⟩
  case decline =>
    obtain ⟨l1, m1, e1, w, -⟩ := C34_decline_wire {} (by decide) ⟨v, e⟩ (by simp only [Slice.len_mk]; omega) hm
    rw [h] at e1; cases e1
    exact ⟨plainHeader w.hdr he, by rw [w.peerID]; exact raw_len (by dsimp only; omega), ht⟩
  case declineV2 =>
    obtain ⟨l1, m1, e1, w⟩ := C34_declineV2_wire {} (by decide) ⟨v, e⟩ (by simp only [Slice.len_mk]; omega) hm
    rw [h] at e1; cases e1
    exact ⟨plainHeader w.hdr he, by rw [w.peerID]; exact raw_len (by dsimp only; omega), ht⟩

/-- a complete message of a kind that has room for everything and a trailer -/
structure Whole (k : CLCKind) (s : Slice) : Prop where
  kind : classify s.vis = some k
  header : 8 ≤ s.len
  complete : declared s.vis ≤ s.len
  accepted : Accepted k s.vis
  trailer : IsEye (lastFour s.vis)

/-- C50 for parsed messages without EIDs -/
theorem C50_parsed_noEIDs (k : CLCKind) (hn : NoEIDs k) (s s' : Slice) (hs : Whole k s) (hs' : Whole k s')
    (l l' : List Bytes) (m m' : Message) (h : (freshCLC k).parse s = .ret l m) (h' : (freshCLC k).parse s' = .ret l' m')
    (ht : m.string = m'.string) : present m = present m' := by
  have hc : ∀ {s l m}, (freshCLC k).parse s = .ret l m → clcKind m = k := by
    intro s l m h
    cases k <;> simp only [freshCLC, Message.parse] at h <;> obtain ⟨a, -, rfl⟩ := map_ret_inv h <;> rfl
  exact C50_string_noEIDs m m' ((hc h).trans (hc h').symm) (by rw [hc h]; exact hn)
    (C50_plain s k hs.kind hs.header hs.complete hs.accepted hs.trailer l m h)
    (C50_plain s' k hs'.kind hs'.header hs'.complete hs'.accepted hs'.trailer l' m' h') ht

/-- a complete Decline -/
def declineBytes : Bytes := hex! "e2d4c3d904001c1025252525252525000303000000000000e2d4c3d9"

example : Whole .decline ⟨declineBytes, []⟩ ∧ NoEIDs .decline ∧
    ((freshCLC .decline).parse ⟨declineBytes, []⟩).val?.isSome = true :=
  ⟨⟨by decide +kernel, by decide, by decide +kernel, ⟨by decide +kernel, trivial⟩, by decide +kernel⟩, by decide, by decide +kernel⟩

/-- a v2 Proposal without IP area, with two EIDs -/
def twoEIDs (a b : Bytes) : Bytes :=
  hex! "e2d4c3d90100bc22" ++ zeros 72 ++ [2] ++ zeros 39 ++ (a ++ zeros (32 - a.length)) ++ (b ++ zeros (32 - b.length)) ++
    hex! "e2d4c3d9"

/-- C50 is false: two complete Proposals whose EIDs have different texts have the same text. -/
theorem C50_eid_false :
    let v := twoEIDs (go! "a") (go! "b, EID 1: c")
    let w := twoEIDs (go! "a, EID 1: b") (go! "c")
    (classify v = some .proposalV2 ∧ declared v = v.length ∧ IsEye (lastFour v)) ∧
    (classify w = some .proposalV2 ∧ declared w = w.length ∧ IsEye (lastFour w)) ∧
    ((Message.proposalV2 {}).parse ⟨v, []⟩).logOf = [] ∧ ((Message.proposalV2 {}).parse ⟨w, []⟩).logOf = [] ∧
    ((ProposalV2.parse {} ⟨v, []⟩).val?.map (·.string)).isSome ∧
    (ProposalV2.parse {} ⟨v, []⟩).val?.map (·.string) = (ProposalV2.parse {} ⟨w, []⟩).val?.map (·.string) ∧
    ((ProposalV2.parse {} ⟨v, []⟩).val?.map fun m => (m.EIDArea.take 2).map eidStr) = some [go! "a", go! "b, EID 1: c"] ∧
    ((ProposalV2.parse {} ⟨w, []⟩).val?.map fun m => (m.EIDArea.take 2).map eidStr) = some [go! "a, EID 1: b", go! "c"] := by
  decide +kernel

/-- C50 is false: what follows the first NUL byte of an EID is not shown, and neither are
trailing blanks. -/
theorem C50_eid_padding_false :
    let v := twoEIDs (go! "a") (go! "b")
    let w := twoEIDs (go! "a ") (go! "b" ++ hex! "00 63")
    (ProposalV2.parse {} ⟨v, []⟩).val?.map (·.string) = (ProposalV2.parse {} ⟨w, []⟩).val?.map (·.string) ∧
    (ProposalV2.parse {} ⟨v, []⟩).val?.map (·.EIDArea) ≠ (ProposalV2.parse {} ⟨w, []⟩).val?.map (·.EIDArea) := by
  decide +kernel

/-- EID texts without commas and brackets -/
example : CleanEIDs eidStr (.proposalV2 { EIDNumber := 2, EIDArea := [go! "a", go! "b"], SEID := go! "c " }) := by
  unfold CleanEIDs
  decide +kernel

/-! ## C52 -/

/-- C52: the text of every parsed RMBE size shows the four bits and the uncompressed size. -/
theorem C52_smcr_parsed (a : AcceptSMCR) (ha : SizedSMCR a) (s : Slice) (hs : 68 ≤ s.len) (hl : 68 ≤ declared s.vis)
    (l : List Bytes) (m : AcceptSMCR) (h : a.parse s = .ret l m) :
    rmbeSizeStr m.RMBESize = dec (num s.vis 50 0 4) ++ go! " (" ++ dec (2 ^ (num s.vis 50 0 4 + 14)) ++ go! ")" := by
  obtain ⟨l1, m1, e1, w⟩ := C35_smcr_wire a ha s hs hl
  rw [h] at e1; cases e1
  have := @num_lt s.vis 50 0 4
  rw [C52_rmbe_size _ (by rw [w.rmbeSize]; omega), w.rmbeSize]

/-- C52 for SMC-D -/
theorem C52_smcd_parsed (a : AcceptSMCD) (ha : SizedSMCD a) (s : Slice) (hs : 48 ≤ s.len) (hl : 48 ≤ declared s.vis)
    (l : List Bytes) (m : AcceptSMCD) (h : a.parse s = .ret l m) :
    rmbeSizeStr m.DMBESize = dec (num s.vis 25 0 4) ++ go! " (" ++ dec (2 ^ (num s.vis 25 0 4 + 14)) ++ go! ")" := by
  obtain ⟨l1, m1, e1, w⟩ := C36_smcd_wire a ha s hs hl
  rw [h] at e1; cases e1
  have := @num_lt s.vis 25 0 4
  rw [C52_rmbe_size _ (by rw [w.dmbeSize]; omega), w.dmbeSize]

/-- C52 for SMC-Dv2 -/
theorem C52_smcdv2_parsed (a : AcceptSMCDv2) (ha : SizedSMCDv2 a) (s : Slice) (hs : 78 ≤ s.len) (hl : 78 ≤ declared s.vis)
    (hd : declared s.vis ≤ s.len) (l : List Bytes) (m : AcceptSMCDv2) (h : a.parse s = .ret l m) :
    rmbeSizeStr m.DMBESize = dec (num s.vis 25 0 4) ++ go! " (" ++ dec (2 ^ (num s.vis 25 0 4 + 14)) ++ go! ")" := by
  obtain ⟨l1, m1, e1, w, -⟩ := C37_smcdv2_wire a ha s hs hl hd
  rw [h] at e1; cases e1
  have := @num_lt s.vis 25 0 4
  rw [C52_rmbe_size _ (by rw [w.dmbeSize]; omega), w.dmbeSize]

example : SizedSMCR {} ∧ 68 ≤ declared (hex! "e2 d4 c3 d9 02 00 44 18") ∧ rmbeSizeStr 2 = go! "2 (65536)" := by decide +kernel

/-! ## C57 -/

/-- the text of the first contact extension -/
def fceText (m : AcceptSMCDv2) : Bytes :=
  go! ", OS Type: " ++ osTypeStr m.OSType ++ go! ", Release: " ++ dec m.Release.toNat ++ go! ", Hostname: " ++ eidStr m.Hostname

/-- C57 for messages of at most 114 bytes: if the first contact extension is decoded, it is at its
place in the text; otherwise its fields have no influence on the text. Missing: longer
messages, for which it is false, see `C57_fce_false`. -/
theorem C57_fce_partial (a : AcceptSMCDv2) (ha : SizedSMCDv2 a) (s : Slice) (hl : 78 ≤ declared s.vis)
    (hd : declared s.vis ≤ s.len) (h114 : declared s.vis ≤ 114) :
    ∃ l m, a.parse s = .ret l m ∧
      (declared s.vis = 114 → WireFCE s.vis m ∧
        ∃ pre, m.string = pre ++ go! ", EID: " ++ eidStr m.EID ++ fceText m ++ go! ", Trailer: " ++ trailerStr m.trailer) ∧
      (declared s.vis < 114 → SameFCE m a ∧
        ∀ o r h, ({ m with OSType := o, Release := r, Hostname := h } : AcceptSMCDv2).string = m.string) := by
  obtain ⟨l, m, e, w, h1, h2⟩ := C37_smcdv2_wire a ha s (by omega) hl hd
  refine ⟨l, m, e, fun c => ⟨h1 c, ?_⟩, fun c => ⟨h2 (by omega), fun o r h => ?_⟩⟩
  · have hf : m.fceString = fceText m := by
      have : m.fceString = _ := if_neg (by rw [w.hdr.length]; exact Nat.not_lt.2 (Nat.le_of_eq c.symm))
      rw [this]
      unfmt [List.append_nil, fceText]
    unfold AcceptSMCDv2.string
    rw [hf]
    unfmt [List.append_nil]
    refine ⟨m.hdr.string ++ (go! ", SMC-D GID: " ++ (dec m.GID.toNat ++ (go! ", SMC-D Token: " ++ (dec m.Token.toNat ++
      (go! ", DMBE Index: " ++ (dec m.DMBEIdx.toNat ++ (go! ", DMBE Size: " ++ (rmbeSizeStr m.DMBESize ++
      (go! ", Link ID: " ++ (dec m.LinkID.toNat ++ (go! ", ISMv2 VCHID: " ++ dec m.ISMv2VCHID.toNat))))))))))), ?_⟩
    simp only [List.append_assoc]
  · have hlt : m.hdr.Length.toNat < 114 := by rw [w.hdr.length]; exact c
    have f1 : m.fceString = [] := if_pos hlt
    have f2 : ({ m with OSType := o, Release := r, Hostname := h } : AcceptSMCDv2).fceString = [] := if_pos hlt
    unfold AcceptSMCDv2.string
    rw [f1, f2]

/-- an SMC-Dv2 Accept with first contact extension and four more bytes -/
def longAccept : Bytes :=
  hex! "e2d4c3c40200762100000000000000010000000000000002" ++ zeros 10 ++ go! "EID" ++ zeros 29 ++ zeros 8 ++
    hex! "00 21 00 00" ++ go! "host" ++ zeros 28 ++ zeros 4 ++ hex! "e2d4c3c4"

/-- C57 is false: the first contact extension of a complete Accept of 118 bytes is not decoded, but
the text shows it, with values that are not in the message. -/
theorem C57_fce_false :
    declared longAccept = longAccept.length ∧ classify longAccept = some .acceptSMCDv2 ∧
    num longAccept 75 0 4 = 2 ∧ raw longAccept 78 4 = go! "host" ∧
    (AcceptSMCDv2.parse {} ⟨longAccept, []⟩).logOf = [] ∧
    ((AcceptSMCDv2.parse {} ⟨longAccept, []⟩).val?.map fun m => (m.OSType, m.Release, m.Hostname)) = some (0, 0, zeros 32) ∧
    ((AcceptSMCDv2.parse {} ⟨longAccept, []⟩).val?.map (·.string)) =
      some (go! "Accept: Eyecatcher: SMC-D, Type: 2 (Accept), Length: 118, Version: 2, First Contact: 0, Path: SMC-D, SMC-D GID: 1, SMC-D Token: 2, DMBE Index: 0, DMBE Size: 0 (16384), Link ID: 0, ISMv2 VCHID: 0, EID: EID, OS Type: 0 (unknown), Release: 0, Hostname: , Trailer: SMC-D") := by
  decide +kernel

example : declared (longAccept.take 5 ++ [0, 114] ++ longAccept.drop 7) = 114 ∧ SizedSMCDv2 {} := by decide +kernel

end SMC.Props
