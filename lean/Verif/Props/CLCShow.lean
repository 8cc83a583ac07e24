import Verif.Spec.CLCShow
import Verif.Lemmas.Show
import Verif.Props.CLCParse
import Verif.Props.CLCTextParsed
/-!
# C78, C79: what the texts of CLC messages are
-/

namespace SMC.Props

open SMC Spec CLC

set_option maxRecDepth 20000

/-! ## Rows -/

/-- items with a comma before each -/
def tails (is : List Item) : Bytes := is.flatMap fun i => go! ", " ++ i.text

theorem tails_nil : tails [] = [] := rfl
theorem tails_cons (i : Item) (is : List Item) : tails (i :: is) = go! ", " ++ (i.text ++ tails is) := by
  simp [tails]
theorem tails_append (is js : List Item) : tails (is ++ js) = tails is ++ tails js := by
  simp [tails]

theorem row_tails (i : Item) (is : List Item) : row (i :: is) = i.text ++ tails is := by
  induction is generalizing i with
  | nil => rw [row_one, tails_nil, List.append_nil]
  | cons j is ih => rw [row_cons, ih, tails_cons]

/-! ## Values -/

theorem eyeName_eq (e : Bytes) : eyeName e = eyecatcherStr e := rfl

theorem pathName_eq (p : UInt8) : pathName p.toNat = pathStr p := by
  revert p; byte_decide

theorem peerText_eq (bs : Bytes) (h : bs.length = 8) : peerText bs = peerIDStr bs := by
  unfold peerIDStr peerText
  unfmt [List.append_nil, decimal_eq, hardware_eq]
  rw [num_16' _ 0 (by omega)]
  rfl

theorem sizeText_eq (c : UInt8) (h : c.toNat < 16) : sizeText c.toNat = rmbeSizeStr c := by
  rw [C52_rmbe_size c (by omega), sizeText, decimal_eq, decimal_eq]

theorem lookup_mem {α β : Type} [BEq α] [LawfulBEq α] (a : α) (l : List (α × β)) :
    (∃ b, l.lookup a = some b ∧ (a, b) ∈ l) ∨ (l.lookup a = none ∧ ∀ b, (a, b) ∉ l) := by
  induction l with
  | nil => right; simp
  | cons p l ih =>
    obtain ⟨c, d⟩ := p
    by_cases h : a = c
    · subst h; left; exact ⟨d, by simp, by simp⟩
    · have hb : (a == c) = false := beq_false_of_ne h
      rcases ih with ⟨b, h1, h2⟩ | ⟨h1, h2⟩
      · left; exact ⟨b, by rw [List.lookup_cons, hb]; exact h1, by simp [h2]⟩
      · right; refine ⟨by rw [List.lookup_cons, hb]; exact h1, fun b => ?_⟩
        simp only [List.mem_cons, Prod.mk.injEq, not_or]
        exact ⟨fun e => h e.1, h2 b⟩

theorem diagnosis_eq (d : UInt32) : diagnosisText d.toNat = peerDiagnosisStr d := by
  unfold diagnosisText
  rcases lookup_mem d.toNat diagnoses with ⟨t, h1, h2⟩ | ⟨h1, h2⟩
  · have := C53_known d.toNat t h2
    rw [UInt32.ofNat_toNat] at this
    rw [this, h1, hexadecimal_eq]; rfl
  · rw [C53_unknown d h2, h1, hexadecimal_eq, List.append_assoc, List.append_assoc]; rfl

theorem osType_eq : ∀ o : UInt8, named osTypes (go! "unknown") o.toNat = osTypeStr o := by byte_decide

theorem qpmtu_eq : ∀ m : UInt8,
    named [(1, go! "256"), (2, go! "512"), (3, go! "1024"), (4, go! "2048"), (5, go! "4096")] (go! "reserved") m.toNat
      = CLC.qpmtuStr m := by byte_decide

theorem mem_takeWhile {α : Type} {p : α → Bool} {a : α} {l : List α} (h : a ∈ l.takeWhile p) : p a = true := by
  induction l with
  | nil => simp at h
  | cons b l ih =>
    rw [List.takeWhile_cons] at h
    split at h
    · rcases List.mem_cons.1 h with rfl | h
      · assumption
      · exact ih h
    · simp at h

theorem plainText_spec (bs : Bytes) : EIDText bs (plainText bs) := by
  have key : ∀ t : Bytes, ∃ u n, t = u ++ List.replicate n 32 ∧ u.getLast? ≠ some 32 ∧
      t.take (t.length - (t.reverse.takeWhile (· == 32)).length) = u := by
    intro t
    have hr : t.reverse.takeWhile (· == 32) = List.replicate (t.reverse.takeWhile (· == 32)).length 32 := by
      apply List.eq_replicate_of_mem
      intro b hb
      simpa using (mem_takeWhile hb)
    have ht : t = (t.reverse.dropWhile (· == 32)).reverse ++ List.replicate (t.reverse.takeWhile (· == 32)).length 32 := by
      conv => lhs; rw [← List.reverse_reverse t, ← List.takeWhile_append_dropWhile (p := (· == 32)) (l := t.reverse)]
      rw [List.reverse_append]
      congr 1
      rw [hr]; simp
    refine ⟨_, _, ht, ?_, ?_⟩
    · rw [List.getLast?_reverse]
      intro h
      have := List.head?_dropWhile_not (· == 32) t.reverse
      rw [h] at this
      simp at this
    · have hl : t.length - (t.reverse.takeWhile (· == 32)).length = (t.reverse.dropWhile (· == 32)).reverse.length := by
        have := congrArg List.length ht
        simp only [List.length_append, List.length_reverse, List.length_replicate] at this ⊢
        omega
      rw [hl]
      conv => lhs; arg 2; rw [ht]
      exact List.take_left
  obtain ⟨u, n, h1, h2, h3⟩ := key (bs.takeWhile (· != 0))
  have hp : plainText bs = u := h3
  rw [hp]
  refine ⟨⟨n, bs.dropWhile (· != 0), ?_, ?_⟩, ?_, h2⟩
  · rw [← h1, List.takeWhile_append_dropWhile]
  · cases hd : bs.dropWhile (· != 0) with
    | nil => left; rfl
    | cons a r =>
      right
      have := List.head?_dropWhile_not (· != 0) bs
      rw [hd] at this
      exact ⟨r, by simp at this; rw [this]⟩
  · intro h0
    have : (0 : UInt8) ∈ bs.takeWhile (· != 0) := by rw [h1]; simp [h0]
    have := mem_takeWhile this
    simp at this

theorem plainText_eq (bs : Bytes) : plainText bs = eidStr bs := C51_eid_text_unique bs _ (plainText_spec bs)

theorem prefixText_eq (a : Bytes) (h : a.length = 4 ∨ a.length = 16) (n : Nat) :
    prefixText a n = ipStr a ++ (go! "/" ++ dec n) := by
  rw [prefixText, address_eq a h, decimal_eq, List.append_assoc]

/-! ## Header -/

/-- what a kind says about the header -/
def HeaderFacts (typ ver path : Nat) : CLCKind → Prop
  | .proposal => typ = 1 ∧ ver ≠ 2
  | .proposalV2 => typ = 1 ∧ ver = 2
  | .acceptSMCR => typ = 2 ∧ path = 0
  | .acceptSMCD => typ = 2 ∧ path = 1 ∧ ver ≠ 2
  | .acceptSMCDv2 => typ = 2 ∧ path = 1 ∧ ver = 2
  | .confirmSMCR => typ = 3 ∧ path = 0
  | .confirmSMCD => typ = 3 ∧ path = 1 ∧ ver ≠ 2
  | .confirmSMCDv2 => typ = 3 ∧ path = 1 ∧ ver = 2
  | .decline => typ = 4 ∧ ver ≠ 2
  | .declineV2 => typ = 4 ∧ ver = 2

theorem classify_facts {v : Bytes} {k : CLCKind} (h : classify v = some k) :
    HeaderFacts (num v 4 0 8) (num v 7 0 4) (pathOf v) k := by
  unfold classify at h
  split at h
  · unfold select at h
    split at h <;> (try split at h) <;> cases h <;> simp_all [HeaderFacts]
  · cases h

theorem typ_heading {v : Bytes} {h : Header} {k : CLCKind} (w : WireHeader v h) (hk : classify v = some k) :
    msgTypeStr h.Typ = clcHeading k := by
  have hf := classify_facts hk
  have ht : ∀ n : Nat, n < 256 → num v 4 0 8 = n → h.Typ = UInt8.ofNat n := fun n _ e => by
    rw [← w.typ] at e; rw [← e, UInt8.ofNat_toNat]
  cases k <;> simp only [HeaderFacts] at hf <;> rw [ht _ (by decide) hf.1] <;> rfl

theorem flag_text {v : Bytes} {h : Header} {k : CLCKind} (w : WireHeader v h) (hk : classify v = some k) :
    h.flagString = if k = .proposalV2 then go! "Pathv2: " ++ pathName (pathv2Of v)
      else flagLabel k ++ (go! ": " ++ dec (num v 7 4 1)) := by
  have hf := classify_facts hk
  have ht : ∀ n : Nat, n < 256 → num v 4 0 8 = n → h.Typ = UInt8.ofNat n := fun n _ e => by
    rw [← w.typ] at e; rw [← e, UInt8.ofNat_toNat]
  have h2 : h.Version = SMCv2 ↔ num v 7 0 4 = 2 := by rw [← w.version, ← UInt8.toNat_inj]; rfl
  have h3 : h.Path = SMCTypeD ↔ pathOf v = 1 := by rw [pathOf, ← w.path, ← UInt8.toNat_inj]; rfl
  rw [pathv2Of, ← w.pathv2, pathName_eq]
  unfold Header.flagString
  unfmt [h2, h3, w.flag, List.append_nil]
  cases k <;> simp only [HeaderFacts] at hf <;> rw [ht _ (by decide) hf.1]
  case proposal => rw [if_pos (by rfl), if_neg hf.2]; rfl
  case proposalV2 => rw [if_pos (by rfl), if_pos hf.2]; rfl
  case acceptSMCR => rfl
  case acceptSMCD => rfl
  case acceptSMCDv2 => rfl
  case confirmSMCR => rw [if_neg (by decide), if_neg (by decide), if_pos (by rfl), if_neg (by omega)]; rfl
  case confirmSMCD => rw [if_neg (by decide), if_neg (by decide), if_pos (by rfl), if_neg (by omega)]; rfl
  case confirmSMCDv2 => rw [if_neg (by decide), if_neg (by decide), if_pos (by rfl), if_pos ⟨hf.2.2, hf.2.1⟩]; rfl
  case decline => rfl
  case declineV2 => rfl

/-- the simp set for texts -/
syntax "clc_text" "[" Lean.Parser.Tactic.simpLemma,* "]" : tactic
macro_rules
  | `(tactic| clc_text [$ls,*]) => `(tactic|
    (simp only [clcString, clcReserved, clcLine, clcItems, headerItems, bodyItems, rdmaItems, dmbItems, visibleItems,
      field, rsvd, reduceCtorEq, ite_false, ite_true,
      List.cons_append, List.nil_append, List.filter_append, List.filter_cons, List.filter_nil, Bool.not_true, Bool.not_false, if_true,
      Bool.false_eq_true, if_false, row_tails, tails_append, tails_cons, tails_nil, Item.text,
      decimal_eq, hexadecimal_eq, octets_eq, hardware_eq, eyeName_eq, List.append_assoc, $ls,*]))

theorem header_string {v : Bytes} {h : Header} {k : CLCKind} (w : WireHeader v h) (hk : classify v = some k) :
    h.string = clcLine k (visibleItems (headerItems v k)) := by
  unfold Header.string
  by_cases hv : k = .proposalV2
  · subst hv
    clc_text [pathOf, ← w.path, pathName_eq]
    unfmt [typ_heading w hk, flag_text w hk, w.eyecatcher, w.typ, w.length, w.version, List.append_nil, if_true]
    rfl
  · clc_text [hv, pathOf, ← w.path, pathName_eq]
    unfmt [typ_heading w hk, flag_text w hk, w.eyecatcher, w.typ, w.length, w.version, List.append_nil, hv, if_false]
    rfl

theorem header_reserved {v : Bytes} {h : Header} {k : CLCKind} (w : WireHeader v h) (hk : classify v = some k) :
    h.reserved = clcLine k (headerItems v k) := by
  have hf := classify_facts hk
  have h1 : h.Typ = TypeProposal ↔ num v 4 0 8 = 1 := by rw [← w.typ, ← UInt8.toNat_inj]; rfl
  have h2 : h.Version = SMCv2 ↔ num v 7 0 4 = 2 := by rw [← w.version, ← UInt8.toNat_inj]; rfl
  unfold Header.reserved
  simp only [h1, h2]
  by_cases hv : k = .proposalV2
  · subst hv
    rw [if_pos (show _ ∧ _ from hf)]
    clc_text [pathOf, ← w.path, pathName_eq]
    unfmt [typ_heading w hk, flag_text w hk, w.eyecatcher, w.typ, w.length, w.version, List.append_nil, if_true]
    rfl
  · rw [if_neg (by cases k <;> simp only [HeaderFacts] at hf <;> simp_all)]
    clc_text [hv, pathOf, ← w.path, pathName_eq]
    unfmt [typ_heading w hk, flag_text w hk, w.eyecatcher, w.typ, w.length, w.version, w.rsv, List.append_nil, hv, if_false]
    rfl

/-! ## Messages of fixed size -/

theorem string_parts (v : Bytes) (k : CLCKind) :
    clcString v k = clcLine k (visibleItems (headerItems v k)) ++ (tails (visibleItems (bodyItems v k)) ++
      (go! ", Trailer: " ++ eyecatcherStr (raw v (declared v - 4) 4))) := by
  simp only [clcString, clcItems, clcLine, visibleItems, headerItems, List.filter_append, List.append_assoc, field,
    List.cons_append, List.filter_cons, Bool.not_false, if_true, row_tails, tails_append, tails_cons, List.filter_nil,
    tails_nil, eyeName_eq, Item.text, List.append_nil]
  rfl

theorem reserved_parts (v : Bytes) (k : CLCKind) :
    clcReserved v k = clcLine k (headerItems v k) ++ (tails (bodyItems v k) ++
      (go! ", Trailer: " ++ eyecatcherStr (raw v (declared v - 4) 4))) := by
  simp only [clcReserved, clcItems, clcLine, headerItems, List.append_assoc, field,
    List.cons_append, row_tails, tails_append, tails_cons,
    tails_nil, eyeName_eq, Item.text, List.append_nil]
  rfl

theorem decline_show {v : Bytes} {m : Decline} (hv : 28 ≤ v.length) (w : WireDecline v m)
    (hk : classify v = some .decline) (ht : m.trailer = raw v (declared v - 4) 4) :
    m.string = clcString v .decline ∧ m.reserved = clcReserved v .decline := by
  rw [string_parts, reserved_parts, ← header_string w.hdr hk, ← header_reserved w.hdr hk]
  clc_text [← w.diagnosis, diagnosis_eq, peerText_eq (raw v 8 8) (by simp [raw]; omega)]
  constructor
  · unfold Decline.string trailerStr
    unfmt [w.peerID, ht, List.append_nil]
    rfl
  · unfold Decline.reserved trailerStr
    unfmt [w.peerID, w.rsv, ht, List.append_nil]
    rfl

theorem declineV2_show {v : Bytes} {m : DeclineV2} (hv : 28 ≤ v.length) (w : WireDeclineV2 v m)
    (hk : classify v = some .declineV2) (ht : m.trailer = raw v (declared v - 4) 4) :
    m.string = clcString v .declineV2 ∧ m.reserved = clcReserved v .declineV2 := by
  have hr : m.rsv = UInt8.ofNat (num v 20 4 4) :: raw v 21 3 := by
    obtain ⟨h1, h2, h3, h4⟩ := w.rsv
    match hm : m.rsv, h1 with
    | [a, b, c, d], _ =>
      rw [hm] at h2 h3 h4
      rw [← h4, ← h3]
      rw [num_byte _ _ _ _ (by simp) (by omega)] at h2 ⊢
      have : ∀ a : UInt8, ofBits (((byteBits a).drop 0).take 4) = 0 → a = UInt8.ofNat (ofBits (((byteBits a).drop 4).take 4)) := by
        byte_decide
      exact congrArg (· :: [b, c, d]) (this a h2)
  rw [string_parts, reserved_parts, ← header_string w.hdr hk, ← header_reserved w.hdr hk]
  clc_text [← w.diagnosis, diagnosis_eq, peerText_eq (raw v 8 8) (by simp [raw]; omega), ← w.osType, osType_eq]
  constructor
  · unfold DeclineV2.string trailerStr
    unfmt [w.peerID, ht, List.append_nil]
    rfl
  · unfold DeclineV2.reserved trailerStr
    unfmt [w.peerID, hr, ht, List.append_nil]
    rfl

theorem smcr_show {v : Bytes} {m : AcceptSMCR} {k : CLCKind} (hv : 68 ≤ v.length) (w : WireSMCR v m)
    (hk : classify v = some k) (hk' : k = .acceptSMCR ∨ k = .confirmSMCR)
    (ht : m.trailer = raw v (declared v - 4) 4) :
    m.string = clcString v k ∧ m.reserved = clcReserved v k := by
  rw [string_parts, reserved_parts, ← header_string w.hdr hk, ← header_reserved w.hdr hk]
  have hs := @num_lt v 50 0 4
  rcases hk' with rfl | rfl <;>
  clc_text [peerText_eq (raw v 8 8) (by simp [raw]; omega), address_eq (raw v 16 16) (by simp [raw]; omega),
    ← w.rmbeSize, ← w.mtu, qpmtu_eq, sizeText_eq m.RMBESize (by rw [w.rmbeSize]; omega)] <;>
  constructor
  all_goals
    first | unfold AcceptSMCR.string trailerStr | unfold AcceptSMCR.reserved trailerStr
    unfmt [w.peerID, w.gid, w.mac, w.qpn, w.rkey, w.rmbeIdx, w.alert, w.rsv, w.vaddr, w.rsv2, w.psn, ht, List.append_nil]
    rfl

theorem smcd_show {v : Bytes} {m : AcceptSMCD} {k : CLCKind} (w : WireSMCD v m)
    (hk : classify v = some k) (hk' : k = .acceptSMCD ∨ k = .confirmSMCD)
    (ht : m.trailer = raw v (declared v - 4) 4) :
    m.string = clcString v k ∧ m.reserved = clcReserved v k := by
  rw [string_parts, reserved_parts, ← header_string w.hdr hk, ← header_reserved w.hdr hk]
  have hs := @num_lt v 25 0 4
  rcases hk' with rfl | rfl <;>
  clc_text [← w.dmbeSize, sizeText_eq m.DMBESize (by rw [w.dmbeSize]; omega)] <;>
  constructor
  all_goals
    first | unfold AcceptSMCD.string trailerStr | unfold AcceptSMCD.reserved trailerStr
    unfmt [w.gid, w.token, w.dmbeIdx, w.rsv, w.rsv2, w.linkID, w.rsv3, ht, List.append_nil]
    rfl

theorem smcdv2_show {v : Bytes} {m : AcceptSMCDv2} {k : CLCKind} (w : WireSMCDv2 v m)
    (hk : classify v = some k) (hk' : k = .acceptSMCDv2 ∨ k = .confirmSMCDv2)
    (ht : m.trailer = raw v (declared v - 4) 4) (hf : declared v < 114 ∨ WireFCE v m) :
    m.string = clcString v k ∧ m.reserved = clcReserved v k := by
  have hlen : m.hdr.Length.toNat = declared v := w.hdr.length
  rw [string_parts, reserved_parts, ← header_string w.hdr hk, ← header_reserved w.hdr hk]
  have hs := @num_lt v 25 0 4
  by_cases hd : declared v < 114
  · rcases hk' with rfl | rfl <;>
    clc_text [← w.dmbeSize, sizeText_eq m.DMBESize (by rw [w.dmbeSize]; omega), plainText_eq, hd] <;>
    constructor
    all_goals
      first | unfold AcceptSMCDv2.string trailerStr AcceptSMCDv2.fceString AcceptSMCDv2FCELen
            | unfold AcceptSMCDv2.reserved trailerStr AcceptSMCDv2.fceReserved AcceptSMCDv2FCELen
      unfmt [w.gid, w.token, w.dmbeIdx, w.rsv, w.rsv2, w.linkID, w.vchid, w.eid, w.rsv3, ht, hlen, hd, if_true, List.append_nil]
      rfl
  · have wf := hf.resolve_left hd
    rcases hk' with rfl | rfl <;>
    clc_text [← w.dmbeSize, sizeText_eq m.DMBESize (by rw [w.dmbeSize]; omega), plainText_eq, hd, ← wf.osType, osType_eq] <;>
    constructor
    all_goals
      first | unfold AcceptSMCDv2.string trailerStr AcceptSMCDv2.fceString AcceptSMCDv2FCELen
            | unfold AcceptSMCDv2.reserved trailerStr AcceptSMCDv2.fceReserved AcceptSMCDv2FCELen
      unfmt [w.gid, w.token, w.dmbeIdx, w.rsv, w.rsv2, w.linkID, w.vchid, w.eid, w.rsv3, ht, hlen, hd, if_false, wf.rsv4, wf.release, wf.rsv5, wf.hostname, List.append_nil]
      rfl

/-! ## Proposals -/

theorem prefixes_show {v : Bytes} {k n : Nat} {ps : List IPv6Prefix} (w : Prefixes v k n [] ps) (hv : k + 17 * n ≤ v.length) :
    prefixesStr ps = tails ((List.range n).map fun i =>
      field (go! "IPv6 Prefix") (prefixText (raw v (k + 17 * i) 16) (num v (k + 17 * i + 16) 0 8))) := by
  unfold prefixesStr tails
  rw [List.flatMap_def, List.flatMap_def, List.map_map]
  congr 1
  have hl : ps.length = n := by simpa using w.length
  apply List.ext_getElem
  · simp [hl]
  · intro i h1 h2
    obtain ⟨q, hq, wq⟩ := w.entry i (by simpa [hl] using h1)
    have hi : i < n := by simpa [hl] using h1
    simp only [List.length_nil, Nat.zero_add] at hq
    have hq' : ps[i]'(by omega) = q := by
      rw [List.getElem?_eq_getElem (by omega)] at hq; exact Option.some.inj hq
    simp only [List.getElem_map, List.getElem_range, Function.comp, hq', field, Item.text]
    rw [prefixText_eq _ (by right; simp only [raw, List.length_take, List.length_drop]; omega)]
    unfold IPv6Prefix.string
    unfmt [wq.pfx, wq.len, List.append_nil]
    rfl

theorem visible_range {n : Nat} {f : Nat → Item} (h : ∀ i, (f i).reserved = false) :
    ((List.range n).map f).filter (!·.reserved) = (List.range n).map f := by
  rw [List.filter_eq_self]
  intro a ha
  obtain ⟨i, -, rfl⟩ := List.mem_map.1 ha
  rw [h i]; rfl

theorem proposal_show {v : Bytes} {m : Proposal} (w : WireProposal v m)
    (wi : WireIPArea v (ipAreaAt v) m) (ws : num v 38 0 16 = 40 → WireProposalSMCD v m)
    (wp : Prefixes v (ipAreaAt v + 8) (num v (ipAreaAt v + 7) 0 8) [] m.IPv6Prefixes)
    (hp : ipAreaAt v + 8 + 17 * num v (ipAreaAt v + 7) 0 8 ≤ v.length)
    (hk : classify v = some .proposal) (ht : m.trailer = raw v (declared v - 4) 4) :
    m.string = clcString v .proposal ∧ m.reserved = clcReserved v .proposal := by
  have h40 : 40 ≤ ipAreaAt v := by unfold ipAreaAt; omega
  have hps := prefixes_show wp hp
  rw [string_parts, reserved_parts, ← header_string w.hdr hk, ← header_reserved w.hdr hk]
  have h4 : prefixText (raw v (ipAreaAt v) 4) (num v (ipAreaAt v + 4) 0 8)
      = ipStr (raw v (ipAreaAt v) 4) ++ (go! "/" ++ dec (num v (ipAreaAt v + 4) 0 8)) :=
    prefixText_eq _ (by left; simp [raw]; omega) _
  by_cases ho : num v 38 0 16 = 40
  · have ws := ws ho
    clc_text [ho, ipItems, h4, peerText_eq (raw v 8 8) (by simp [raw]; omega), address_eq (raw v 16 16) (by simp [raw]; omega)]
    rw [visible_range (fun _ => rfl)]
    constructor
    all_goals
      first | unfold Proposal.string trailerStr SMCDIPAreaOffset | unfold Proposal.reserved trailerStr SMCDIPAreaOffset
      unfmt [w.peerID, w.gid, w.mac, w.offset, ho, if_true, ws.gid, ws.rsv, wi.pfx, wi.pfxLen, wi.rsv2, wi.count, hps, field, ht, List.append_nil]
      rfl
  · clc_text [ho, ipItems, h4, peerText_eq (raw v 8 8) (by simp [raw]; omega), address_eq (raw v 16 16) (by simp [raw]; omega)]
    rw [visible_range (fun _ => rfl)]
    constructor
    all_goals
      first | unfold Proposal.string trailerStr SMCDIPAreaOffset | unfold Proposal.reserved trailerStr SMCDIPAreaOffset
      unfmt [w.peerID, w.gid, w.mac, w.offset, ho, if_false, wi.pfx, wi.pfxLen, wi.rsv2, wi.count, hps, field, ht, List.append_nil]
      rfl

/-! ## Proposals of version 2 -/

theorem eidsStr_tails {n : Nat} {f : Nat → Bytes} (i : Nat) (es : List Bytes) (hi : 0 < i)
    (h : ∀ j, i + j < n → es[j]? = some (f (i + j))) :
    eidsStr n i es = tails ((List.range' i (n - i)).map fun i => field (go! "EID " ++ decimal i) (plainText (f i))) := by
  induction es generalizing i with
  | nil =>
    have : n ≤ i := by
      apply Nat.le_of_not_lt; intro hlt
      have := h 0 (by omega); simp at this
    rw [Nat.sub_eq_zero_of_le this]; rfl
  | cons e es ih =>
    unfold eidsStr
    by_cases hn : i ≥ n
    · rw [if_pos hn, Nat.sub_eq_zero_of_le hn]; rfl
    · have he : e = f i := by have := h 0 (by omega); simpa using this
      rw [if_neg hn, if_pos hi, ih (i + 1) (by omega) (fun j hj => by
        have := h (j + 1) (by omega)
        simpa [Nat.add_assoc, Nat.add_comm 1 j] using this)]
      rw [show n - i = n - (i + 1) + 1 by omega, List.range'_succ, List.map_cons, tails_cons]
      subst he
      simp only [field, Item.text, decimal_eq, plainText_eq]
      unfmt [List.append_nil]

theorem eids_show {n : Nat} {f : Nat → Bytes} (es : List Bytes) (h : ∀ j, j < n → es[j]? = some (f j)) :
    eidsStr n 0 es = row ((List.range n).map fun i => field (go! "EID " ++ decimal i) (plainText (f i))) := by
  cases n with
  | zero => cases es <;> rfl
  | succ n =>
    cases es with
    | nil => have := h 0 (by omega); simp at this
    | cons e es =>
      have he : e = f 0 := by have := h 0 (by omega); simpa using this
      unfold eidsStr
      rw [if_neg (by omega), if_neg (by omega), eidsStr_tails (f := f) 1 es (by omega) (fun j hj => by
        have := h (j + 1) (by omega)
        simpa [Nat.add_comm 1 j] using this)]
      rw [List.range_eq_range', List.range'_succ, List.map_cons, row_tails, Nat.add_sub_cancel]
      subst he
      simp only [field, Item.text, decimal_eq, plainText_eq]
      unfmt [List.append_nil]

theorem gidsStr_tails {v : Bytes} {k n : Nat} (i : Nat) (gs : List GIDEntry) (hi : 0 < i)
    (h : ∀ j, i + j < n → ∃ g, gs[j]? = some g ∧ WireGID v (k + 10 * (i + j)) g) :
    gidsStr n i gs = tails ((List.range' i (n - i)).flatMap fun i =>
      [field (go! "GID " ++ decimal i) (decimal (num v (k + 10 * i) 0 64)),
       field (go! "VCHID " ++ decimal i) (decimal (num v (k + 10 * i + 8) 0 16))]) := by
  induction gs generalizing i with
  | nil =>
    have : n ≤ i := by
      apply Nat.le_of_not_lt; intro hlt
      obtain ⟨g, hg, -⟩ := h 0 (by omega)
      simp at hg
    rw [Nat.sub_eq_zero_of_le this]; rfl
  | cons g gs ih =>
    unfold gidsStr
    by_cases hn : i ≥ n
    · rw [if_pos hn, Nat.sub_eq_zero_of_le hn]; rfl
    · obtain ⟨g', hg, w⟩ := h 0 (by omega)
      obtain rfl : g = g' := by simpa using hg
      rw [Nat.add_zero] at w
      rw [if_neg hn, if_pos hi, ih (i + 1) (by omega) (fun j hj => by
        obtain ⟨g', hg, w⟩ := h (j + 1) (by omega)
        rw [show i + (j + 1) = i + 1 + j by omega] at w
        exact ⟨g', by simpa using hg, w⟩)]
      rw [show n - i = n - (i + 1) + 1 by omega, List.range'_succ, List.flatMap_cons, tails_append, tails_cons, tails_cons, tails_nil]
      simp only [field, Item.text, decimal_eq]
      unfmt [w.gid, w.vchid, List.append_nil]
      rfl

theorem gids_show {v : Bytes} {k n : Nat} (gs : List GIDEntry)
    (h : ∀ j, j < n → ∃ g, gs[j]? = some g ∧ WireGID v (k + 10 * j) g) :
    gidsStr n 0 gs = row ((List.range n).flatMap fun i =>
      [field (go! "GID " ++ decimal i) (decimal (num v (k + 10 * i) 0 64)),
       field (go! "VCHID " ++ decimal i) (decimal (num v (k + 10 * i + 8) 0 16))]) := by
  cases n with
  | zero => cases gs <;> rfl
  | succ n =>
    cases gs with
    | nil => obtain ⟨g, hg, -⟩ := h 0 (by omega); simp at hg
    | cons g gs =>
      obtain ⟨g', hg, w⟩ := h 0 (by omega)
      obtain rfl : g = g' := by simpa using hg
      unfold gidsStr
      rw [if_neg (by omega), if_neg (by omega), gidsStr_tails (v := v) (k := k) 1 gs (by omega) (fun j hj => by
        obtain ⟨g', hg, w⟩ := h (j + 1) (by omega)
        rw [show j + 1 = 1 + j by omega] at w
        exact ⟨g', by simpa using hg, w⟩)]
      rw [List.range_eq_range', List.range'_succ, List.flatMap_cons, Nat.add_sub_cancel, List.cons_append, row_tails,
        tails_append, tails_cons, tails_nil]
      simp only [field, Item.text, decimal_eq]
      unfmt [w.gid, w.vchid, List.append_nil]
      rfl

theorem ipInfo_show {v : Bytes} {m : ProposalV2} (hh : WireHeader v m.hdr) (w : HasIP v → WireV2IP v 80 m)
    (wp : HasIP v → Prefixes v 88 (num v 87 0 8) [] m.IPv6Prefixes)
    (hp : HasIP v → 88 + 17 * num v 87 0 8 ≤ v.length) :
    withComma m.ipInfoString = tails (visibleItems (if HasIP v then ipItems v 80 else [])) ∧
    withComma m.ipInfoReserved = tails (if HasIP v then ipItems v 80 else []) := by
  have hn : m.hdr.Path = SMCTypeN ↔ ¬ HasIP v := by
    unfold HasIP; rw [Decidable.not_not, pathOf, ← hh.path, ← UInt8.toNat_inj]; rfl
  unfold ProposalV2.ipInfoString ProposalV2.ipInfoReserved
  simp only [hn]
  by_cases h : HasIP v
  · have w := w h; have hp := hp h
    have hps := prefixes_show (wp h) hp
    have h4 : prefixText (raw v 80 4) (num v (80 + 4) 0 8) = ipStr (raw v 80 4) ++ (go! "/" ++ dec (num v (80 + 4) 0 8)) :=
      prefixText_eq _ (by left; simp [raw]; omega) _
    rw [if_neg (fun c => c h), if_pos h, if_neg (fun c => c h)]
    unfold ProposalV2.ipV4String ProposalV2.ipV6String
    clc_text [ipItems, h4, Nat.reduceAdd]
    rw [visible_range (fun _ => rfl)]
    unfmt [w.pfx, w.pfxLen, w.rsv2, w.count, hps, field, List.append_nil]
    exact ⟨rfl, rfl⟩
  · rw [if_pos h, if_neg h, if_pos h]; exact ⟨rfl, rfl⟩

theorem ext_show {v : Bytes} {m : ProposalV2} (hh : WireHeader v m.hdr) (w : HasExt v → WireV2Ext v (extAt v) m)
    (we : HasExt v → ∀ i, i < num v (extAt v) 0 8 → m.EIDArea[i]? = some (raw v (extAt v + 40 + 32 * i) 32)) :
    withComma m.propV2ExtString = tails (visibleItems (if HasExt v then extItems v (extAt v) else [])) ∧
    withComma m.propV2ExtReserved = tails (if HasExt v then extItems v (extAt v) else []) := by
  have hn : m.hdr.Pathv2 = SMCTypeN ↔ ¬ HasExt v := by
    unfold HasExt; rw [Decidable.not_not, pathv2Of, ← hh.pathv2, ← UInt8.toNat_inj]; rfl
  unfold ProposalV2.propV2ExtString ProposalV2.propV2ExtReserved
  simp only [hn]
  by_cases h : HasExt v
  · have w := w h
    rw [if_neg (fun c => c h), if_pos h, if_neg (fun c => c h)]
    unfold ProposalV2.propV2ExtEIDString
    rw [w.eidNumber, eids_show (f := fun i => raw v (extAt v + 40 + 32 * i) 32) m.EIDArea (we h)]
    clc_text [extItems]
    unfmt [w.gidNumber, w.rsv3, w.release, w.rsv4, w.seidInd, w.rsv5, w.smcdOffset, w.rsv6, List.append_nil]
    exact ⟨rfl, rfl⟩
  · rw [if_pos h, if_neg h, if_pos h]; exact ⟨rfl, rfl⟩

theorem smcdExt_show {v : Bytes} {m : ProposalV2} (hh : WireHeader v m.hdr) (hx : HasSMCD v → m.GIDNumber.toNat = num v (extAt v + 1) 0 8)
    (w : HasSMCD v → WireV2SMCD v (smcdAt v) m)
    (wg : HasSMCD v → ∀ i, i < num v (extAt v + 1) 0 8 → ∃ g, m.GIDArea[i]? = some g ∧ WireGID v (smcdAt v + 48 + 10 * i) g) :
    withComma m.smcdV2ExtString = tails (visibleItems (if HasSMCD v then gidItems v (smcdAt v) (num v (extAt v + 1) 0 8) else [])) ∧
    withComma m.smcdV2ExtReserved = tails (if HasSMCD v then gidItems v (smcdAt v) (num v (extAt v + 1) 0 8) else []) := by
  have hn : (m.hdr.Pathv2 ≠ SMCTypeD ∧ m.hdr.Pathv2 ≠ SMCTypeB) ↔ ¬ HasSMCD v := by
    unfold HasSMCD; rw [not_or, pathv2Of, ← hh.pathv2, ne_eq, ne_eq, ← UInt8.toNat_inj, ← UInt8.toNat_inj]; rfl
  unfold ProposalV2.smcdV2ExtString ProposalV2.smcdV2ExtReserved
  simp only [hn]
  by_cases h : HasSMCD v
  · have w := w h
    rw [if_neg (fun c => c h), if_pos h, if_neg (fun c => c h)]
    unfold ProposalV2.smcdV2ExtGIDString
    rw [hx h, gids_show (v := v) (k := smcdAt v + 48) m.GIDArea (wg h)]
    clc_text [gidItems]
    unfmt [w.seid, w.rsv7, plainText_eq, List.append_nil]
    exact ⟨rfl, rfl⟩
  · rw [if_pos h, if_neg h, if_pos h]; exact ⟨rfl, rfl⟩

theorem proposalV2_show {v : Bytes} {m : ProposalV2} (hv : 84 ≤ v.length) (w : WireV2 v m)
    (h1 : withComma m.ipInfoString = tails (visibleItems (if HasIP v then ipItems v 80 else [])) ∧
      withComma m.ipInfoReserved = tails (if HasIP v then ipItems v 80 else []))
    (h2 : withComma m.propV2ExtString = tails (visibleItems (if HasExt v then extItems v (extAt v) else [])) ∧
      withComma m.propV2ExtReserved = tails (if HasExt v then extItems v (extAt v) else []))
    (h3 : withComma m.smcdV2ExtString
        = tails (visibleItems (if HasSMCD v then gidItems v (smcdAt v) (num v (extAt v + 1) 0 8) else [])) ∧
      withComma m.smcdV2ExtReserved = tails (if HasSMCD v then gidItems v (smcdAt v) (num v (extAt v + 1) 0 8) else []))
    (hk : classify v = some .proposalV2) (ht : m.trailer = raw v (declared v - 4) 4) :
    m.string = clcString v .proposalV2 ∧ m.reserved = clcReserved v .proposalV2 := by
  rw [string_parts, reserved_parts, ← header_string w.hdr hk, ← header_reserved w.hdr hk]
  unfold visibleItems at h1 h2 h3
  clc_text [peerText_eq (raw v 8 8) (by simp [raw]; omega), address_eq (raw v 16 16) (by simp [raw]; omega)]
  rw [← h1.1, ← h1.2, ← h2.1, ← h2.2, ← h3.1, ← h3.2]
  constructor
  · unfold ProposalV2.string trailerStr
    unfmt [w.peerID, w.gid, w.mac, w.offset, w.smcdGID, w.vchid, w.v2Offset, ht, List.append_nil]
    rfl
  · unfold ProposalV2.reserved trailerStr
    unfmt [w.peerID, w.gid, w.mac, w.offset, w.smcdGID, w.vchid, w.v2Offset, w.rsv, ht, List.append_nil]
    rfl

/-! ## C78, C79 -/

/-- the SMC-Dv2 messages whose first contact extension is not decoded (see C57) -/
def LongFCE (v : Bytes) : CLCKind → Prop
  | .acceptSMCDv2 | .confirmSMCDv2 => 114 < declared v
  | _ => False

theorem new_fresh {s : Slice} (hs : 8 ≤ s.len) {l : List Bytes} {m : Message} {n : UInt16}
    (h : newMessage s = .ret l (some m, n)) : ∃ k, classify s.vis = some k ∧ m = freshCLC k := by
  obtain ⟨l2, n2, h2⟩ := C29_newMessage_kind s hs
  rw [h] at h2
  obtain ⟨-, h3⟩ := Go.ret.inj h2
  simp only [Prod.mk.injEq] at h3
  cases hk : classify s.vis with
  | none => rw [hk] at h3; cases h3.1
  | some k => rw [hk] at h3; exact ⟨k, rfl, Option.some.inj h3.1⟩

theorem parsed_show (s : Slice) (hs : 8 ≤ s.len) (k : CLCKind) (hk : classify s.vis = some k)
    (hL : declared s.vis = s.len) (m : Message) (h : (freshCLC k).parse s = .ret [] m) (hx : ¬ LongFCE s.vis k) :
    m.string = clcString s.vis k ∧ m.reserved = clcReserved s.vis k := by
  have hsz := sized_fresh k
  obtain ⟨ha, hd, ht, -⟩ := C48_silence (freshCLC k) hsz s hs (by omega) m h
  have ht : m.trailer = raw s.vis (declared s.vis - 4) 4 :=
    (C44_trailer_partial (freshCLC k) hsz s hs hL ha [] m h).1
  have hl : declared s.vis = s.vis.length := hL
  have hkk : clcKind (freshCLC k) = k := by cases k <;> rfl
  rw [hkk] at ha hd
  have hmin := ha.1
  cases k <;> simp only [minLen] at hmin
  case decline =>
    obtain ⟨l0, m0, h0, w, -⟩ := C34_decline_wire {} hsz s (by omega) hmin
    simp only [freshCLC, Message.parse, h0, map_ret] at h
    cases h
    exact decline_show (by omega) w hk ht
  case declineV2 =>
    obtain ⟨l0, m0, h0, w⟩ := C34_declineV2_wire {} hsz s (by omega) hmin
    simp only [freshCLC, Message.parse, h0, map_ret] at h
    cases h
    exact declineV2_show (by omega) w hk ht
  case acceptSMCR =>
    obtain ⟨l0, m0, h0, w⟩ := C35_smcr_wire {} hsz s (by omega) hmin
    simp only [freshCLC, Message.parse, h0, map_ret] at h
    cases h
    exact smcr_show (by omega) w hk (.inl rfl) ht
  case confirmSMCR =>
    obtain ⟨l0, m0, h0, w⟩ := C35_smcr_wire {} hsz s (by omega) hmin
    simp only [freshCLC, Message.parse, h0, map_ret] at h
    cases h
    exact smcr_show (by omega) w hk (.inr rfl) ht
  case acceptSMCD =>
    obtain ⟨l0, m0, h0, w⟩ := C36_smcd_wire {} hsz s (by omega) hmin
    simp only [freshCLC, Message.parse, h0, map_ret] at h
    cases h
    exact smcd_show w hk (.inl rfl) ht
  case confirmSMCD =>
    obtain ⟨l0, m0, h0, w⟩ := C36_smcd_wire {} hsz s (by omega) hmin
    simp only [freshCLC, Message.parse, h0, map_ret] at h
    cases h
    exact smcd_show w hk (.inr rfl) ht
  case acceptSMCDv2 =>
    obtain ⟨l0, m0, h0, w, wf, -⟩ := C37_smcdv2_wire {} hsz s (by omega) hmin (by omega)
    simp only [freshCLC, Message.parse, h0, map_ret] at h
    cases h
    have hx : ¬ 114 < declared s.vis := hx
    refine smcdv2_show w hk (.inl rfl) ht ?_
    rcases Nat.lt_or_ge (declared s.vis) 114 with hd | hd
    · exact .inl hd
    · exact .inr (wf (by omega))
  case confirmSMCDv2 =>
    obtain ⟨l0, m0, h0, w, wf, -⟩ := C37_smcdv2_wire {} hsz s (by omega) hmin (by omega)
    simp only [freshCLC, Message.parse, h0, map_ret] at h
    cases h
    have hx : ¬ 114 < declared s.vis := hx
    refine smcdv2_show w hk (.inr rfl) ht ?_
    rcases Nat.lt_or_ge (declared s.vis) 114 with hd | hd
    · exact .inl hd
    · exact .inr (wf (by omega))
  case proposal =>
    have hin : ipAreaAt s.vis + 12 ≤ declared s.vis := ha.2
    obtain ⟨l0, m0, h0, w, wi, ws, -⟩ := C38_proposal_wire {} hsz s hmin (by omega) hin
    obtain ⟨l1, m1, h1, wp, -⟩ := C41_proposal_prefixes {} hsz s hmin (by omega) hin
    rw [h0] at h1; cases h1
    simp only [freshCLC, Message.parse, h0, map_ret] at h
    cases h
    have hd' : entries _ _ _ _ = _ := hd
    rw [hd'] at wp
    refine proposal_show w wi ws wp ?_ hk ht
    unfold entries at hd'
    omega
  case proposalV2 =>
    obtain ⟨r1, r2, r3⟩ := ha.2
    obtain ⟨d1, d2, d3⟩ := hd
    cases h0 : ProposalV2.parse {} s with
    | panic l => simp only [freshCLC, Message.parse, h0] at h; cases h
    | ret l0 m0 =>
      simp only [freshCLC, Message.parse, h0, map_ret] at h
      cases h
      have hxe : HasSMCD s.vis → HasExt s.vis := by rintro (h3 | h3) <;> (unfold HasExt; omega)
      obtain ⟨w, wi, -, we, -, wg, -⟩ := C39_proposalV2_wire {} hsz s hmin (by omega) h0
      have hent : ∀ L k w n, 0 < w → entries L k w n = n → 0 < n → k + w * n + 4 ≤ L := by
        intro L k w n hw h hn
        unfold entries at h
        have : n ≤ (L - 4 - k) / w := by omega
        have := (Nat.le_div_iff_mul_le hw).1 this
        rw [Nat.mul_comm] at this
        have : 0 < w * n := Nat.mul_pos hw hn
        omega
      refine proposalV2_show (by omega) w (ipInfo_show w.hdr (fun c => wi ⟨c, r1⟩) ?_ ?_)
        (ext_show w.hdr (fun c => we ⟨r1, c, r2⟩) ?_)
        (smcdExt_show w.hdr (fun c => (we ⟨r1, hxe c, r2⟩).gidNumber) (fun c => wg ⟨r1, r2, c, r3⟩) ?_) hk ht
      · intro c
        have := (C41_proposalV2_prefixes {} hsz s hmin (by omega) h0 c r1).1
        rw [d1 c] at this; exact this
      · intro c
        have h88 := r1 c
        rcases Nat.eq_zero_or_pos (num s.vis 87 0 8) with hz | hz
        · rw [hz]; omega
        · have := hent _ _ _ _ (by omega) (d1 c) hz
          omega
      · intro c i hi
        have := (C42_eids {} hsz s hmin (by omega) h0 r1 c r2).2.1
        rw [d2 c] at this; exact this.entry i hi
      · intro c i hi
        have := (C42_gids {} hsz s hmin (by omega) h0 r1 r2 c r3).2.1
        rw [d3 c] at this; exact this.entry i hi

/-- C78 but for SMC-Dv2 messages of more than 114 bytes: `String()` of a message that was parsed
without an error from a buffer that holds it is the line with all non-reserved fields, in wire
order, with their labels. -/
theorem C78_string_partial (s : Slice) (hs : 8 ≤ s.len) (l : List Bytes) (m : Message) (n : UInt16)
    (hn : newMessage s = .ret l (some m, n)) (hL : declared s.vis = s.len) (m' : Message) (h : m.parse s = .ret [] m')
    (hx : ¬ LongFCE s.vis (clcKind m)) : m'.string = clcString s.vis (clcKind m) := by
  obtain ⟨k, hk, rfl⟩ := new_fresh hs hn
  have hkk : clcKind (freshCLC k) = k := by cases k <;> rfl
  rw [hkk] at hx ⊢
  exact (parsed_show s hs k hk hL m' h hx).1

/-- C79 but for SMC-Dv2 messages of more than 114 bytes: `Reserved()` shows all fields. -/
theorem C79_reserved_partial (s : Slice) (hs : 8 ≤ s.len) (l : List Bytes) (m : Message) (n : UInt16)
    (hn : newMessage s = .ret l (some m, n)) (hL : declared s.vis = s.len) (m' : Message) (h : m.parse s = .ret [] m')
    (hx : ¬ LongFCE s.vis (clcKind m)) : m'.reserved = clcReserved s.vis (clcKind m) := by
  obtain ⟨k, hk, rfl⟩ := new_fresh hs hn
  have hkk : clcKind (freshCLC k) = k := by cases k <;> rfl
  rw [hkk] at hx ⊢
  exact (parsed_show s hs k hk hL m' h hx).2

/-- a Proposal of version 2 with one IPv6 prefix, one EID and one GID, reserved bits set -/
def fullProposal : Bytes :=
  hex! "e2d4c3d90100ef2f0001020304050607fe8000000000000000000000000000010a0b0c0d0e0f0028000000000000000900030019" ++
    hex! "01" ++ zeros 27 ++ hex! "0a000000 08 0200 01 fd000000000000000000000000000000 40" ++
    hex! "01 01 03 15 0400 0040" ++ zeros 32 ++ go! "EID" ++ zeros 29 ++ go! "SEID" ++ zeros 28 ++ zeros 15 ++ hex! "07" ++
    hex! "0000000000000005 0006" ++ hex! "e2d4c3d9"

/-- the hypotheses hold of this message, and this is what is printed -/
example : (∃ m n, newMessage ⟨fullProposal, []⟩ = .ret [] (some m, n) ∧ declared fullProposal = fullProposal.length ∧
      clcKind m = .proposalV2 ∧ ∃ m', m.parse ⟨fullProposal, []⟩ = .ret [] m') ∧
    clcString fullProposal .proposalV2 = go! "Proposal: Eyecatcher: SMC-R, Type: 1 (Proposal), Length: 239, Version: 2, Pathv2: SMC-R + SMC-D, Path: SMC-R + SMC-D, Peer ID: 1@02:03:04:05:06:07, SMC-R GID: fe80::1, RoCE MAC: 0a:0b:0c:0d:0e:0f, IP Area Offset: 40, SMC-D GID: 9, ISMv2 VCHID: 3, SMCv2 Extension Offset: 25, IPv4 Prefix: 10.0.0.0/8, IPv6 Prefix Count: 1, IPv6 Prefix: fd00::/64, EID Number: 1, GID Number: 1, Release: 1, SEID Indicator: 1, SMC-Dv2 Extension Offset: 64, EID Area: [EID 0: EID], SEID: SEID, GID Area: [GID 0: 5, VCHID 0: 6], Trailer: SMC-R" ∧
    clcReserved fullProposal .proposalV2 = go! "Proposal: Eyecatcher: SMC-R, Type: 1 (Proposal), Length: 239, Version: 2, Pathv2: SMC-R + SMC-D, Path: SMC-R + SMC-D, Peer ID: 1@02:03:04:05:06:07, SMC-R GID: fe80::1, RoCE MAC: 0a:0b:0c:0d:0e:0f, IP Area Offset: 40, SMC-D GID: 9, ISMv2 VCHID: 3, SMCv2 Extension Offset: 25, Reserved: 0x01000000000000000000000000000000000000000000000000000000, IPv4 Prefix: 10.0.0.0/8, Reserved: 0x0200, IPv6 Prefix Count: 1, IPv6 Prefix: fd00::/64, EID Number: 1, GID Number: 1, Reserved: 0x3, Release: 1, Reserved: 0x2, SEID Indicator: 1, Reserved: 0x0400, SMC-Dv2 Extension Offset: 64, Reserved: 0x0000000000000000000000000000000000000000000000000000000000000000, EID Area: [EID 0: EID], SEID: SEID, Reserved: 0x00000000000000000000000000000007, GID Area: [GID 0: 5, VCHID 0: 6], Trailer: SMC-R" := by
  refine ⟨⟨.proposalV2 {}, 239, by decide +kernel, by decide +kernel, rfl, ?_⟩, by decide +kernel, by decide +kernel⟩
  have h : ((Message.proposalV2 {}).parse ⟨fullProposal, []⟩).logOf = [] ∧
    ((Message.proposalV2 {}).parse ⟨fullProposal, []⟩).val?.isSome = true := by decide +kernel
  cases hm : (Message.proposalV2 {}).parse ⟨fullProposal, []⟩ with
  | panic l => rw [hm] at h; exact absurd h.2 (by simp [Go.val?])
  | ret l m' => rw [hm] at h; exact ⟨m', by rw [show l = [] from h.1]⟩

/-- C78 and C79 are false: a complete Accept of 118 bytes is parsed without an error, but its texts
differ from the ones for its bytes. -/
theorem C78_string_false :
    declared longAccept = longAccept.length ∧ newMessage ⟨longAccept, []⟩ = .ret [] (some (.acceptSMCDv2 {}), 118) ∧
    ((Message.acceptSMCDv2 {}).parse ⟨longAccept, []⟩).logOf = [] ∧
    ((Message.acceptSMCDv2 {}).parse ⟨longAccept, []⟩).val?.map (·.string) ≠ some (clcString longAccept .acceptSMCDv2) := by
  decide +kernel

theorem C79_reserved_false :
    declared longAccept = longAccept.length ∧ newMessage ⟨longAccept, []⟩ = .ret [] (some (.acceptSMCDv2 {}), 118) ∧
    ((Message.acceptSMCDv2 {}).parse ⟨longAccept, []⟩).logOf = [] ∧
    ((Message.acceptSMCDv2 {}).parse ⟨longAccept, []⟩).val?.map (·.reserved) ≠ some (clcReserved longAccept .acceptSMCDv2) := by
  decide +kernel

end SMC.Props
