import Verif.Spec.LLCShow
import Verif.Lemmas.Show
import Verif.Props.LLCWire
import Verif.Props.LLCText
import Verif.Props.LLCParse
/-!
# C75, C76: what the texts of LLC and CDC messages are
-/

namespace SMC.Props

open SMC Spec LLC

set_option maxRecDepth 20000

/-- printing functions of the specification as those of the model -/
syntax "show_text" "[" Lean.Parser.Tactic.simpLemma,* "]" : tactic
macro_rules
  | `(tactic| show_text [$ls,*]) => `(tactic|
    (simp only [llcString, llcReserved, llcLine, llcHeading, llcItems, headItems, line, visibleItems, withoutNinth, field,
      rsvd, reduceCtorEq, ite_false,
      List.cons_append, List.nil_append, List.filter_cons, List.filter_nil, Bool.not_true, Bool.not_false, if_true,
      Bool.false_eq_true, if_false, List.eraseIdx_cons_succ, List.eraseIdx_cons_zero, row_cons, row_one, Item.text,
      decimal_eq, hexadecimal_eq, binary_eq, truth_eq, octets_eq, hardware_eq, List.append_assoc, $ls,*]))

theorem lookup_ne {α β : Type} [BEq α] [LawfulBEq α] {a k : α} {b : β} {l : List (α × β)} (h : a ≠ k) :
    List.lookup a ((k, b) :: l) = List.lookup a l := by
  simp [List.lookup, beq_false_of_ne h]

theorem addLinkRsn_eq (r : UInt8) : addLinkRsnStr r = named addLinkReasons (go! "unknown") r.toNat := by
  unfold addLinkRsnStr named
  unfmt [decimal_eq]
  by_cases h1 : r = 1
  · subst h1; rfl
  by_cases h2 : r = 2
  · subst h2; rfl
  have ne : ∀ k : UInt8, r ≠ k → r.toNat ≠ k.toNat := fun k h e => h (UInt8.toNat_inj.1 e)
  rw [if_neg h1, if_neg h2, addLinkReasons, lookup_ne (show r.toNat ≠ 1 from ne 1 h1), lookup_ne (show r.toNat ≠ 2 from ne 2 h2)]
  rfl

theorem mtu_eq (r : UInt8) : qpmtuStr r = named mtus (go! "reserved") r.toNat := by
  unfold qpmtuStr named
  unfmt [decimal_eq]
  by_cases h1 : r = 1
  · subst h1; rfl
  by_cases h2 : r = 2
  · subst h2; rfl
  by_cases h3 : r = 3
  · subst h3; rfl
  by_cases h4 : r = 4
  · subst h4; rfl
  by_cases h5 : r = 5
  · subst h5; rfl
  have ne : ∀ k : UInt8, r ≠ k → r.toNat ≠ k.toNat := fun k h e => h (UInt8.toNat_inj.1 e)
  rw [if_neg h1, if_neg h2, if_neg h3, if_neg h4, if_neg h5, mtus, lookup_ne (show r.toNat ≠ 1 from ne 1 h1), lookup_ne (show r.toNat ≠ 2 from ne 2 h2),
    lookup_ne (show r.toNat ≠ 3 from ne 3 h3), lookup_ne (show r.toNat ≠ 4 from ne 4 h4), lookup_ne (show r.toNat ≠ 5 from ne 5 h5)]
  rfl

theorem delLinkRsn_eq (r : UInt32) : delLinkRsnStr r = named deleteLinkReasons (go! "unknown") r.toNat := by
  unfold delLinkRsnStr named
  unfmt [decimal_eq]
  by_cases h1 : r = 0x10000
  · subst h1; rfl
  by_cases h2 : r = 0x20000
  · subst h2; rfl
  by_cases h3 : r = 0x30000
  · subst h3; rfl
  by_cases h4 : r = 0x40000
  · subst h4; rfl
  by_cases h5 : r = 0x50000
  · subst h5; rfl
  by_cases h6 : r = 0x100000
  · subst h6; rfl
  have ne : ∀ k : UInt32, r ≠ k → r.toNat ≠ k.toNat := fun k h e => h (UInt32.toNat_inj.1 e)
  rw [if_neg h1, if_neg h2, if_neg h3, if_neg h4, if_neg h5, if_neg h6, deleteLinkReasons, lookup_ne (show r.toNat ≠ 0x10000 from ne 0x10000 h1),
    lookup_ne (show r.toNat ≠ 0x20000 from ne 0x20000 h2), lookup_ne (show r.toNat ≠ 0x30000 from ne 0x30000 h3), lookup_ne (show r.toNat ≠ 0x40000 from ne 0x40000 h4), lookup_ne (show r.toNat ≠ 0x50000 from ne 0x50000 h5), lookup_ne (show r.toNat ≠ 0x100000 from ne 0x100000 h6)]
  rfl

theorem pair_show {bs : Bytes} {k : Nat} {r : RKeyPair} (w : WireRKeyPair bs k r) : r.string = pairText bs k := by
  show_text [pairText, bracketed]
  unfold RKeyPair.string
  unfmt [w.ref, w.key, w.addr, List.append_nil]
  rfl

theorem rmb_show {bs : Bytes} {k : Nat} {r : RMBSpec} (w : WireRMBSpec bs k r) : r.string = rmbText bs k := by
  show_text [rmbText, bracketed]
  unfold RMBSpec.string
  unfmt [w.link, w.key, w.addr, List.append_nil]
  rfl

theorem confirmLink_string {bs : Bytes} {m : ConfirmLink} (h : bs.length = 44) (w : WireConfirmLink bs m) :
    m.string = llcString bs .confirmLink := by
  show_text [address_eq (raw bs 10 16) (by simp [raw]; omega)]
  unfold ConfirmLink.string
  unfmt [w.base.typ, w.base.length, w.res1, w.reply, w.res2, w.mac, w.gid, w.qp, w.link, w.userID, w.maxLinks, w.res3, List.append_nil]
  rfl

theorem confirmLink_reserved {bs : Bytes} {m : ConfirmLink} (h : bs.length = 44) (w : WireConfirmLink bs m) :
    m.reserved = llcReserved bs .confirmLink := by
  show_text [address_eq (raw bs 10 16) (by simp [raw]; omega)]
  unfold ConfirmLink.reserved
  unfmt [w.base.typ, w.base.length, w.res1, w.reply, w.res2, w.mac, w.gid, w.qp, w.link, w.userID, w.maxLinks, w.res3, List.append_nil]
  rfl

theorem addLink_string {bs : Bytes} {m : AddLink} (h : bs.length = 44) (w : WireAddLink bs [0, 0] m) :
    m.string = llcString bs .addLink := by
  show_text [address_eq (raw bs 12 16) (by simp [raw]; omega), ← w.rsnCode, ← w.mtu, ← addLinkRsn_eq, ← mtu_eq]
  unfold AddLink.string
  unfmt [w.base.typ, w.base.length, w.res1, w.reply, w.reject, w.res2, w.mac, w.gid, w.qp, w.link, w.res3, w.psn, w.res4, List.append_nil]
  rfl

theorem addLink_reserved {bs : Bytes} {m : AddLink} (h : bs.length = 44) (w : WireAddLink bs [0, 0] m) :
    m.reserved = llcLine .addLink (withoutNinth (llcItems bs .addLink)) := by
  show_text [address_eq (raw bs 12 16) (by simp [raw]; omega), ← w.rsnCode, ← w.mtu, ← addLinkRsn_eq, ← mtu_eq]
  unfold AddLink.reserved
  unfmt [w.base.typ, w.base.length, w.res1, w.reply, w.reject, w.res2, w.mac, w.gid, w.qp, w.link, w.res3, w.psn, w.res4, List.append_nil]
  rfl

theorem addLinkCont_string {bs : Bytes} {m : AddLinkCont} (w : WireAddLinkCont bs m) :
    m.string = llcLine .addLinkCont (visibleItems (withoutNinth (llcItems bs .addLinkCont))) := by
  obtain ⟨r₁, r₂, hr, -, w₂⟩ := w.pairs
  show_text []
  unfold AddLinkCont.string
  unfmt [w.base.typ, w.base.length, w.res1, w.reply, w.res2, w.link, w.numRTokens, w.res3, w.res4, hr, pairsStr, pairsRes, pair_show w₂, List.append_nil]
  rfl

theorem addLinkCont_reserved {bs : Bytes} {m : AddLinkCont} (w : WireAddLinkCont bs m) :
    m.reserved = llcLine .addLinkCont (withoutNinth (llcItems bs .addLinkCont)) := by
  obtain ⟨r₁, r₂, hr, -, w₂⟩ := w.pairs
  show_text []
  unfold AddLinkCont.reserved
  unfmt [w.base.typ, w.base.length, w.res1, w.reply, w.res2, w.link, w.numRTokens, w.res3, w.res4, hr, pairsStr, pairsRes, pair_show w₂, List.append_nil]
  rfl

theorem deleteLink_string {bs : Bytes} {m : DeleteLink} (w : WireDeleteLink bs m) :
    m.string = llcString bs .deleteLink := by
  show_text [← w.rsnCode, ← delLinkRsn_eq]
  unfold DeleteLink.string
  unfmt [w.base.typ, w.base.length, w.res1, w.reply, w.all, w.orderly, w.res2, w.link, w.res3, List.append_nil]
  rfl

theorem deleteLink_reserved {bs : Bytes} {m : DeleteLink} (w : WireDeleteLink bs m) :
    m.reserved = llcReserved bs .deleteLink := by
  show_text [← w.rsnCode, ← delLinkRsn_eq]
  unfold DeleteLink.reserved
  unfmt [w.base.typ, w.base.length, w.res1, w.reply, w.all, w.orderly, w.res2, w.link, w.res3, List.append_nil]
  rfl

theorem confirmRKey_string {bs : Bytes} {m : ConfirmRKey} (w : WireConfirmRKey bs m) :
    m.string = llcString bs .confirmRKey := by
  obtain ⟨r₁, r₂, hr, w₁, w₂⟩ := w.rmbs
  show_text []
  unfold ConfirmRKey.string
  unfmt [w.base.typ, w.base.length, w.res1, w.reply, w.res2, w.reject, w.retry, w.res3, w.numTkns, w.rkey, w.vaddr, w.res4, hr, rmbsStr, rmbsRes, rmb_show w₁, rmb_show w₂, List.append_nil]
  rfl

theorem confirmRKey_reserved {bs : Bytes} {m : ConfirmRKey} (w : WireConfirmRKey bs m) :
    m.reserved = llcReserved bs .confirmRKey := by
  obtain ⟨r₁, r₂, hr, w₁, w₂⟩ := w.rmbs
  show_text []
  unfold ConfirmRKey.reserved
  unfmt [w.base.typ, w.base.length, w.res1, w.reply, w.res2, w.reject, w.retry, w.res3, w.numTkns, w.rkey, w.vaddr, w.res4, hr, rmbsStr, rmbsRes, rmb_show w₁, rmb_show w₂, List.append_nil]
  rfl

theorem confirmRKeyCont_string {bs : Bytes} {m : ConfirmRKeyCont} (w : WireConfirmRKeyCont bs m) :
    m.string = llcString bs .confirmRKeyCont := by
  obtain ⟨r₁, r₂, r₃, hr, w₁, w₂, w₃⟩ := w.rmbs
  show_text []
  unfold ConfirmRKeyCont.string
  unfmt [w.base.typ, w.base.length, w.res1, w.reply, w.res2, w.reject, w.res3, w.numTkns, hr, rmbsStr, rmbsRes, rmb_show w₁, rmb_show w₂, rmb_show w₃, List.append_nil]
  rfl

theorem confirmRKeyCont_reserved {bs : Bytes} {m : ConfirmRKeyCont} (w : WireConfirmRKeyCont bs m) (w4 : m.res4.toNat = num bs 44 0 8) :
    m.reserved = llcReserved bs .confirmRKeyCont := by
  obtain ⟨r₁, r₂, r₃, hr, w₁, w₂, w₃⟩ := w.rmbs
  show_text []
  unfold ConfirmRKeyCont.reserved
  unfmt [w.base.typ, w.base.length, w.res1, w.reply, w.res2, w.reject, w.res3, w.numTkns, w4, hr, rmbsStr, rmbsRes, rmb_show w₁, rmb_show w₂, rmb_show w₃, List.append_nil]
  rfl

theorem range8 : List.range 8 = [0, 1, 2, 3, 4, 5, 6, 7] := rfl

theorem _root_.SMC.Spec.WireDeleteRKey.rkeys_list {bs : Bytes} {m : DeleteRKey} (w : WireDeleteRKey bs m) :
    ∃ k₀ k₁ k₂ k₃ k₄ k₅ k₆ k₇ : UInt32, m.rkeys = [k₀, k₁, k₂, k₃, k₄, k₅, k₆, k₇] ∧
      k₀.toNat = num bs 8 0 32 ∧ k₁.toNat = num bs 12 0 32 ∧ k₂.toNat = num bs 16 0 32 ∧ k₃.toNat = num bs 20 0 32 ∧
      k₄.toNat = num bs 24 0 32 ∧ k₅.toNat = num bs 28 0 32 ∧ k₆.toNat = num bs 32 0 32 ∧ k₇.toNat = num bs 36 0 32 := by
  have hl := w.rkeysLen
  have hr := w.rkeys
  match h : m.rkeys, hl with
  | [k₀, k₁, k₂, k₃, k₄, k₅, k₆, k₇], _ =>
    rw [h] at hr
    refine ⟨k₀, k₁, k₂, k₃, k₄, k₅, k₆, k₇, rfl, ?_, ?_, ?_, ?_, ?_, ?_, ?_, ?_⟩
    · simpa using hr 0 (by omega)
    · simpa using hr 1 (by omega)
    · simpa using hr 2 (by omega)
    · simpa using hr 3 (by omega)
    · simpa using hr 4 (by omega)
    · simpa using hr 5 (by omega)
    · simpa using hr 6 (by omega)
    · simpa using hr 7 (by omega)

theorem deleteRKey_string {bs : Bytes} {m : DeleteRKey} (w : WireDeleteRKey bs m) :
    m.string = llcString bs .deleteRKey := by
  obtain ⟨k₀, k₁, k₂, k₃, k₄, k₅, k₆, k₇, hk, e₀, e₁, e₂, e₃, e₄, e₅, e₆, e₇⟩ := w.rkeys_list
  show_text [range8, List.map_cons, List.map_nil, List.filter_append, Nat.reduceMul, Nat.reduceAdd]
  unfold DeleteRKey.string
  unfmt [w.base.typ, w.base.length, w.res1, w.reply, w.res2, w.reject, w.res3, w.count, w.errorMask, w.res4, w.res5, hk, e₀, e₁, e₂, e₃, e₄, e₅, e₆, e₇, rkeysStr, rkeysRes, Nat.reduceAdd, List.append_nil]
  rfl

theorem deleteRKey_reserved {bs : Bytes} {m : DeleteRKey} (w : WireDeleteRKey bs m) :
    m.reserved = llcReserved bs .deleteRKey := by
  obtain ⟨k₀, k₁, k₂, k₃, k₄, k₅, k₆, k₇, hk, e₀, e₁, e₂, e₃, e₄, e₅, e₆, e₇⟩ := w.rkeys_list
  show_text [range8, List.map_cons, List.map_nil, List.filter_append, Nat.reduceMul, Nat.reduceAdd]
  unfold DeleteRKey.reserved
  unfmt [w.base.typ, w.base.length, w.res1, w.reply, w.res2, w.reject, w.res3, w.count, w.errorMask, w.res4, w.res5, hk, e₀, e₁, e₂, e₃, e₄, e₅, e₆, e₇, rkeysStr, rkeysRes, Nat.reduceAdd, List.append_nil]
  rfl

theorem testLink_string {bs : Bytes} {m : TestLink} (w : WireTestLink bs m) :
    m.string = llcString bs .testLink := by
  show_text []
  unfold TestLink.string
  unfmt [w.base.typ, w.base.length, w.res1, w.reply, w.res2, w.userData, w.res3, List.append_nil]
  rfl

theorem testLink_reserved {bs : Bytes} {m : TestLink} (w : WireTestLink bs m) :
    m.reserved = llcReserved bs .testLink := by
  show_text []
  unfold TestLink.reserved
  unfmt [w.base.typ, w.base.length, w.res1, w.reply, w.res2, w.userData, w.res3, List.append_nil]
  rfl

theorem cdc_string {bs : Bytes} {m : CDC} (w : WireCDC bs m) :
    m.string = llcString bs .cdc := by
  obtain ⟨x, hx0, hx⟩ := w.res4
  rw [show x = UInt8.ofNat (num bs 25 3 5) by rw [← hx0, UInt8.ofNat_toNat]] at hx
  show_text []
  unfold CDC.string
  unfmt [w.base.typ, w.base.length, w.seqNum, w.alertTkn, w.res1, w.prodWrap, w.prodCurs, w.res2, w.consWrap, w.consCurs, w.b, w.p, w.u, w.r, w.f, w.res3, w.d, w.c, w.a, hx, List.append_nil]
  rfl

theorem cdc_reserved {bs : Bytes} {m : CDC} (w : WireCDC bs m) :
    m.reserved = llcReserved bs .cdc := by
  obtain ⟨x, hx0, hx⟩ := w.res4
  rw [show x = UInt8.ofNat (num bs 25 3 5) by rw [← hx0, UInt8.ofNat_toNat]] at hx
  show_text []
  unfold CDC.reserved
  unfmt [w.base.typ, w.base.length, w.seqNum, w.alertTkn, w.res1, w.prodWrap, w.prodCurs, w.res2, w.consWrap, w.consCurs, w.b, w.p, w.u, w.r, w.f, w.res3, w.d, w.c, w.a, hx, List.append_nil]
  rfl

/-- a typed message comes from 44 bytes -/
theorem typed_44 {bs : Bytes} (h : expectedKind bs ≠ .other) : bs.length = 44 := by
  unfold expectedKind at h
  split at h
  · assumption
  · exact absurd rfl h

/-! ## C75 -/

/-- C75 for every kind but Add Link Continuation: `String()` of a message that `ParseLLC` returned
is the line with all non-reserved fields, in wire order, with their labels. -/
theorem C75_string_partial (s : Slice) (l : List Bytes) (m : Msg) (h : parseLLC s = .ret l m)
    (hk : expectedKind s.vis ≠ .addLinkCont) : m.string = llcString s.vis (expectedKind s.vis) := by
  obtain ⟨hm, w⟩ := C02_parseLLC_dispatch_partial s l m h
  have h44 : kindOf m ≠ .other → s.vis.length = 44 := fun hx => typed_44 (hm ▸ hx)
  rw [← hm] at hk ⊢
  cases m with
  | other m => rfl
  | confirmLink m => exact confirmLink_string (h44 nofun) w
  | addLink m => exact addLink_string (h44 nofun) w
  | addLinkCont m => exact absurd rfl hk
  | deleteLink m => exact deleteLink_string w
  | confirmRKey m => exact confirmRKey_string w
  | confirmRKeyCont m => exact confirmRKeyCont_string w
  | deleteRKey m => exact deleteRKey_string w
  | testLink m => exact testLink_string w
  | cdc m => exact cdc_string w

/-- C75 for Add Link Continuation: the first RKey pair is left out, all else is as specified. -/
theorem C75_addLinkCont_partial (s : Slice) (l : List Bytes) (m : Msg) (h : parseLLC s = .ret l m)
    (hk : expectedKind s.vis = .addLinkCont) :
    m.string = llcLine .addLinkCont (visibleItems (withoutNinth (llcItems s.vis .addLinkCont))) := by
  obtain ⟨hm, w⟩ := C02_parseLLC_dispatch_partial s l m h
  rw [hk] at hm
  cases m <;> simp only [kindOf, reduceCtorEq] at hm
  exact addLinkCont_string w

/-- C75 for Confirm RKey Continuation, which `ParseLLC` cannot parse: the typed parser on longer
slices. -/
theorem C75_confirmRKeyCont_partial (s : Slice) (l : List Bytes) (m : ConfirmRKeyCont)
    (h : parseConfirmRKeyCont s = .ret l m) : m.string = llcString s.vis .confirmRKeyCont := by
  by_cases hs : 44 < s.len
  · obtain ⟨m', h', w, -⟩ := C09_confirmRKeyCont_wire_partial {} rfl s hs
    have : parseConfirmRKeyCont s = .ret [] m' := h'
    rw [this] at h; cases h
    exact confirmRKeyCont_string w
  · obtain ⟨l', hp⟩ := (confirmRKeyCont_needs {} rfl s).panics (by omega)
    have : parseConfirmRKeyCont s = .panic l' := hp
    rw [this] at h; cases h

example : (parseConfirmRKeyCont ⟨8 :: 44 :: 0 :: 0x20 :: 1 :: zeros 40, []⟩).val?.isSome ∧
    (parseLLC ⟨9 :: 44 :: 0 :: 0xa0 :: 1 :: 5 :: zeros 38, []⟩).val?.isSome ∧
    expectedKind (9 :: 44 :: 0 :: 0xa0 :: 1 :: 5 :: zeros 38) ≠ .addLinkCont := by decide +kernel

/-- an Add Link Continuation with two different RKey pairs -/
def twoPairs : Bytes :=
  hex! "03 2c 00 80 01 02 00 00 00 00 00 01 00 00 00 02 00 00 00 00 00 00 00 03 00 00 00 04 00 00 00 05 00 00 00 00 00 00 00 06 00 00 00 00"

/-- C75 is false of the code for Add Link Continuation. -/
theorem C75_addLinkCont_false : ∃ m, parseLLC ⟨twoPairs, []⟩ = .ret [] (.addLinkCont m) ∧
    m.string = go! "LLC Add Link Continuation: Type: 3, Length: 44, Reply: true, Link: 1, Number of RTokens: 2, RKey Pair 2: [Reference RKey: 4, New RKey: 5, New Virtual Address: 0x6]\n" ∧
    m.string ≠ llcString twoPairs .addLinkCont := by
  refine ⟨_, rfl, ?_, ?_⟩ <;> decide +kernel

/-! ## C76 -/

/-- C76 for every kind but Add Link and Add Link Continuation: `Reserved()` of a message that
`ParseLLC` returned is the line with all fields, in wire order, with their labels. -/
theorem C76_reserved_partial (s : Slice) (l : List Bytes) (m : Msg) (h : parseLLC s = .ret l m)
    (hk : expectedKind s.vis ≠ .addLinkCont) (hk' : expectedKind s.vis ≠ .addLink) :
    m.reserved = llcReserved s.vis (expectedKind s.vis) := by
  rcases parseLLC_cases s with ⟨_, hp⟩ | ⟨hc, m', hm', hm, w⟩
  · rw [hp] at h; cases h
  rw [hm'] at h; cases h
  have h44 : kindOf m ≠ .other → s.vis.length = 44 := fun hx => typed_44 (hm ▸ hx)
  rw [← hm] at hk hk' hc ⊢
  cases m with
  | other m => rfl
  | confirmLink m => exact confirmLink_reserved (h44 nofun) w
  | addLink m => exact absurd rfl hk'
  | addLinkCont m => exact absurd rfl hk
  | deleteLink m => exact deleteLink_reserved w
  | confirmRKey m => exact confirmRKey_reserved w
  | confirmRKeyCont m => exact absurd rfl hc
  | deleteRKey m => exact deleteRKey_reserved w
  | testLink m => exact testLink_reserved w
  | cdc m => exact cdc_reserved w

/-- C76 for Add Link and Add Link Continuation: the ninth field is left out, two reserved bytes
or the first RKey pair; all else is as specified. -/
theorem C76_addLink_partial (s : Slice) (l : List Bytes) (m : Msg) (h : parseLLC s = .ret l m)
    (hk : expectedKind s.vis = .addLink ∨ expectedKind s.vis = .addLinkCont) :
    m.reserved = llcLine (expectedKind s.vis) (withoutNinth (llcItems s.vis (expectedKind s.vis))) := by
  obtain ⟨hm, w⟩ := C02_parseLLC_dispatch_partial s l m h
  have h44 : kindOf m ≠ .other → s.vis.length = 44 := fun hx => typed_44 (hm ▸ hx)
  rcases hk with hk | hk <;> rw [hk] at hm ⊢ <;> cases m <;> simp only [kindOf, reduceCtorEq] at hm
  · exact addLink_reserved (h44 nofun) w
  · exact addLinkCont_reserved w

/-- C76 for Confirm RKey Continuation: the typed parser on longer slices. -/
theorem C76_confirmRKeyCont_partial (s : Slice) (l : List Bytes) (m : ConfirmRKeyCont)
    (h : parseConfirmRKeyCont s = .ret l m) : m.reserved = llcReserved s.vis .confirmRKeyCont := by
  by_cases hs : 44 < s.len
  · obtain ⟨m', h', w, w4⟩ := C09_confirmRKeyCont_wire_partial {} rfl s hs
    have : parseConfirmRKeyCont s = .ret [] m' := h'
    rw [this] at h; cases h
    exact confirmRKeyCont_reserved w w4
  · obtain ⟨l', hp⟩ := (confirmRKeyCont_needs {} rfl s).panics (by omega)
    have : parseConfirmRKeyCont s = .panic l' := hp
    rw [this] at h; cases h

/-- an Add Link with the two reserved bytes between MAC and GID set -/
def oddAddLink : Bytes :=
  hex! "02 2c 31 c5 98 03 9b ab cd ef 11 22 fe 80 00 00 00 00 00 00 9a 03 9b ff fe ab cd ef 00 01 07 03 25 00 02 01 0a 0b 0c 0d 0e 0f 10 11"

/-- C76 is false of the code for Add Link: two reserved bytes are not shown, and two that are
not in the message are. -/
theorem C76_addLink_false : ∃ m, parseLLC ⟨oddAddLink, []⟩ = .ret [] (.addLink m) ∧
    m.reserved = go! "LLC Add Link: Type: 2, Length: 44, Reserved: 0x3, Reason Code: 1 (no alternate path available), Reply: true, Rejection: true, Reserved: 0x5, Sender MAC: 98:03:9b:ab:cd:ef, Sender GID: fe80::9a03:9bff:feab:cdef, Sender QP: 263, Link: 3, Reserved: 0x2, MTU: 5 (4096), Initial PSN: 513, Reserved: 0x0a0b0c0d0e0f10110000\n" ∧
    m.reserved ≠ llcReserved oddAddLink .addLink := by
  refine ⟨_, rfl, ?_, ?_⟩ <;> decide +kernel

/-- the texts of a message with all kinds of fields -/
example : expectedKind (hex! "09 2c 00 a0 01 05 00 00 00 00 15 5d 00 00 00 07 00 00 00 00 00 00 00 00 00 00 00 00 00 00 00 00 00 00 00 00 00 00 00 00 00 00 00 00") = .deleteRKey ∧
    llcString (hex! "09 2c 00 a0 01 05 00 00 00 00 15 5d 00 00 00 07 00 00 00 00 00 00 00 00 00 00 00 00 00 00 00 00 00 00 00 00 00 00 00 00 00 00 00 00") .deleteRKey
      = go! "LLC Delete RKey: Type: 9, Length: 44, Reply: true, Negative Response: true, Count: 1, Error Mask: 0b101, RKey 0: 5469, RKey 1: 7, RKey 2: 0, RKey 3: 0, RKey 4: 0, RKey 5: 0, RKey 6: 0, RKey 7: 0\n" := by
  decide +kernel

end SMC.Props
