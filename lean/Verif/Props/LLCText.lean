import Verif.Spec.LLCText
import Verif.Props.LLCParse
import Verif.Lemmas.Text
/-!
# C19–C21: texts of LLC and CDC messages
-/

namespace SMC.Props

open SMC Spec LLC

/-! ## Texts of single fields -/

theorem qpmtuStr_sep {a b : UInt8} {s t : Bytes} : qpmtuStr a ++ s = qpmtuStr b ++ t ↔ a = b ∧ s = t := by
  constructor
  · intro h
    fields [qpmtuStr] at h
    obtain ⟨h1, h2⟩ := h
    cases UInt8.toNat_inj.1 h1
    simpa using h2
  · rintro ⟨rfl, rfl⟩; rfl

theorem addLinkRsnStr_sep {a b : UInt8} {s t : Bytes} : addLinkRsnStr a ++ s = addLinkRsnStr b ++ t ↔ a = b ∧ s = t := by
  constructor
  · intro h
    fields [addLinkRsnStr] at h
    obtain ⟨h1, h2⟩ := h
    cases UInt8.toNat_inj.1 h1
    simpa using h2
  · rintro ⟨rfl, rfl⟩; rfl

theorem delLinkRsnStr_sep {a b : UInt32} {s t : Bytes} : delLinkRsnStr a ++ s = delLinkRsnStr b ++ t ↔ a = b ∧ s = t := by
  constructor
  · intro h
    fields [delLinkRsnStr] at h
    obtain ⟨h1, h2⟩ := h
    cases UInt32.toNat_inj.1 h1
    simpa using h2
  · rintro ⟨rfl, rfl⟩; rfl

theorem rkeyPair_sep {a b : RKeyPair} {s t : Bytes} : a.string ++ s = b.string ++ t ↔ a = b ∧ s = t := by
  constructor
  · intro h
    fields [RKeyPair.string, UInt32.toNat_inj, UInt64.toNat_inj] at h
    obtain ⟨h1, h2, h3, h4⟩ := h
    cases a; cases b; simp_all
  · rintro ⟨rfl, rfl⟩; rfl

theorem rmbSpec_sep {a b : RMBSpec} {s t : Bytes} : a.string ++ s = b.string ++ t ↔ a = b ∧ s = t := by
  constructor
  · intro h
    fields [RMBSpec.string, UInt8.toNat_inj, UInt32.toNat_inj, UInt64.toNat_inj] at h
    obtain ⟨h1, h2, h3, h4⟩ := h
    cases a; cases b; simp_all
  · rintro ⟨rfl, rfl⟩; rfl

theorem list2 {α : Type} {l : List α} (h : l.length = 2) : ∃ a b, l = [a, b] := by
  match l, h with
  | [a, b], _ => exact ⟨a, b, rfl⟩

theorem list3 {α : Type} {l : List α} (h : l.length = 3) : ∃ a b c, l = [a, b, c] := by
  match l, h with
  | [a, b, c], _ => exact ⟨a, b, c, rfl⟩

theorem list8 {α : Type} {l : List α} (h : l.length = 8) :
    ∃ a b c d e f g i, l = [a, b, c, d, e, f, g, i] := by
  match l, h with
  | [a, b, c, d, e, f, g, i], _ => exact ⟨a, b, c, d, e, f, g, i, rfl⟩

/-! ## C20 -/

/-- the fields of two messages of one kind with equal texts -/
macro "text_fields" "[" ls:Lean.Parser.Tactic.simpLemma,* "]" " at " h:ident : tactic => `(tactic|
  fields [qpmtuStr_sep, addLinkRsnStr_sep, delLinkRsnStr_sep, rkeyPair_sep, rmbSpec_sep, UInt8.toNat_inj,
    UInt16.toNat_inj, UInt32.toNat_inj, UInt64.toNat_inj, and_true, true_and, $ls,*] at $h)

set_option maxRecDepth 8000 in
/-- C20 for every kind but Add Link Continuation: the text determines every field that is not
reserved. Missing: Add Link Continuation, for which it is false, see `C20_addLinkCont_false`
and `C20_addLinkCont_partial`. `Other` messages are no LLC messages; their text is constant. -/
theorem C20_string_partial (m m' : Msg) (hk : kindOf m = kindOf m') (ho : kindOf m ≠ .other)
    (hac : kindOf m ≠ .addLinkCont) (hs : SizedMsg m) (hs' : SizedMsg m') (hg : SizedGID m) (hg' : SizedGID m')
    (h : m.string = m'.string) : visible m = visible m' := by
  cases m <;> cases m' <;> simp only [kindOf, reduceCtorEq, ne_eq, not_true_eq_false] at hk ho hac <;>
    simp only [Msg.string] at h <;> simp only [SizedMsg, SizedGID] at hs hs' hg hg'
  case confirmLink.confirmLink a b =>
    text_fields [ConfirmLink.string] at h
    cases a; cases b; simp_all [visible]
  case addLink.addLink a b =>
    text_fields [AddLink.string] at h
    cases a; cases b; simp_all [visible]
  case deleteLink.deleteLink a b =>
    text_fields [DeleteLink.string] at h
    cases a; cases b; simp_all [visible]
  case confirmRKey.confirmRKey a b =>
    obtain ⟨r₁, r₂, hr⟩ := list2 hs
    obtain ⟨q₁, q₂, hq⟩ := list2 hs'
    text_fields [ConfirmRKey.string, hr, hq, rmbsStr] at h
    cases a; cases b; simp_all [visible]
  case confirmRKeyCont.confirmRKeyCont a b =>
    obtain ⟨r₁, r₂, r₃, hr⟩ := list3 hs
    obtain ⟨q₁, q₂, q₃, hq⟩ := list3 hs'
    text_fields [ConfirmRKeyCont.string, hr, hq, rmbsStr] at h
    cases a; cases b; simp_all [visible]
  case deleteRKey.deleteRKey a b =>
    obtain ⟨r₁, r₂, r₃, r₄, r₅, r₆, r₇, r₈, hr⟩ := list8 hs.2.1
    obtain ⟨q₁, q₂, q₃, q₄, q₅, q₆, q₇, q₈, hq⟩ := list8 hs'.2.1
    text_fields [DeleteRKey.string, hr, hq, rkeysStr] at h
    cases a; cases b; simp_all [visible]
  case testLink.testLink a b =>
    text_fields [TestLink.string] at h
    cases a; cases b; simp_all [visible]
  case cdc.cdc a b =>
    text_fields [CDC.string] at h
    cases a; cases b; simp_all [visible]

/-- two messages that meet the hypotheses; they differ in reserved fields only -/
example : SizedMsg (.cdc { SeqNum := 7 }) ∧ SizedMsg (.cdc { SeqNum := 7, res3 := 1 }) ∧
    (Msg.cdc { SeqNum := 7 }).string = (Msg.cdc { SeqNum := 7, res3 := 1 }).string :=
  ⟨⟨rfl, rfl, rfl⟩, ⟨rfl, rfl, rfl⟩, rfl⟩

/-- C20 is false of the code for Add Link Continuation: the loop that builds the text of the
RKey pairs assigns instead of appending, so that only the second pair is shown. -/
theorem C20_addLinkCont_false : ∃ a b : AddLinkCont, SizedAddLinkCont a ∧ SizedAddLinkCont b ∧
    a.string = b.string ∧ visible (.addLinkCont a) ≠ visible (.addLinkCont b) :=
  ⟨{ RKeyPairs := [{ NewRKey := 1 }, {}] }, { RKeyPairs := [{ NewRKey := 2 }, {}] },
    ⟨rfl, rfl, rfl⟩, ⟨rfl, rfl, rfl⟩, rfl, by decide⟩

/-- C20 for Add Link Continuation, all fields but the first RKey pair. -/
theorem C20_addLinkCont_partial (a b : AddLinkCont) (ha : SizedAddLinkCont a) (hb : SizedAddLinkCont b)
    (h : a.string = b.string) :
    visible (.addLinkCont { a with RKeyPairs := a.RKeyPairs.drop 1 })
      = visible (.addLinkCont { b with RKeyPairs := b.RKeyPairs.drop 1 }) := by
  obtain ⟨r₁, r₂, hr⟩ := list2 ha.2.1
  obtain ⟨q₁, q₂, hq⟩ := list2 hb.2.1
  text_fields [AddLinkCont.string, hr, hq, pairsStr] at h
  cases a; cases b; simp_all [visible]

example : SizedAddLinkCont { Link := 1 } ∧ SizedAddLinkCont { Link := 1, res1 := 5 } ∧
    AddLinkCont.string { Link := 1 } = AddLinkCont.string { Link := 1, res1 := 5 } :=
  ⟨⟨rfl, rfl, rfl⟩, ⟨rfl, rfl, rfl⟩, rfl⟩

/-- what `ParseLLC` returns has the sizes the text theorems ask for -/
theorem parseLLC_sized {s : Slice} {l : List Bytes} {m : Msg} (h : parseLLC s = .ret l m) :
    SizedMsg m ∧ SizedGID m := by
  obtain ⟨hk, hw⟩ := C02_parseLLC_dispatch_partial s l m h
  by_cases ho : kindOf m = .other
  · cases m <;> simp only [kindOf, reduceCtorEq] at ho
    exact ⟨trivial, trivial⟩
  have hl : s.vis.length = 44 := by
    by_cases hl : s.vis.length = 44
    · exact hl
    · simp [expectedKind, hl] at hk; exact absurd hk ho
  have hc := C02_confirmRKeyCont_false s l m h
  have hraw : ∀ k n, k + n ≤ 44 → (raw s.vis k n).length = n := by intro k n hn; simp [raw]; omega
  cases m with
  | other m => exact absurd rfl ho
  | confirmLink m =>
    refine ⟨?_, ?_⟩
    · show m.res3.length = 9; rw [hw.res3, hraw _ _ (by omega)]
    · show m.SenderGID.length ≠ 4; rw [hw.gid, hraw _ _ (by omega)]; decide
  | addLink m =>
    refine ⟨⟨?_, ?_⟩, ?_⟩
    · rw [hw.res5, hraw _ _ (by omega)]
    · rw [hw.res4, List.length_append, hraw _ _ (by omega)]; rfl
    · show m.SenderGID.length ≠ 4; rw [hw.gid, hraw _ _ (by omega)]; decide
  | addLinkCont m =>
    obtain ⟨_, _, hp, _⟩ := hw.pairs
    exact ⟨⟨by rw [hw.res3, hraw _ _ (by omega)], by rw [hp]; rfl, by rw [hw.res4, hraw _ _ (by omega)]⟩, trivial⟩
  | deleteLink m =>
    refine ⟨?_, trivial⟩
    show m.res3.length = 35; rw [hw.res3, hraw _ _ (by omega)]
  | confirmRKey m =>
    obtain ⟨_, _, hp, _⟩ := hw.rmbs
    refine ⟨?_, trivial⟩
    show m.OtherRMBs.length = 2; rw [hp]; rfl
  | confirmRKeyCont m => exact absurd rfl hc
  | deleteRKey m =>
    exact ⟨⟨by rw [hw.res4, hraw _ _ (by omega)], hw.rkeysLen, by rw [hw.res5, hraw _ _ (by omega)]⟩, trivial⟩
  | testLink m =>
    exact ⟨⟨by rw [hw.userData, hraw _ _ (by omega)], by rw [hw.res3, hraw _ _ (by omega)]⟩, trivial⟩
  | cdc m =>
    obtain ⟨_, _, h4⟩ := hw.res4
    exact ⟨⟨by rw [hw.res1, hraw _ _ (by omega)], by rw [hw.res2, hraw _ _ (by omega)],
      by rw [h4, List.length_cons, hraw _ _ (by omega)]⟩, trivial⟩

/-- C20 for parsed messages: packets of one kind whose messages have the same text have the
same fields. -/
theorem C20_parsed_partial (s s' : Slice) (l l' : List Bytes) (m m' : Msg) (h : parseLLC s = .ret l m)
    (h' : parseLLC s' = .ret l' m') (hk : kindOf m = kindOf m') (ho : kindOf m ≠ .other)
    (hac : kindOf m ≠ .addLinkCont) (ht : m.string = m'.string) : visible m = visible m' :=
  C20_string_partial m m' hk ho hac (parseLLC_sized h).1 (parseLLC_sized h').1 (parseLLC_sized h).2
    (parseLLC_sized h').2 ht

/-- two messages that differ in a reserved byte -/
example : ∃ m m', parseLLC ⟨4 :: 44 :: zeros 42, []⟩ = .ret [] m ∧ parseLLC ⟨4 :: 44 :: zeros 41 ++ [1], []⟩ = .ret [] m' ∧
    kindOf m = .deleteLink ∧ kindOf m' = .deleteLink ∧ m ≠ m' ∧ m.string = m'.string :=
  ⟨_, _, rfl, rfl, rfl, rfl, by decide +kernel, by decide +kernel⟩

/-! ## C21 -/

set_option maxRecDepth 8000 in
/-- C21 for every kind but Add Link and Add Link Continuation, for which it is false. -/
theorem C21_reserved_partial (m m' : Msg) (hk : kindOf m = kindOf m') (ho : kindOf m ≠ .other)
    (hac : kindOf m ≠ .addLinkCont) (hal : kindOf m ≠ .addLink) (hs : SizedMsg m) (hs' : SizedMsg m')
    (hg : SizedGID m) (hg' : SizedGID m')
    (h : m.reserved = m'.reserved) : decoded m = decoded m' := by
  cases m <;> cases m' <;> simp only [kindOf, reduceCtorEq, ne_eq, not_true_eq_false] at hk ho hac hal <;>
    simp only [Msg.reserved] at h <;> simp only [SizedMsg, SizedGID] at hs hs' hg hg'
  case confirmLink.confirmLink a b =>
    text_fields [ConfirmLink.reserved] at h
    cases a; cases b; simp_all [decoded]
  case deleteLink.deleteLink a b =>
    text_fields [DeleteLink.reserved] at h
    cases a; cases b; simp_all [decoded]
  case confirmRKey.confirmRKey a b =>
    obtain ⟨r₁, r₂, hr⟩ := list2 hs
    obtain ⟨q₁, q₂, hq⟩ := list2 hs'
    text_fields [ConfirmRKey.reserved, hr, hq, rmbsRes] at h
    cases a; cases b; simp_all [decoded]
  case confirmRKeyCont.confirmRKeyCont a b =>
    obtain ⟨r₁, r₂, r₃, hr⟩ := list3 hs
    obtain ⟨q₁, q₂, q₃, hq⟩ := list3 hs'
    text_fields [ConfirmRKeyCont.reserved, hr, hq, rmbsRes] at h
    cases a; cases b; simp_all [decoded]
  case deleteRKey.deleteRKey a b =>
    obtain ⟨r₁, r₂, r₃, r₄, r₅, r₆, r₇, r₈, hr⟩ := list8 hs.2.1
    obtain ⟨q₁, q₂, q₃, q₄, q₅, q₆, q₇, q₈, hq⟩ := list8 hs'.2.1
    text_fields [DeleteRKey.reserved, hr, hq, rkeysRes] at h
    cases a; cases b; simp_all [decoded]
  case testLink.testLink a b =>
    text_fields [TestLink.reserved] at h
    cases a; cases b; simp_all [decoded]
  case cdc.cdc a b =>
    text_fields [CDC.reserved] at h
    cases a; cases b; simp_all [decoded]

/-- two messages that meet the hypotheses and differ in the raw bytes only -/
example : SizedMsg (.testLink { res1 := 7 }) ∧ SizedMsg (.testLink { res1 := 7, base.Raw := [1] }) ∧
    (Msg.testLink { res1 := 7 }).reserved = (Msg.testLink { res1 := 7, base.Raw := [1] }).reserved :=
  ⟨⟨rfl, rfl⟩, ⟨rfl, rfl⟩, rfl⟩

/-- C21 is false of the code for Add Link: the two reserved bytes after the MAC are not
shown. -/
theorem C21_addLink_false : ∃ a b : AddLink, SizedAddLink a ∧ SizedAddLink b ∧
    a.reserved = b.reserved ∧ decoded (.addLink a) ≠ decoded (.addLink b) :=
  ⟨{ res5 := [0, 1] }, { res5 := [0, 2] }, ⟨rfl, rfl⟩, ⟨rfl, rfl⟩, rfl, by decide⟩

/-- C21 for Add Link, all fields but `res5`. -/
theorem C21_addLink_partial (a b : AddLink) (hg : a.SenderGID.length ≠ 4) (hg' : b.SenderGID.length ≠ 4)
    (h : a.reserved = b.reserved) :
    decoded (.addLink { a with res5 := [] }) = decoded (.addLink { b with res5 := [] }) := by
  text_fields [AddLink.reserved] at h
  cases a; cases b; simp_all [decoded]

/-- C21 is false of the code for Add Link Continuation, as C20 is. -/
theorem C21_addLinkCont_false : ∃ a b : AddLinkCont, SizedAddLinkCont a ∧ SizedAddLinkCont b ∧
    a.reserved = b.reserved ∧ decoded (.addLinkCont a) ≠ decoded (.addLinkCont b) :=
  ⟨{ RKeyPairs := [{ NewRKey := 1 }, {}] }, { RKeyPairs := [{ NewRKey := 2 }, {}] },
    ⟨rfl, rfl, rfl⟩, ⟨rfl, rfl, rfl⟩, rfl, by decide⟩

/-- C21 for Add Link Continuation, all fields but the first RKey pair. -/
theorem C21_addLinkCont_partial (a b : AddLinkCont) (ha : SizedAddLinkCont a) (hb : SizedAddLinkCont b)
    (h : a.reserved = b.reserved) :
    decoded (.addLinkCont { a with RKeyPairs := a.RKeyPairs.drop 1 })
      = decoded (.addLinkCont { b with RKeyPairs := b.RKeyPairs.drop 1 }) := by
  obtain ⟨r₁, r₂, hr⟩ := list2 ha.2.1
  obtain ⟨q₁, q₂, hq⟩ := list2 hb.2.1
  text_fields [AddLinkCont.reserved, hr, hq, pairsRes] at h
  cases a; cases b; simp_all [decoded]

/-- C21 for parsed messages. -/
theorem C21_parsed_partial (s s' : Slice) (l l' : List Bytes) (m m' : Msg) (h : parseLLC s = .ret l m)
    (h' : parseLLC s' = .ret l' m') (hk : kindOf m = kindOf m') (ho : kindOf m ≠ .other)
    (hac : kindOf m ≠ .addLinkCont) (hal : kindOf m ≠ .addLink) (ht : m.reserved = m'.reserved) :
    decoded m = decoded m' :=
  C21_reserved_partial m m' hk ho hac hal (parseLLC_sized h).1 (parseLLC_sized h').1 (parseLLC_sized h).2
    (parseLLC_sized h').2 ht

/-- the same message at the end of its array and not -/
example : ∃ m m', parseLLC ⟨4 :: 44 :: zeros 42, []⟩ = .ret [] m ∧ parseLLC ⟨4 :: 44 :: zeros 42, [7]⟩ = .ret [] m' ∧
    kindOf m = .deleteLink ∧ kindOf m' = .deleteLink ∧ m.reserved = m'.reserved :=
  ⟨_, _, rfl, rfl, rfl, rfl, by decide +kernel⟩

/-- two values whose first RKey pairs differ -/
example : SizedAddLinkCont { RKeyPairs := [{ NewRKey := 1 }, { NewRKey := 2 }] } ∧
    SizedAddLinkCont { RKeyPairs := [{ NewRKey := 3 }, { NewRKey := 2 }] } ∧
    (AddLinkCont.reserved { RKeyPairs := [{ NewRKey := 1 }, { NewRKey := 2 }] }) =
      AddLinkCont.reserved { RKeyPairs := [{ NewRKey := 3 }, { NewRKey := 2 }] } :=
  ⟨⟨rfl, rfl, rfl⟩, ⟨rfl, rfl, rfl⟩, by decide +kernel⟩

/-! ## C19 -/

/-- C19: the text depends on the fields that are not reserved only. -/
theorem C19_string (m m' : Msg) (h : visible m = visible m') : m.string = m'.string := by
  have key : ∀ m : Msg, (visible m).string = m.string := by intro m; cases m <;> rfl
  rw [← key m, h, key m']

/-- messages that differ in every reserved field -/
example : visible (.deleteLink { Link := 3, res1 := 9, res2 := 1, res3 := List.replicate 35 255, base.Raw := [1] })
    = visible (.deleteLink { Link := 3 }) := rfl

end SMC.Props
