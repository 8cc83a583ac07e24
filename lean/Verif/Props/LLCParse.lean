import Verif.Props.LLCWire
/-!
# C01–C03, C14, C15, C18: dispatch, panics and re-use of LLC messages
-/

namespace SMC.Props

open SMC Spec LLC

/-! ## C14: the typed parsers panic exactly on slices that are too short

The bounds are the numbers of bytes the parsers decode up to the reserved tail, which is
copied as far as it is there. The reserved byte at the end of confirm RKey (continuation)
messages is indexed and therefore counts. -/

theorem C14_parseConfirm (s : Slice) : Go.Panics (parseConfirm s) ↔ s.len < 35 :=
  (confirmLink_needs {} s).panics_iff fun h => ⟨_, confirmLink_parse {} s.vis s.extra h⟩

theorem C14_parseAddLink (s : Slice) : Go.Panics (parseAddLink s) ↔ s.len < 36 :=
  (addLink_needs {} s).panics_iff fun h => ⟨_, addLink_parse {} s.vis s.extra h⟩

theorem C14_parseAddLinkCont (s : Slice) : Go.Panics (parseAddLinkCont s) ↔ s.len < 40 :=
  (addLinkCont_needs {} rfl s).panics_iff fun h => ⟨_, addLinkCont_parse {} rfl s.vis s.extra h⟩

theorem C14_parseDeleteLink (s : Slice) : Go.Panics (parseDeleteLink s) ↔ s.len < 9 :=
  (deleteLink_needs {} s).panics_iff fun h => ⟨_, deleteLink_parse {} s.vis s.extra h⟩

theorem C14_parseConfirmRKey (s : Slice) : Go.Panics (parseConfirmRKey s) ↔ s.len < 44 :=
  (confirmRKey_needs {} rfl s).panics_iff fun h => ⟨_, confirmRKey_parse {} rfl s.vis s.extra h⟩

theorem C14_parseConfirmRKeyCont (s : Slice) : Go.Panics (parseConfirmRKeyCont s) ↔ s.len < 45 :=
  (confirmRKeyCont_needs {} rfl s).panics_iff fun h => ⟨_, confirmRKeyCont_parse {} rfl s.vis s.extra h⟩

theorem C14_parseDeleteRKey (s : Slice) : Go.Panics (parseDeleteRKey s) ↔ s.len < 40 :=
  (deleteRKey_needs {} rfl s).panics_iff fun h => ⟨_, deleteRKey_parse {} rfl s.vis s.extra h⟩

theorem C14_parseTestLink (s : Slice) : Go.Panics (parseTestLink s) ↔ s.len < 20 :=
  (testLink_needs {} s).panics_iff fun h => ⟨_, testLink_parse {} s.vis s.extra h⟩

theorem C14_parseCDC (s : Slice) : Go.Panics (parseCDC s) ↔ s.len < 26 :=
  (cdc_needs {} s).panics_iff fun h => ⟨_, cdc_parse {} s.vis s.extra h⟩

theorem C14_parseOther (s : Slice) : ¬ Go.Panics (parseOther s) := by
  show ¬ Go.Panics (Other.parse {} ⟨s.vis, s.extra⟩)
  rw [other_parse]
  exact Go.not_panics_ret _ _

/-- a slice of 34 bytes with spare capacity still panics -/
example : Go.Panics (parseConfirm ⟨zeros 34, zeros 100⟩) := (C14_parseConfirm _).2 (by decide)

/-! ## C02: dispatch -/

theorem codes_lookup : ∀ b : UInt8, (codes.lookup b.toNat).getD .other =
    if b = 1 then .confirmLink else if b = 2 then .addLink else if b = 3 then .addLinkCont
    else if b = 4 then .deleteLink else if b = 6 then .confirmRKey else if b = 8 then .confirmRKeyCont
    else if b = 9 then .deleteRKey else if b = 7 then .testLink else if b = 0xFE then .cdc
    else Kind.other := by byte_decide

/-- Everything `ParseLLC` does: it returns a message of the kind that length and first byte
call for, with all fields at their positions; or the first byte is 8, the length 44, and it
panics. -/
theorem parseLLC_cases (s : Slice) :
    (expectedKind s.vis = .confirmRKeyCont ∧ parseLLC s = .panic []) ∨
    (expectedKind s.vis ≠ .confirmRKeyCont ∧
      ∃ m, parseLLC s = .ret [] m ∧ kindOf m = expectedKind s.vis ∧ WireMsg s.vis m) := by
  obtain ⟨v, e⟩ := s
  have other : ∀ (v e : Bytes), parseOther ⟨v, e⟩ = .ret [] ⟨⟨v, 0x101, v.length⟩⟩ := other_parse {}
  by_cases hl : v.length = 44
  · obtain ⟨b, r, rfl⟩ : ∃ b r, v = b :: r := by
      cases v with
      | nil => simp at hl
      | cons b r => exact ⟨b, r, rfl⟩
    have hk : expectedKind (b :: r) = (codes.lookup b.toNat).getD .other := by
      simp only [expectedKind, hl, if_true]; rfl
    have hi : (Slice.mk (b :: r) e).idx 0 = .ret [] b := rfl
    have hne : ¬ (Slice.mk (b :: r) e).len ≠ LLCMsgLen := by simp [LLCMsgLen, hl]
    rw [codes_lookup] at hk
    simp only [parseLLC, hne, if_false, hi, Go.ret_bind]
    by_cases h1 : b = 1
    · subst h1
      obtain ⟨m, hm, hw⟩ := C04_confirmLink_wire {} rfl ⟨1 :: r, e⟩ hl
      exact .inr ⟨by rw [hk]; decide, .confirmLink m, by simp [parseConfirm, hm], by rw [hk]; rfl, hw⟩
    by_cases h2 : b = 2
    · subst h2
      obtain ⟨m, hm, hw⟩ := C05_addLink_wire {} ⟨rfl, rfl⟩ ⟨2 :: r, e⟩ hl
      exact .inr ⟨by rw [hk]; decide, .addLink m, by simp [parseAddLink, hm], by rw [hk]; rfl, hw⟩
    by_cases h3 : b = 3
    · subst h3
      obtain ⟨m, hm, hw⟩ := C06_addLinkCont_wire {} ⟨rfl, rfl, rfl⟩ ⟨3 :: r, e⟩ hl
      exact .inr ⟨by rw [hk]; decide, .addLinkCont m, by simp [parseAddLinkCont, hm], by rw [hk]; rfl, hw⟩
    by_cases h4 : b = 4
    · subst h4
      obtain ⟨m, hm, hw⟩ := C07_deleteLink_wire {} rfl ⟨4 :: r, e⟩ hl
      exact .inr ⟨by rw [hk]; decide, .deleteLink m, by simp [parseDeleteLink, hm], by rw [hk]; rfl, hw⟩
    by_cases h6 : b = 6
    · subst h6
      obtain ⟨m, hm, hw⟩ := C08_confirmRKey_wire {} rfl ⟨6 :: r, e⟩ hl
      exact .inr ⟨by rw [hk]; decide, .confirmRKey m, by simp [parseConfirmRKey, hm], by rw [hk]; rfl, hw⟩
    by_cases h8 : b = 8
    · subst h8
      exact .inl ⟨by rw [hk]; decide, by simp [parseConfirmRKeyCont, confirmRKeyCont_parse_44 {} rfl (8 :: r) e hl]⟩
    by_cases h9 : b = 9
    · subst h9
      obtain ⟨m, hm, hw⟩ := C10_deleteRKey_wire {} ⟨rfl, rfl, rfl⟩ ⟨9 :: r, e⟩ hl
      exact .inr ⟨by rw [hk]; decide, .deleteRKey m, by simp [parseDeleteRKey, hm], by rw [hk]; rfl, hw⟩
    by_cases h7 : b = 7
    · subst h7
      obtain ⟨m, hm, hw⟩ := C11_testLink_wire {} ⟨rfl, rfl⟩ ⟨7 :: r, e⟩ hl
      exact .inr ⟨by rw [hk]; decide, .testLink m, by simp [parseTestLink, hm], by rw [hk]; rfl, hw⟩
    by_cases hc : b = 0xFE
    · subst hc
      obtain ⟨m, hm, hw⟩ := C12_cdc_wire {} ⟨rfl, rfl, rfl⟩ ⟨0xFE :: r, e⟩ hl
      exact .inr ⟨by rw [hk]; decide, .cdc m, by simp [parseCDC, hm], by rw [hk]; rfl, hw⟩
    simp only [h1, h2, h3, h4, h6, h8, h9, h7, hc, if_false] at hk ⊢
    exact .inr ⟨by rw [hk]; decide, .other ⟨⟨b :: r, 0x101, (b :: r).length⟩⟩, by rw [other]; rfl, by rw [hk]; rfl, ⟨rfl, rfl, rfl⟩⟩
  · have hk : expectedKind v = .other := by simp [expectedKind, hl]
    have hne : (Slice.mk v e).len ≠ LLCMsgLen := by simpa [LLCMsgLen] using hl
    exact .inr ⟨by rw [hk]; decide, .other ⟨⟨v, 0x101, v.length⟩⟩, by simp only [parseLLC, hne, if_true, ne_eq, not_false_eq_true, other]; rfl,
      by rw [hk]; rfl, ⟨rfl, rfl, rfl⟩⟩

/-- C02, dispatch: when `ParseLLC` returns, the message has the kind given by length and
first byte, and its fields are those of that kind's wire format. -/
theorem C02_parseLLC_dispatch_partial (s : Slice) (l : List Bytes) (m : Msg) (h : parseLLC s = .ret l m) :
    kindOf m = expectedKind s.vis ∧ WireMsg s.vis m := by
  rcases parseLLC_cases s with ⟨_, hp⟩ | ⟨_, m', hm, hk, hw⟩
  · rw [hp] at h; cases h
  · rw [hm] at h; cases h; exact ⟨hk, hw⟩

/-- C02, the converse direction: for every buffer of a kind other than confirm RKey
continuation a message of that kind is returned. Missing from the full property: buffers of
that kind, see `C02_confirmRKeyCont_false`. -/
theorem C02_parseLLC_returns_partial (s : Slice) (h : expectedKind s.vis ≠ .confirmRKeyCont) :
    ∃ m, parseLLC s = .ret [] m ∧ kindOf m = expectedKind s.vis := by
  rcases parseLLC_cases s with ⟨hc, _⟩ | ⟨_, m', hm, hk, _⟩
  · exact absurd hc h
  · exact ⟨m', hm, hk⟩

/-- C02 is false of the code for one kind: `ParseLLC` never returns a confirm RKey
continuation message. -/
theorem C02_confirmRKeyCont_false (s : Slice) (l : List Bytes) (m : Msg) (h : parseLLC s = .ret l m) :
    kindOf m ≠ .confirmRKeyCont := by
  rcases parseLLC_cases s with ⟨_, hp⟩ | ⟨hc, m', hm, hk, _⟩
  · rw [hp] at h; cases h
  · rw [hm] at h; cases h; rwa [hk]

example : expectedKind (0xFE :: zeros 43) = .cdc ∧ expectedKind (8 :: zeros 43) = .confirmRKeyCont ∧
    expectedKind (8 :: zeros 44) = .other ∧ expectedKind (5 :: zeros 43) = .other := by decide

/-! ## C01 -/

/-- C01 is false of the code; exactly the confirm RKey continuation messages crash it. -/
theorem C01_parseLLC_panics_iff (s : Slice) :
    Go.Panics (parseLLC s) ↔ s.len = 44 ∧ s.vis.head? = some 8 := by
  have key : expectedKind s.vis = .confirmRKeyCont ↔ s.len = 44 ∧ s.vis.head? = some 8 := by
    obtain ⟨v, e⟩ := s
    by_cases hl : v.length = 44
    · match v, hl with
      | b :: r, hl =>
        have hk : expectedKind (b :: r) = (codes.lookup b.toNat).getD .other := by
          simp only [expectedKind, hl, if_true]; rfl
        have : ∀ b : UInt8, (codes.lookup b.toNat).getD .other = Kind.confirmRKeyCont ↔ b = 8 := by byte_decide
        rw [hk, this]
        simp at hl
        simp [hl]
    · simp [expectedKind, hl]
  rw [← key]
  rcases parseLLC_cases s with ⟨hc, hp⟩ | ⟨hc, m', hm, hk, _⟩
  · exact ⟨fun _ => hc, fun _ => ⟨_, hp⟩⟩
  · exact ⟨fun h => absurd (hm ▸ h) (Go.not_panics_ret _ _), fun h => absurd h hc⟩

/-- C01 refuted by a concrete packet. -/
theorem C01_parseLLC_total_false : Go.Panics (parseLLC ⟨8 :: zeros 43, []⟩) :=
  (C01_parseLLC_panics_iff _).2 (by decide)

/-- C01, what does hold: no panic for any other buffer. Missing: 44 byte buffers whose
first byte is 8. -/
theorem C01_parseLLC_total_partial (s : Slice) (h : ¬ (s.len = 44 ∧ s.vis.head? = some 8)) :
    ∃ m, parseLLC s = .ret [] m := by
  rcases parseLLC_cases s with ⟨_, hp⟩ | ⟨_, m', hm, _, _⟩
  · exact absurd ((C01_parseLLC_panics_iff s).1 ⟨_, hp⟩) h
  · exact ⟨m', hm⟩

example : ∃ m, parseLLC ⟨[], []⟩ = .ret [] m := C01_parseLLC_total_partial _ (by decide)

/-! ## C03 -/

/-- C03: everything that is not one of the nine kinds is kept whole. `Hex` is
`hex.Dump` of the raw bytes; C16 shows that nothing is lost by that. -/
theorem C03_other (s : Slice) (h : expectedKind s.vis = .other) :
    ∃ m, parseLLC s = .ret [] m ∧ kindOf m = .other ∧ m.getType = 0x101 ∧ m.base.Length = s.len ∧
      m.base.Raw = s.vis ∧ m.hex = hexDump s.vis := by
  rcases parseLLC_cases s with ⟨hc, _⟩ | ⟨_, m, hm, hk, hw⟩
  · rw [h] at hc; cases hc
  · refine ⟨m, hm, hk.trans h, ?_⟩
    cases m <;> simp only [kindOf, h] at hk <;> try cases hk
    obtain ⟨h1, h2, h3⟩ := hw
    exact ⟨h2, h3, h1, congrArg hexDump h1⟩

example : expectedKind [10, 0, 0, 1] = .other := by decide

/-! ## C15 -/

/-- the raw bytes, type and length of any typed message -/
theorem wireMsg_base {bs : Bytes} {m : Msg} (h : WireMsg bs m) (hk : kindOf m ≠ .other) : WireBase bs m.base := by
  cases m with
  | other m => exact absurd rfl hk
  | _ m => exact h.base

/-- C15: type and length of a typed message are its first two bytes, and the type is the
code of the Go type that was returned. -/
theorem C15_getType (s : Slice) (l : List Bytes) (m : Msg) (h : parseLLC s = .ret l m) (hk : kindOf m ≠ .other) :
    s.vis.head?.map UInt8.toNat = some m.getType ∧ s.vis[1]?.map UInt8.toNat = some m.base.Length ∧
    (m.getType, kindOf m) ∈ codes := by
  obtain ⟨hk', hw⟩ := C02_parseLLC_dispatch_partial s l m h
  have hb := wireMsg_base hw hk
  have hl : s.vis.length = 44 := by
    by_cases hl : s.vis.length = 44
    · exact hl
    · simp [expectedKind, hl] at hk'; exact absurd hk' hk
  obtain ⟨v, e⟩ := s
  simp only at hl hk' hb
  match v, hl with
  | b :: c :: r, hl =>
    have h0 : m.base.Typ = b.toNat := by rw [hb.typ, num_8 _ _ (by simp)]; rfl
    have h1 : m.base.Length = c.toNat := by rw [hb.length, num_8 _ _ (by simp)]; rfl
    refine ⟨by simp [Msg.getType, BaseMsg.getType, h0], by simp [h1], ?_⟩
    simp only [Msg.getType, BaseMsg.getType, h0]
    have hx : kindOf m = (codes.lookup b.toNat).getD .other := by
      rw [hk']; simp only [expectedKind, hl, if_true]; rfl
    rw [hx] at hk ⊢
    revert hk
    have : ∀ b : UInt8, (codes.lookup b.toNat).getD .other ≠ Kind.other →
        (b.toNat, (codes.lookup b.toNat).getD .other) ∈ codes := by byte_decide
    exact this b

example : ∃ m, parseLLC ⟨7 :: 44 :: zeros 42, []⟩ = .ret [] m ∧ kindOf m ≠ .other := by
  obtain ⟨m, hm, hk⟩ := C02_parseLLC_returns_partial ⟨7 :: 44 :: zeros 42, []⟩ (by decide)
  exact ⟨m, hm, by rw [hk]; decide⟩

/-! ## C18 -/

/-- C18 is false of the code for Add Link: `Parse` copies the 8 remaining bytes of a 44 byte
message into the 10 byte field `res4`; its last two bytes keep the previous contents, and
`Reserved()` prints them. -/
theorem C18_addLink_false :
    ∃ (a : AddLink) (s : Slice), SizedAddLink a ∧ s.len = 44 ∧
      (a.parse s).val? ≠ (parseAddLink s).val? := by
  refine ⟨{ res4 := [0, 0, 0, 0, 0, 0, 0, 0, 0, 1] }, ⟨2 :: zeros 43, []⟩, ?_, ?_, ?_⟩ <;> decide +kernel

/-- C18, what does hold: re-parsing gives the same message as parsing into a fresh value,
for Add Link except for the last two bytes of `res4`. Missing: the Add Link case without
exception (false), and buffers shorter than a message. -/
theorem C18_reparse_partial (m : Msg) (hm : SizedMsg m) (s : Slice) (hs : 44 ≤ s.len)
    (ha : kindOf m = .addLink → 46 ≤ s.len) :
    (m.parse s).val? = ((fresh (kindOf m)).parse s).val? := by
  obtain ⟨v, e⟩ := s
  simp only [Slice.len_mk] at hs ha
  have full : ∀ {d d' s : Bytes}, d.length = d'.length → d.length ≤ s.length → copyInto d s = copyInto d' s := by
    intro d d' s h1 h2
    rw [copyInto_full h2, copyInto_full (by omega), h1]
  cases m with
  | other m => rfl
  | confirmLink m =>
    have h : m.res3.length = 9 := hm
    simp only [fresh, kindOf, Msg.parse]
    rw [confirmLink_parse _ v e (by omega), confirmLink_parse _ v e (by omega),
      full (d' := zeros 9) (by simpa using h) (by simp; omega)]
  | addLink m =>
    obtain ⟨h5, h4⟩ : m.res5.length = 2 ∧ m.res4.length = 10 := hm
    have := ha rfl
    simp only [fresh, kindOf, Msg.parse]
    rw [addLink_parse _ v e (by omega), addLink_parse _ v e (by omega),
      full (d := m.res5) (d' := zeros 2) (by simpa using h5) (by simp; omega),
      full (d := m.res4) (d' := zeros 10) (by simpa using h4) (by simp; omega)]
  | addLinkCont m =>
    obtain ⟨h3, hr, h4⟩ : m.res3.length = 2 ∧ m.RKeyPairs.length = 2 ∧ m.res4.length = 4 := hm
    obtain ⟨r₁, r₂, hr⟩ : ∃ r₁ r₂, m.RKeyPairs = [r₁, r₂] := by
      match h : m.RKeyPairs, hr with
      | [r₁, r₂], _ => exact ⟨r₁, r₂, rfl⟩
    simp only [fresh, kindOf, Msg.parse]
    rw [addLinkCont_parse _ hr v e (by omega), addLinkCont_parse _ rfl v e (by omega),
      full (d := m.res3) (d' := zeros 2) (by simpa using h3) (by simp; omega),
      full (d := m.res4) (d' := zeros 4) (by simpa using h4) (by simp; omega)]
  | deleteLink m =>
    have h : m.res3.length = 35 := hm
    simp only [fresh, kindOf, Msg.parse]
    rw [deleteLink_parse _ v e (by omega), deleteLink_parse _ v e (by omega),
      full (d' := zeros 35) (by simpa using h) (by simp; omega)]
  | confirmRKey m =>
    have hr : m.OtherRMBs.length = 2 := hm
    obtain ⟨r₁, r₂, hr⟩ : ∃ r₁ r₂, m.OtherRMBs = [r₁, r₂] := by
      match h : m.OtherRMBs, hr with
      | [r₁, r₂], _ => exact ⟨r₁, r₂, rfl⟩
    simp only [fresh, kindOf, Msg.parse]
    rw [confirmRKey_parse _ hr v e (by omega), confirmRKey_parse _ rfl v e (by omega)]
  | confirmRKeyCont m =>
    have hr : m.OtherRMBs.length = 3 := hm
    obtain ⟨r₁, r₂, r₃, hr⟩ : ∃ r₁ r₂ r₃, m.OtherRMBs = [r₁, r₂, r₃] := by
      match h : m.OtherRMBs, hr with
      | [r₁, r₂, r₃], _ => exact ⟨r₁, r₂, r₃, rfl⟩
    simp only [fresh, kindOf, Msg.parse]
    by_cases h45 : 45 ≤ v.length
    · rw [confirmRKeyCont_parse _ hr v e (by omega), confirmRKeyCont_parse _ rfl v e (by omega)]
    · rw [confirmRKeyCont_parse_44 _ hr v e (by omega), confirmRKeyCont_parse_44 _ rfl v e (by omega)]
  | deleteRKey m =>
    obtain ⟨h4, hr, h5⟩ : m.res4.length = 2 ∧ m.rkeys.length = 8 ∧ m.res5.length = 4 := hm
    obtain ⟨k₀, k₁, k₂, k₃, k₄, k₅, k₆, k₇, hk⟩ : ∃ k₀ k₁ k₂ k₃ k₄ k₅ k₆ k₇,
        m.rkeys = [k₀, k₁, k₂, k₃, k₄, k₅, k₆, k₇] := by
      match h : m.rkeys, hr with
      | [k₀, k₁, k₂, k₃, k₄, k₅, k₆, k₇], _ => exact ⟨k₀, k₁, k₂, k₃, k₄, k₅, k₆, k₇, rfl⟩
    simp only [fresh, kindOf, Msg.parse]
    rw [deleteRKey_parse _ hk v e (by omega), deleteRKey_parse _ rfl v e (by omega),
      full (d := m.res4) (d' := zeros 2) (by simpa using h4) (by simp; omega),
      full (d := m.res5) (d' := zeros 4) (by simpa using h5) (by simp; omega)]
  | testLink m =>
    obtain ⟨h1, h2⟩ : m.UserData.length = 16 ∧ m.res3.length = 24 := hm
    simp only [fresh, kindOf, Msg.parse]
    rw [testLink_parse _ v e (by omega), testLink_parse _ v e (by omega),
      full (d := m.UserData) (d' := zeros 16) (by simpa using h1) (by simp; omega),
      full (d := m.res3) (d' := zeros 24) (by simpa using h2) (by simp; omega)]
  | cdc m =>
    obtain ⟨h1, h2, h4⟩ : m.res1.length = 2 ∧ m.res2.length = 2 ∧ m.res4.length = 19 := hm
    simp only [fresh, kindOf, Msg.parse]
    match h : m.res4, h4 with
    | x :: r, hr =>
      have hr' : r.length = 18 := by simpa using hr
      have e1 : ∀ y (t : Bytes), (copyInto (y :: t) [v[25] &&& 0x1f]).take 1
          ++ copyInto ((copyInto (y :: t) [v[25] &&& 0x1f]).drop 1) (v.drop 26)
          = (v[25] &&& 0x1f) :: copyInto t (v.drop 26) := by
        intro y t; simp [copyInto]
      rw [cdc_parse _ v e (by omega), cdc_parse _ v e (by omega),
        full (d := m.res1) (d' := zeros 2) (by simpa using h1) (by simp; omega),
        full (d := m.res2) (d' := zeros 2) (by simpa using h2) (by simp; omega), h, e1,
        show zeros 19 = 0 :: zeros 18 from rfl, e1,
        full (d := r) (d' := zeros 18) (by simpa using hr') (by simp; omega)]

/-- hypotheses met by a used value -/
example : SizedMsg (.cdc { res4 := List.replicate 19 7 }) ∧ 44 ≤ (⟨0xFE :: zeros 43, []⟩ : Slice).len := by
  constructor
  · exact ⟨rfl, rfl, rfl⟩
  · decide

/-- C18 for Add Link with 44 bytes: everything but the last two bytes of `res4` is as in a
fresh parse. -/
theorem C18_addLink_reparse_partial (a : AddLink) (ha : SizedAddLink a) (s : Slice) (hs : s.len = 44) :
    ∃ m m', a.parse s = .ret [] m ∧ parseAddLink s = .ret [] m' ∧
      { m with res4 := m.res4.take 8 } = { m' with res4 := m'.res4.take 8 } := by
  obtain ⟨v, e⟩ := s
  obtain ⟨h5, h4⟩ := ha
  simp only [Slice.len_mk] at hs
  refine ⟨_, _, addLink_parse a v e (by omega), addLink_parse {} v e (by omega), ?_⟩
  have h1 : copyInto a.res5 ((v.drop 10).take 2) = copyInto (zeros 2) ((v.drop 10).take 2) := by
    rw [copyInto_eq (by simp; omega), copyInto_eq (by simp; omega)]
  have h2 : ∀ d : Bytes, d.length = 10 → (copyInto d (v.drop 36)).take 8 = v.drop 36 := by
    intro d hd
    simp only [copyInto]
    rw [List.take_of_length_le (l := v.drop 36) (by simp; omega), List.take_append_of_le_length (by simp; omega),
      List.take_of_length_le (by simp; omega)]
  simp only [h1, h2 _ h4, h2 (zeros 10) rfl]

/-- a used value: the last two bytes of `res4` stay -/
example : SizedAddLink { res4 := List.replicate 10 7 } ∧ 44 = (⟨2 :: 44 :: zeros 42, []⟩ : Slice).len ∧
    ((AddLink.parse { res4 := List.replicate 10 7 } ⟨2 :: 44 :: zeros 42, []⟩).val?.map (·.res4)) = some (zeros 8 ++ [7, 7]) :=
  ⟨⟨rfl, rfl⟩, rfl, by decide +kernel⟩

end SMC.Props
