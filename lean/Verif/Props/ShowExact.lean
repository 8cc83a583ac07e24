import Verif.Props.CLCShow
import Verif.Props.CLCEvery
import Verif.Props.LLCShow
/-!
# C75, C76, C78, C79: when the texts of messages are right
-/

namespace SMC.Props

open SMC Spec CLC LLC

/-! ## LLC -/

theorem row_longer (is : List Item) (x : Item) (is' : List Item) (h : is ≠ []) :
    (row (is ++ is')).length < (row (is ++ x :: is')).length := by
  have f : ∀ i is, row (i :: is) = i.text ++ (is.map fun j => go! ", " ++ j.text).flatten := by
    intro i is
    induction is generalizing i with
    | nil => simp [row_one]
    | cons j js ih => rw [row_cons, ih j]; simp
  match is, h with
  | i :: is, _ =>
    rw [List.cons_append, List.cons_append, f, f]
    simp
    omega

theorem ninth_longer (bs : Bytes) :
    llcLine .addLink (withoutNinth (llcItems bs .addLink)) ≠ llcReserved bs .addLink ∧
    llcLine .addLinkCont (withoutNinth (llcItems bs .addLinkCont)) ≠ llcReserved bs .addLinkCont ∧
    llcLine .addLinkCont (visibleItems (withoutNinth (llcItems bs .addLinkCont))) ≠ llcString bs .addLinkCont := by
  have f : ∀ (k : Kind) (is : List Item) (x : Item) (is' : List Item), k ≠ .other → is ≠ [] →
      llcLine k (is ++ is') ≠ llcLine k (is ++ x :: is') := by
    intro k is x is' hk h e
    have := congrArg List.length e
    simp only [llcLine, if_neg hk, line, List.length_append] at this
    have := row_longer is x is' h
    omega
  let a := llcItems bs .addLink
  let c := llcItems bs .addLinkCont
  exact ⟨f .addLink (a.take 8) (a.getD 8 (rsvd [])) (a.drop 9) (by decide) (by simp [a, llcItems, headItems]),
    f .addLinkCont (c.take 8) (c.getD 8 (rsvd [])) (c.drop 9) (by decide) (by simp [c, llcItems, headItems]),
    f .addLinkCont ((visibleItems c).take 5) ((visibleItems c).getD 5 (rsvd [])) ((visibleItems c).drop 6) (by decide)
      (by simp [c, llcItems, headItems, visibleItems, field])⟩

/-- C75, the exact condition: the text of a message that `ParseLLC` returned is the one for its bytes if and only if
it is no Add Link Continuation. -/
theorem C75_exact (s : Slice) (l : List Bytes) (m : Msg) (h : parseLLC s = .ret l m) :
    m.string = llcString s.vis (expectedKind s.vis) ↔ expectedKind s.vis ≠ .addLinkCont := by
  refine ⟨fun e hk => ?_, C75_string_partial s l m h⟩
  rw [C75_addLinkCont_partial s l m h hk, hk] at e
  exact (ninth_longer s.vis).2.2 e

/-- C76, the exact condition: the text is the one for the bytes if and only if the message is no Add Link and no Add
Link Continuation. -/
theorem C76_exact (s : Slice) (l : List Bytes) (m : Msg) (h : parseLLC s = .ret l m) :
    m.reserved = llcReserved s.vis (expectedKind s.vis) ↔
      expectedKind s.vis ≠ .addLinkCont ∧ expectedKind s.vis ≠ .addLink := by
  refine ⟨fun e => ?_, fun c => C76_reserved_partial s l m h c.1 c.2⟩
  constructor <;> intro hk
  · rw [C76_addLink_partial s l m h (.inr hk), hk] at e
    exact (ninth_longer s.vis).2.1 e
  · rw [C76_addLink_partial s l m h (.inl hk), hk] at e
    exact (ninth_longer s.vis).1 e

/-- all three cases occur -/
example : expectedKind twoPairs = .addLinkCont ∧ expectedKind oddAddLink = .addLink ∧
    expectedKind (7 :: twoPairs.drop 1) = .testLink ∧ (∃ m, parseLLC ⟨twoPairs, []⟩ = .ret [] m) ∧
    (∃ m, parseLLC ⟨oddAddLink, []⟩ = .ret [] m) ∧ ∃ m, parseLLC ⟨7 :: twoPairs.drop 1, []⟩ = .ret [] m :=
  ⟨by decide +kernel, by decide +kernel, by decide +kernel, ⟨_, rfl⟩, ⟨_, rfl⟩, ⟨_, rfl⟩⟩

/-! ## SMC-Dv2 -/

/-- a message with the first contact extension in the bytes -/
def fceOfWire (v : Bytes) (m : AcceptSMCDv2) : AcceptSMCDv2 :=
  { m with rsv4 := UInt8.ofNat (num v 74 0 8), OSType := UInt8.ofNat (num v 75 0 4), Release := UInt8.ofNat (num v 75 4 4),
           rsv5 := raw v 76 2, Hostname := raw v 78 32 }

theorem fceOfWire_wire (v : Bytes) (m : AcceptSMCDv2) : WireFCE v (fceOfWire v m) := by
  have h1 := @num_lt v 74 0 8
  have h2 := @num_lt v 75 0 4
  have h3 := @num_lt v 75 4 4
  refine ⟨?_, ?_, ?_, rfl, rfl⟩ <;> simp only [fceOfWire, UInt8.toNat_ofNat'] <;> omega

set_option maxRecDepth 8000 in
theorem fce_string_iff (a : AcceptSMCDv2) (v : Bytes) (hl : ¬ a.hdr.Length.toNat < 114) (h0 : SameFCE a {}) :
    a.string = (fceOfWire v a).string ↔ num v 75 0 4 = 0 ∧ num v 75 4 4 = 0 ∧ plainText (raw v 78 32) = [] := by
  obtain ⟨-, h2, h3, -, h5⟩ := h0
  have w := fceOfWire_wire v a
  have f1 : a.fceString = _ := if_neg hl
  have f2 : (fceOfWire v a).fceString = _ := if_neg hl
  rw [plainText_eq, ← w.osType, ← w.release, ← w.hostname]
  unfmt [AcceptSMCDv2.string, List.append_nil]
  rw [f1, f2]
  dsimp only [fceOfWire]
  unfmt []
  simp (disch := first | decide | assumption) only [List.append_cancel_left_eq, dec_sep, osTypeStr_sep,
    List.append_cancel_right_eq, UInt8.toNat_inj, h2, h3, h5]
  have z : ∀ x : UInt8, 0 = x ↔ x.toNat = 0 := fun x => by rw [eq_comm, ← UInt8.toNat_inj]; rfl
  rw [z, z, show eidStr (zeros 32) = [] from by decide, eq_comm (a := ([] : Bytes))]

set_option maxRecDepth 8000 in
theorem fce_reserved_iff (a : AcceptSMCDv2) (v : Bytes) (hl : ¬ a.hdr.Length.toNat < 114) (h0 : SameFCE a {}) :
    a.reserved = (fceOfWire v a).reserved ↔ num v 74 0 8 = 0 ∧ num v 75 0 4 = 0 ∧ num v 75 4 4 = 0 ∧ raw v 76 2 = zeros 2 ∧
      plainText (raw v 78 32) = [] := by
  obtain ⟨h1, h2, h3, h4, h5⟩ := h0
  have w := fceOfWire_wire v a
  have f1 : a.fceReserved = _ := if_neg hl
  have f2 : (fceOfWire v a).fceReserved = _ := if_neg hl
  rw [plainText_eq, ← w.rsv4, ← w.osType, ← w.release, ← w.rsv5, ← w.hostname]
  unfmt [AcceptSMCDv2.reserved, List.append_nil]
  rw [f1, f2]
  dsimp only [fceOfWire]
  unfmt []
  simp (disch := first | decide | assumption) only [List.append_cancel_left_eq, dec_sep, osTypeStr_sep, hexInt_sep, hexBytes_sep,
    List.append_cancel_right_eq, UInt8.toNat_inj, h1, h2, h3, h4, h5]
  have z : ∀ x : UInt8, 0 = x ↔ x.toNat = 0 := fun x => by rw [eq_comm, ← UInt8.toNat_inj]; rfl
  rw [z, z, z, show eidStr (zeros 32) = [] from by decide, eq_comm (a := ([] : Bytes)), eq_comm (a := zeros 2)]

theorem long_wire {s : Slice} (hs : 8 ≤ s.len) {k : CLCKind} (hk : classify s.vis = some k) (hL : declared s.vis = s.len)
    {m : Message} (h : (freshCLC k).parse s = .ret [] m) (hx : LongFCE s.vis k) :
    ∃ a : AcceptSMCDv2, (m = .acceptSMCDv2 a ∨ m = .confirmSMCDv2 a) ∧ ¬ a.hdr.Length.toNat < 114 ∧ SameFCE a {} ∧
      (fceOfWire s.vis a).string = clcString s.vis k ∧ (fceOfWire s.vis a).reserved = clcReserved s.vis k := by
  have hsz := sized_fresh k
  obtain ⟨ha, -, -, -⟩ := C48_silence (freshCLC k) hsz s hs (by omega) m h
  have ht : m.trailer = raw s.vis (declared s.vis - 4) 4 := (C44_trailer_partial (freshCLC k) hsz s hs hL ha [] m h).1
  cases k <;> first | exact hx.elim | skip
  all_goals
    have hx : 114 < declared s.vis := hx
    obtain ⟨l0, a, h0, w, -, wf⟩ := C37_smcdv2_wire {} hsz s (by omega) (by omega) (by omega)
    simp only [freshCLC, Message.parse, h0, map_ret] at h
    cases h
    refine ⟨a, by simp, by rw [show a.hdr.Length.toNat = declared s.vis from w.hdr.length]; omega, wf (by omega), ?_⟩
    refine smcdv2_show ⟨w.hdr, w.rawBytes, w.gid, w.token, w.dmbeIdx, w.dmbeSize, w.rsv, w.rsv2, w.linkID, w.vchid,
      w.eid, w.rsv3⟩ hk (by simp) ht (.inr (fceOfWire_wire _ _))

/-- C78, the exact condition: the text is the one for the bytes if and only if, in SMC-Dv2 messages of more than 114
bytes, the first contact extension says nothing: operating system 0, release 0 and no host name. -/
theorem C78_exact (s : Slice) (hs : 8 ≤ s.len) (l : List Bytes) (m : Message) (n : UInt16)
    (hn : newMessage s = .ret l (some m, n)) (hL : declared s.vis = s.len) (m' : Message) (h : m.parse s = .ret [] m') :
    m'.string = clcString s.vis (clcKind m) ↔
      (LongFCE s.vis (clcKind m) → num s.vis 75 0 4 = 0 ∧ num s.vis 75 4 4 = 0 ∧ plainText (raw s.vis 78 32) = []) := by
  obtain ⟨k, hk, rfl⟩ := new_fresh hs hn
  have hkk : clcKind (freshCLC k) = k := by cases k <;> rfl
  rw [hkk]
  by_cases hx : LongFCE s.vis k
  · obtain ⟨a, hm, hl, h0, e, -⟩ := long_wire hs hk hL h hx
    have : m'.string = a.string := by rcases hm with rfl | rfl <;> rfl
    rw [this, ← e, fce_string_iff a s.vis hl h0]
    exact ⟨fun h _ => h, fun h => h hx⟩
  · exact ⟨fun _ c => absurd c hx, fun _ => (parsed_show s hs k hk hL m' h hx).1⟩

/-- C79, the exact condition: the reserved bits of the extension are zero as well. -/
theorem C79_exact (s : Slice) (hs : 8 ≤ s.len) (l : List Bytes) (m : Message) (n : UInt16)
    (hn : newMessage s = .ret l (some m, n)) (hL : declared s.vis = s.len) (m' : Message) (h : m.parse s = .ret [] m') :
    m'.reserved = clcReserved s.vis (clcKind m) ↔
      (LongFCE s.vis (clcKind m) → num s.vis 74 0 8 = 0 ∧ num s.vis 75 0 4 = 0 ∧ num s.vis 75 4 4 = 0 ∧
        raw s.vis 76 2 = zeros 2 ∧ plainText (raw s.vis 78 32) = []) := by
  obtain ⟨k, hk, rfl⟩ := new_fresh hs hn
  have hkk : clcKind (freshCLC k) = k := by cases k <;> rfl
  rw [hkk]
  by_cases hx : LongFCE s.vis k
  · obtain ⟨a, hm, hl, h0, -, e⟩ := long_wire hs hk hL h hx
    have : m'.reserved = a.reserved := by rcases hm with rfl | rfl <;> rfl
    rw [this, ← e, fce_reserved_iff a s.vis hl h0]
    exact ⟨fun h _ => h, fun h => h hx⟩
  · exact ⟨fun _ c => absurd c hx, fun _ => (parsed_show s hs k hk hL m' h hx).2⟩

/-- a long Confirm whose host name is empty -/
def quietConfirm : Bytes :=
  hex! "e2d4c3c40300762100000000000000010000000000000002" ++ zeros 10 ++ go! "EID" ++ zeros 29 ++ zeros 8 ++
    hex! "05 00 00 00" ++ go! "   " ++ zeros 29 ++ zeros 4 ++ hex! "e2d4c3c4"

/-- `String()` of it is right, `Reserved()` is not; of `longAccept` neither is -/
example : LongFCE quietConfirm .confirmSMCDv2 ∧ LongFCE longAccept .acceptSMCDv2 ∧ declared quietConfirm = quietConfirm.length ∧
    newMessage ⟨quietConfirm, []⟩ = .ret [] (some (.confirmSMCDv2 {}), 118) ∧
    ((Message.confirmSMCDv2 {}).parse ⟨quietConfirm, []⟩).logOf = [] ∧
    ((Message.confirmSMCDv2 {}).parse ⟨quietConfirm, []⟩).val?.map (·.string) = some (clcString quietConfirm .confirmSMCDv2) ∧
    ((Message.confirmSMCDv2 {}).parse ⟨quietConfirm, []⟩).val?.map (·.reserved) ≠ some (clcReserved quietConfirm .confirmSMCDv2) ∧
    num quietConfirm 74 0 8 = 5 ∧ num longAccept 75 0 4 = 2 := by
  refine ⟨by show 114 < declared quietConfirm; decide +kernel, by show 114 < declared longAccept; decide +kernel, ?_⟩
  decide +kernel

/-! ## C57 -/

/-- the text depends on the fields of the first contact extension -/
def ShowsFCE (m : AcceptSMCDv2) : Prop :=
  ∃ o r h, ({ m with OSType := o, Release := r, Hostname := h } : AcceptSMCDv2).string ≠ m.string

/-- `Parse` decodes the first contact extension, whatever was in the receiver -/
def DecodesFCE (s : Slice) : Prop :=
  ∀ a : AcceptSMCDv2, SizedSMCDv2 a → ∀ l m, a.parse s = .ret l m → WireFCE s.vis m

theorem decodesFCE_iff (s : Slice) (hl : 78 ≤ declared s.vis) (hd : declared s.vis ≤ s.len) :
    DecodesFCE s ↔ declared s.vis = 114 := by
  constructor
  · intro h
    by_cases c : declared s.vis = 114
    · exact c
    have get : ∀ a : AcceptSMCDv2, SizedSMCDv2 a → a.OSType.toNat = num s.vis 75 0 4 := by
      intro a ha
      obtain ⟨l, m, e, -, -, hs⟩ := C37_smcdv2_wire a ha s (by omega) hl hd
      have w := h a ha l m e
      rw [← (hs c).2.1]
      exact w.osType
    have h0 := get {} (by decide)
    have h1 := get { OSType := 1 } (by decide)
    rw [← h0] at h1
    cases h1
  · intro c a ha l m e
    obtain ⟨l', m', e', -, w, -⟩ := C37_smcdv2_wire a ha s (by omega) hl hd
    rw [e] at e'
    cases e'
    exact w c

set_option maxRecDepth 8000 in
theorem showsFCE_iff (m : AcceptSMCDv2) : ShowsFCE m ↔ 114 ≤ m.hdr.Length.toNat := by
  constructor
  · rintro ⟨o, r, h, hne⟩
    by_cases c : m.hdr.Length.toNat < 114
    · have f1 : m.fceString = [] := if_pos c
      have f2 : ({ m with OSType := o, Release := r, Hostname := h } : AcceptSMCDv2).fceString = [] := if_pos c
      exact absurd (by unfold AcceptSMCDv2.string; rw [f1, f2]) hne
    · omega
  · intro c
    refine ⟨m.OSType, m.Release + 1, m.Hostname, fun h => ?_⟩
    have c' : ¬ m.hdr.Length.toNat < 114 := by omega
    have f1 : m.fceString = _ := if_neg c'
    have f2 : ({ m with Release := m.Release + 1 } : AcceptSMCDv2).fceString = _ := if_neg c'
    change ({ m with Release := m.Release + 1 } : AcceptSMCDv2).string = m.string at h
    unfmt [AcceptSMCDv2.string, List.append_nil] at h
    rw [f1, f2] at h
    unfmt [] at h
    simp (disch := first | decide | assumption) only [List.append_cancel_left_eq, dec_sep] at h
    have h := congrArg UInt8.toNat (UInt8.toNat_inj.1 h.1)
    rw [UInt8.toNat_add] at h
    have := m.Release.toNat_lt
    simp at h
    omega

/-- C57, the exact condition: the text shows the first contact extension exactly when it was decoded if and only if the
message has at most 114 bytes; longer ones never have it decoded and always show it. -/
theorem C57_exact (a : AcceptSMCDv2) (ha : SizedSMCDv2 a) (s : Slice) (hl : 78 ≤ declared s.vis)
    (hd : declared s.vis ≤ s.len) (l : List Bytes) (m : AcceptSMCDv2) (h : a.parse s = .ret l m) :
    ((ShowsFCE m ↔ DecodesFCE s) ↔ declared s.vis ≤ 114) ∧ (114 < declared s.vis → ShowsFCE m ∧ ¬ DecodesFCE s) := by
  obtain ⟨l', m', e', w, -, -⟩ := C37_smcdv2_wire a ha s (by omega) hl hd
  rw [h] at e'
  cases e'
  rw [showsFCE_iff, decodesFCE_iff s hl hd, show m.hdr.Length.toNat = declared s.vis from w.hdr.length]
  omega

/-- a long message, and one of 114 bytes -/
example : 114 < declared longAccept ∧ declared longAccept = longAccept.length ∧
    (AcceptSMCDv2.parse {} ⟨longAccept, []⟩).logOf = [] ∧ (AcceptSMCDv2.parse {} ⟨longAccept, []⟩).val?.isSome ∧
    declared (longAccept.take 5 ++ [0, 114] ++ longAccept.drop 7) = 114 := by
  decide +kernel

end SMC.Props
