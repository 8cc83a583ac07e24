import Verif.Spec.CLC
import Verif.Lemmas.CLC
import Verif.Lemmas.Bits
import Verif.Props.LLCWire
/-!
# C28–C32: eyecatcher, header and classification of CLC messages
-/

namespace SMC.Props

open SMC Spec CLC

/-! ## C28 -/

/-- C28: the value, for every slice with four bytes of capacity. The bytes looked at are the
first four of the backing array, even if the slice is shorter. -/
theorem C28_hasEyecatcher (s : Slice) (h : 4 ≤ s.cap) :
    hasEyecatcher s = .ret [] (decide (IsEye (raw (s.vis ++ s.extra) 0 4))) :=
  hasEyecatcher_eq s.vis s.extra h

/-- C28: for slices of at least four bytes the capacity does not matter. -/
theorem C28_hasEyecatcher_len (s : Slice) (h : 4 ≤ s.len) :
    hasEyecatcher s = .ret [] (decide (IsEye (raw s.vis 0 4))) := by
  have h' : 4 ≤ s.vis.length := h
  rw [C28_hasEyecatcher s (by simp only [Slice.cap]; omega)]
  simp only [raw, List.drop_zero, List.take_append_of_le_length h']

/-- C28: panics exactly below four bytes of capacity. -/
theorem C28_hasEyecatcher_panics_iff (s : Slice) : Go.Panics (hasEyecatcher s) ↔ s.cap < 4 := by
  constructor
  · intro hp
    apply Nat.lt_of_not_le
    intro h
    rw [C28_hasEyecatcher s h] at hp
    exact Go.not_panics_ret _ _ hp
  · intro h
    have : s.sto EyecatcherLen = .panic [] := by
      have hn : ¬ (0 ≤ 4 ∧ 4 ≤ s.cap) := by omega
      unfold Slice.sto Slice.sub EyecatcherLen
      rw [if_neg hn]
    exact ⟨[], by simp [hasEyecatcher, this]⟩

/-- a slice of two bytes whose backing array goes on with the rest of an eyecatcher -/
example : hasEyecatcher ⟨[0xE2, 0xD4], [0xC3, 0xC4]⟩ = .ret [] true := by decide

/-! ## C32 -/

theorem hdrOf_wire (v : Bytes) (hv : 8 ≤ v.length) : WireHeader v (hdrOf v hv) := by
  refine ⟨?_, ?_, ?_, ?_, ?_, ?_, ?_, ?_⟩
  all_goals unfold hdrOf
  all_goals wire_field

/-- C32: every header field. -/
theorem C32_header_wire (h : Header) (hh : SizedHeader h) (s : Slice) (hs : 8 ≤ s.len) :
    ∃ m, h.parse s = .ret [] m ∧ WireHeader s.vis m :=
  ⟨_, header_parse h hh s.vis s.extra hs, hdrOf_wire s.vis hs⟩

/-- C32: panics exactly on fewer than eight bytes. -/
theorem C32_header_panics_iff (h : Header) (hh : SizedHeader h) (s : Slice) :
    Go.Panics (h.parse s) ↔ s.len < 8 :=
  (header_needs h s).panics_iff fun hs => ⟨_, header_parse h hh s.vis s.extra hs⟩

/-- C32: no bit of the header is lost. -/
theorem C32_header_lossless (h : Header) (hh : SizedHeader h) (s : Slice) (hs : s.len = 8) :
    ∃ m, h.parse s = .ret [] m ∧ bitsHeader m = toBits s.vis ∧ m.Pathv2.toNat = 2 * m.Flag.toNat + m.rsv.toNat := by
  obtain ⟨m, hm, hw⟩ := C32_header_wire h hh s (by omega)
  have hl : s.vis.length = 8 := hs
  refine ⟨m, hm, ?_, ?_⟩
  · unfold bitsHeader
    rw [hw.eyecatcher, hw.typ, hw.length, hw.version, hw.flag, hw.rsv, hw.path]
    bit_join
    exact seg_all (by rw [toBits_length, hl])
  · rw [hw.pathv2, hw.flag, hw.rsv, num_add s.vis 7 4 1 1 (by omega)]
    simp only [Nat.reduceAdd, Nat.reducePow]
    omega

example : SizedHeader {} ∧ WireHeader (hex! "e2 d4 c3 d9 02 00 44 1c")
    { Eyecatcher := hex! "e2 d4 c3 d9", Typ := 2, Length := 68, Version := 1, Flag := 1, rsv := 1, Pathv2 := 3 } :=
  ⟨rfl, ⟨by decide +kernel, by decide +kernel, by decide +kernel, by decide +kernel, by decide +kernel, by decide +kernel,
    by decide +kernel, by decide +kernel⟩⟩

/-! ## C29–C31 -/

/-- what `NewMessage` returns for a buffer that starts with `v` -/
def newMessageResult (v : Bytes) : Option Message × UInt16 :=
  match classify v with
  | some k => (some (freshCLC k), UInt16.ofNat (declared v))
  | none => (none, 0)

theorem shr4 : ∀ b : UInt8, b >>> 4 = (b &&& 0b11110000) >>> 4 := by byte_decide

/-- what `NewMessage` logs -/
def newMessageLog (v : Bytes) : List Bytes :=
  if IsEye (raw v 0 4) ∧ 1024 < declared v then
    [go! "Error parsing CLC header: message too big", dumpText (v.take 8)]
  else []

theorem newMessage_eq (v e : Bytes) (hv : 8 ≤ v.length) :
    newMessage ⟨v, e⟩ = .ret (newMessageLog v) (newMessageResult v) := by
  have hw := hdrOf_wire v hv
  have he := C28_hasEyecatcher_len ⟨v, e⟩ (by simp; omega)
  have hlen : be16 ⟨(v.drop 5).take 2, v.drop 7 ++ e⟩ = .ret [] (hdrOf v hv).Length := be16_drop (by omega)
  have htyp : (Slice.mk v e).idx 4 = .ret [] (hdrOf v hv).Typ := Slice.idx_of_lt (by omega)
  have h7 : (Slice.mk v e).idx 7 = .ret [] v[7] := Slice.idx_of_lt (by omega)
  have hver : v[7] >>> 4 = (hdrOf v hv).Version := shr4 _
  have hpath : v[7] &&& 3 = (hdrOf v hv).Path := rfl
  have hd : declared v = (hdrOf v hv).Length.toNat := hw.length.symm
  unfold newMessage newMessageResult newMessageLog classify
  rw [he, Go.ret_bind]
  by_cases heye : IsEye (raw v 0 4)
  · simp only [heye, true_and, decide_true, Bool.true_eq_false, if_false]
    rw [Slice.sub_mk (by omega) (by omega), Go.ret_bind, hlen, Go.ret_bind]
    by_cases hbig : (hdrOf v hv).Length.toNat > MaxMessageSize
    · have hbig' : ¬ declared v ≤ 1024 := by unfold MaxMessageSize at hbig; omega
      have hlt : 1024 < declared v := by omega
      simp only [hbig, if_true, hbig', if_false, hlt]
      have := reject_eq (go! "Error parsing CLC header: message too big") v e HeaderLen ((none, 0) : Option Message × UInt16)
      have h8 : HeaderLen ≤ v.length + e.length := by unfold HeaderLen; omega
      rw [reject, if_pos h8, List.take_append_of_le_length (by simpa [HeaderLen] using hv)] at this
      exact this
    · have hbig' : declared v ≤ 1024 := by unfold MaxMessageSize at hbig; omega
      have hlt : ¬ 1024 < declared v := by omega
      simp only [hbig, if_false, hbig', if_true, hlt]
      rw [htyp, Go.ret_bind, h7, Go.ret_bind, Go.ret_bind, hver, hpath]
      rw [hd, ← hw.typ, ← hw.version, show pathOf v = (hdrOf v hv).Path.toNat from hw.path.symm]
      have hmem : UInt16.ofNat (hdrOf v hv).Length.toNat = (hdrOf v hv).Length := UInt16.ofNat_toNat
      have tst : ∀ (x : UInt8) (n : Nat), n < 256 → (x = UInt8.ofNat n ↔ x.toNat = n) := by
        intro x n hn
        rw [← UInt8.toNat_inj, UInt8.toNat_ofNat_of_lt' hn]
      have t1 := tst (hdrOf v hv).Typ 1 (by omega)
      have t2 := tst (hdrOf v hv).Typ 2 (by omega)
      have t3 := tst (hdrOf v hv).Typ 3 (by omega)
      have t4 := tst (hdrOf v hv).Typ 4 (by omega)
      have p0 := tst (hdrOf v hv).Path 0 (by omega)
      have p1 := tst (hdrOf v hv).Path 1 (by omega)
      have v2 := tst (hdrOf v hv).Version 2 (by omega)
      simp only [TypeProposal, TypeAccept, TypeConfirm, TypeDecline, SMCTypeR, SMCTypeD, SMCv2]
      simp only [UInt8.reduceOfNat] at t1 t2 t3 t4 p0 p1 v2
      simp only [t1, t2, t3, t4, p0, p1, v2, Go.pure_eq, hmem]
      generalize (hdrOf v hv).Typ.toNat = T
      generalize (hdrOf v hv).Version.toNat = W
      generalize (hdrOf v hv).Path.toNat = P
      clear hlen htyp hw he h7 hver hpath hd hmem tst t1 t2 t3 t4 p0 p1 v2 hbig hbig' hlt
      unfold select
      by_cases hW : W = 2 <;> simp only [hW, if_true, if_false] <;>
        match T, P with
        | 0, _ => rfl
        | 1, _ => rfl
        | 2, 0 => rfl
        | 2, 1 => rfl
        | 2, _ + 2 => rfl
        | 3, 0 => rfl
        | 3, 1 => rfl
        | 3, _ + 2 => rfl
        | 4, _ => rfl
        | _ + 5, _ => rfl
  · simp only [heye, false_and, decide_false, if_true, if_false, Go.pure_eq]

/-- C29: the kind of the message returned, for every buffer of at least eight bytes; the
message is a zero value. -/
theorem C29_newMessage_kind (s : Slice) (hs : 8 ≤ s.len) :
    ∃ l n, newMessage s = .ret l ((classify s.vis).map freshCLC, n) := by
  refine ⟨newMessageLog s.vis, (newMessageResult s.vis).2, (newMessage_eq s.vis s.extra hs).trans ?_⟩
  unfold newMessageResult
  cases classify s.vis <;> rfl

/-- C29: something is logged exactly for messages that declare more than 1024 bytes. -/
theorem C29_newMessage_log (s : Slice) (hs : 8 ≤ s.len) :
    (newMessage s).logOf = [] ↔ ¬ (IsEye (raw s.vis 0 4) ∧ 1024 < declared s.vis) := by
  have : newMessage s = .ret (newMessageLog s.vis) (newMessageResult s.vis) := newMessage_eq s.vis s.extra hs
  rw [this]
  show newMessageLog s.vis = [] ↔ _
  unfold newMessageLog
  split <;> simp_all

example : classify (hex! "e2 d4 c3 c4 03 00 30 21") = some .confirmSMCDv2 ∧
    classify (hex! "e2 d4 c3 c4 03 00 30 22") = none ∧ classify (hex! "e2 d4 c3 c4 03 04 01 21") = none := by
  decide +kernel

/-- C30: the length returned. -/
theorem C30_newMessage_length (s : Slice) (hs : 8 ≤ s.len) (l : List Bytes) (m : Option Message) (n : UInt16)
    (h : newMessage s = .ret l (m, n)) :
    (m.isSome → n.toNat = declared s.vis ∧ n.toNat ≤ 1024) ∧ (m = none → n = 0) := by
  have h2 : newMessage s = .ret (newMessageLog s.vis) (newMessageResult s.vis) := newMessage_eq s.vis s.extra hs
  rw [h2] at h
  have h3 := (Go.ret.inj h).2
  unfold newMessageResult at h3
  cases hc : classify s.vis with
  | none => simp only [hc, Prod.mk.injEq] at h3; simp [← h3.1, ← h3.2]
  | some k =>
    simp only [hc, Prod.mk.injEq] at h3
    have hd : declared s.vis ≤ 1024 := by
      unfold classify at hc
      split at hc
      · next hh => exact hh.2
      · cases hc
    have : (UInt16.ofNat (declared s.vis)).toNat = declared s.vis := UInt16.toNat_ofNat_of_lt' (by simp [UInt16.size]; omega)
    simp [← h3.1, ← h3.2, this, hd]

example : ∃ m, newMessage ⟨hex! "e2 d4 c3 d9 04 00 1c 10", []⟩ = .ret [] (some m, 28) := ⟨.decline {}, by decide +kernel⟩

/-- C31: no panic on eight bytes or more, whatever the capacity. -/
theorem C31_newMessage_no_panic (s : Slice) (hs : 8 ≤ s.len) : ¬ Go.Panics (newMessage s) := by
  have : newMessage s = .ret (newMessageLog s.vis) (newMessageResult s.vis) := newMessage_eq s.vis s.extra hs
  rw [this]; exact Go.not_panics_ret _ _

/-- C31: only the first eight bytes matter. -/
theorem C31_newMessage_local (s t : Slice) (hs : 8 ≤ s.len) (ht : 8 ≤ t.len) (h : s.vis.take 8 = t.vis.take 8) :
    newMessage s = newMessage t := by
  have key : ∀ (s : Slice), 8 ≤ s.len → newMessage s = newMessage ⟨s.vis.take 8, []⟩ := by
    rintro ⟨v, e⟩ hv
    simp only [Slice.len_mk] at hv
    have hv' : 8 ≤ (v.take 8).length := by simp; omega
    rw [newMessage_eq v e hv, newMessage_eq (v.take 8) [] hv']
    have h1 := hdrOf_wire v hv
    have h2 := hdrOf_wire (v.take 8) hv'
    have h3 : hdrOf v hv = hdrOf (v.take 8) hv' := by simp [hdrOf, List.take_take]
    have hd : declared v = declared (v.take 8) := by rw [declared, declared, ← h1.length, ← h2.length, h3]
    have hp : pathOf v = pathOf (v.take 8) := by rw [pathOf, pathOf, ← h1.path, ← h2.path, h3]
    have he : raw v 0 4 = raw (v.take 8) 0 4 := by rw [← h1.eyecatcher, ← h2.eyecatcher, h3]
    have hc : classify v = classify (v.take 8) := by
      unfold classify
      rw [hd, hp, he, ← h1.typ, ← h2.typ, ← h1.version, ← h2.version, h3]
    unfold newMessageResult newMessageLog
    rw [hc, hd, he, List.take_take]; rfl
  rw [key s hs, key t ht, h]

/-- C31: what happens below eight bytes, for slices without spare capacity. -/
theorem C31_newMessage_short (v : Bytes) (hv : v.length < 8) :
    Go.Panics (newMessage ⟨v, []⟩) ↔ v.length < 4 ∨ IsEye (raw v 0 4) := by
  by_cases h4 : v.length < 4
  · simp only [h4, true_or, iff_true]
    obtain ⟨l, hl⟩ := (C28_hasEyecatcher_panics_iff ⟨v, []⟩).2 (by simpa using h4)
    exact ⟨l, by simp [newMessage, hl]⟩
  · have he := C28_hasEyecatcher_len ⟨v, []⟩ (by simp; omega)
    unfold newMessage
    rw [he, Go.ret_bind]
    by_cases heye : IsEye (raw v 0 4)
    · simp only [heye, decide_true, Bool.true_eq_false, if_false, or_true, iff_true]
      by_cases h7 : v.length < 7
      · have : (Slice.mk v []).sub 5 7 = .panic [] := by
          unfold Slice.sub; rw [if_neg (by simp; omega)]
        rw [this, Go.panic_bind]; exact ⟨_, rfl⟩
      · apply Go.panics_of
        intro l a hr
        rw [Slice.sub_mk (by omega) (by omega), Go.ret_bind, be16_drop (by omega), Go.ret_bind] at hr
        split at hr
        · have : (Slice.mk v []).sto HeaderLen = .panic [] := by
            unfold Slice.sto Slice.sub HeaderLen; rw [if_neg (by simp; omega)]
          rw [this] at hr
          cases hr
        · rw [Slice.idx_of_lt (by omega), Go.ret_bind, Slice.idx_of_ge (by omega)] at hr
          cases hr
    · simp only [heye, decide_false, if_true, or_false, h4, iff_false]
      exact Go.not_panics_ret _ _

/-- seven bytes with an eyecatcher panic, seven other bytes do not -/
example : Go.Panics (newMessage ⟨hex! "e2 d4 c3 d9 04 00 1c", []⟩) ∧ ¬ Go.Panics (newMessage ⟨hex! "e2 d4 c3 d8 04 00 1c", []⟩) :=
  ⟨(C31_newMessage_short _ (by decide)).2 (by decide), fun h => absurd ((C31_newMessage_short _ (by decide)).1 h) (by decide)⟩

end SMC.Props
