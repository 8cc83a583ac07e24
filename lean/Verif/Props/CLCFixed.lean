import Verif.Props.CLCHeader
/-!
# C34–C37: fields of Decline, Accept and Confirm messages

The statements are about every complete message: the declared length is at least that of the
kind and the buffer holds at least that many bytes. Nothing is assumed about eyecatcher and
type, what lies behind the message, the capacity of the buffer and the old contents of the
message value. The trailer is treated in C44.
-/

namespace SMC.Props

open SMC Spec CLC

theorem u24nat (a b c : UInt8) :
    a.toNat <<< 16 ||| b.toNat <<< 8 ||| c.toNat = (a.toNat * 256 + b.toNat) * 256 + c.toNat := by
  have ha := a.toNat_lt; have hb := b.toNat_lt; have hc := c.toNat_lt
  rw [Nat.or_assoc, Nat.or_comm (b.toNat <<< 8), Nat.or_comm (a.toNat <<< 16),
    or_shift _ _ 8 (by omega), or_shift _ _ 16 (by omega)]
  omega

theorem declared_eq (v : Bytes) (hv : 8 ≤ v.length) : (hdrOf v hv).Length.toNat = declared v := (hdrOf_wire v hv).length

/-- C34, version 1. `OSType` is a field of version 2 only; it keeps its value. -/
theorem C34_decline_wire (d : Decline) (hd : SizedDecline d) (s : Slice) (hs : 28 ≤ s.len)
    (hl : 28 ≤ declared s.vis) :
    ∃ l m, d.parse s = .ret l m ∧ WireDecline s.vis m ∧ m.OSType = d.OSType := by
  obtain ⟨v, e⟩ := s
  simp only [Slice.len_mk] at hs hl
  refine ⟨_, _, decline_parse v e (by omega) d hd.1 hd.2.1 hd.2.2.1 hd.2.2.2 (by rwa [declared_eq]) hs,
    ⟨hdrOf_wire _ _, ?_, ?_, ?_, ?_⟩, rfl⟩
  all_goals wire_field

/-- C34, version 2. -/
theorem C34_declineV2_wire (d : DeclineV2) (hd : SizedDeclineV2 d) (s : Slice) (hs : 28 ≤ s.len)
    (hl : 28 ≤ declared s.vis) :
    ∃ l m, d.parse s = .ret l m ∧ WireDeclineV2 s.vis m := by
  obtain ⟨v, e⟩ := s
  simp only [Slice.len_mk] at hs hl
  refine ⟨_, _, declineV2_parse v e (by omega) d hd.1 hd.2.1 hd.2.2.1 hd.2.2.2 (by rwa [declared_eq]) hs,
    ⟨hdrOf_wire _ _, ?_, ?_, ?_, ?_, ⟨rfl, ?_, ?_, ?_⟩⟩⟩
  case refine_5 =>
    show num [v[20] &&& 0b00001111, v[21], v[22], v[23]] 0 0 4 = 0
    rw [num_byte _ _ _ _ (by simp) (by omega)]
    simp only [List.getElem_cons_zero]
    generalize v[20] = b
    revert b
    byte_decide
  case refine_6 =>
    show num [v[20] &&& 0b00001111, v[21], v[22], v[23]] 0 4 4 = num v 20 4 4
    rw [num_byte _ _ _ _ (by simp) (by omega), num_byte _ _ _ _ (by omega) (by omega)]
    simp only [List.getElem_cons_zero]
    generalize v[20] = b
    revert b
    byte_decide
  case refine_7 =>
    apply List.ext_getElem
    · simp [raw]; omega
    · intro i hi _
      have : i = 0 ∨ i = 1 ∨ i = 2 := by simp at hi; omega
      rcases this with rfl | rfl | rfl <;> simp [raw]
  all_goals wire_field

/-- a complete Decline of version 2 with OS type 2 and a bit next to it -/
example : SizedDeclineV2 {} ∧ SizedDecline {} ∧
    28 ≤ declared (hex! "e2 d4 c3 c4 04 00 1c 20 00 01 02 03 04 05 06 07 03 03 00 00 28 00 00 01 e2 d4 c3 c4") ∧
    (hex! "e2 d4 c3 c4 04 00 1c 20 00 01 02 03 04 05 06 07 03 03 00 00 28 00 00 01 e2 d4 c3 c4").length = 28 := by
  decide +kernel

/-- C35. -/
theorem C35_smcr_wire (a : AcceptSMCR) (ha : SizedSMCR a) (s : Slice) (hs : 68 ≤ s.len)
    (hl : 68 ≤ declared s.vis) :
    ∃ l m, a.parse s = .ret l m ∧ WireSMCR s.vis m := by
  obtain ⟨v, e⟩ := s
  simp only [Slice.len_mk] at hs hl
  refine ⟨_, _, smcr_parse v e (by omega) a ha.1 ha.2.1 ha.2.2 (by rwa [declared_eq]) hs,
    ⟨hdrOf_wire _ _, ?_, ?_, ?_, ?_, ?qpn, ?_, ?_, ?_, ?_, ?_, ?_, ?_, ?_, ?psn⟩⟩
  case qpn => rw [num_24 v _ (by omega)]; exact u24nat _ _ _
  case psn => rw [num_24 v _ (by omega)]; exact u24nat _ _ _
  all_goals wire_field

/-- the hypotheses hold for the accept message of the unit test -/
example : SizedSMCR {} ∧ 68 ≤ declared (hex! "e2 d4 c3 d9 02 00 44 18") := by decide +kernel

/-- C36. -/
theorem C36_smcd_wire (a : AcceptSMCD) (ha : SizedSMCD a) (s : Slice) (hs : 48 ≤ s.len)
    (hl : 48 ≤ declared s.vis) :
    ∃ l m, a.parse s = .ret l m ∧ WireSMCD s.vis m := by
  obtain ⟨v, e⟩ := s
  simp only [Slice.len_mk] at hs hl
  refine ⟨_, _, smcd_parse v e (by omega) a ha.1 ha.2.1 ha.2.2.1 ha.2.2.2 (by rwa [declared_eq]) hs,
    ⟨hdrOf_wire _ _, ?_, ?_, ?_, ?_, ?_, ?_, ?_, ?_, ?_⟩⟩
  all_goals wire_field

example : SizedSMCD {} ∧ 48 ≤ declared (hex! "e2 d4 c3 c4 02 00 30 11") := by decide +kernel

/-- C37: the fields common to all messages. -/
theorem C37_smcdv2_wire (a : AcceptSMCDv2) (ha : SizedSMCDv2 a) (s : Slice) (hs : 78 ≤ s.len)
    (hl : 78 ≤ declared s.vis) (hd : declared s.vis ≤ s.len) :
    ∃ l m, a.parse s = .ret l m ∧ WireSMCDv2 s.vis m ∧
      (declared s.vis = 114 → WireFCE s.vis m) ∧ (declared s.vis ≠ 114 → SameFCE m a) := by
  obtain ⟨v, e⟩ := s
  simp only [Slice.len_mk] at hs hl hd
  obtain ⟨h1, h2, h3, h4, h5, h6, h7⟩ := ha
  by_cases hn : declared v = 114
  · refine ⟨_, _, smcdv2_parse_fce v e (by omega) a h1 h2 h3 h4 h7 h5 h6 (by rwa [declared_eq]) (by omega),
      ⟨hdrOf_wire _ _, ?_, ?_, ?_, ?_, ?_, ?_, ?_, ?_, ?_, ?_, ?_⟩, fun _ => ⟨?_, ?_, ?_, ?_, ?_⟩, fun h => absurd hn h⟩
    all_goals (try unfold smcdv2Of)
    all_goals wire_field
  · refine ⟨_, _, smcdv2_parse v e (by omega) a h1 h2 h3 h4 h7 (by rwa [declared_eq]) (by rwa [declared_eq]) hs,
      ⟨hdrOf_wire _ _, ?_, ?_, ?_, ?_, ?_, ?_, ?_, ?_, ?_, ?_, ?_⟩, fun h => absurd h hn,
      fun _ => ⟨rfl, rfl, rfl, rfl, rfl⟩⟩
    all_goals (try unfold smcdv2Of)
    all_goals wire_field

/-- messages with and without first contact extension -/
example : SizedSMCDv2 {} ∧ declared (hex! "e2 d4 c3 c4 02 00 72 29") = 114 ∧
    declared (hex! "e2 d4 c3 c4 02 00 4e 21") = 78 := by
  decide +kernel

end SMC.Props
