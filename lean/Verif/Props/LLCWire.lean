import Verif.Spec.LLC
import Verif.Lemmas.LLC
import Verif.Lemmas.Wire
/-!
# C04–C12: LLC and CDC fields are the wire bits
-/

namespace SMC.Props

open SMC Spec LLC

/-- one field of a closed form against its position -/
syntax "wire_field" : tactic
macro_rules
  | `(tactic| wire_field) => `(tactic|
    first
    | rfl
    | (simp (disch := first | omega | (simp; omega)) only [num_8, num_16, num_24, num_32, num_64, u16_toNat, u24_toNat, u32_toNat,
        u64_toNat, Nat.reduceAdd]; done)
    | (simp (disch := first | omega | (simp; omega)) only [flag, num_byte]
       generalize (getElem (_ : List UInt8) (_ : Nat) _ : UInt8) = b
       revert b
       byte_decide)
    | (simp only [raw]; rw [copyInto_eq (by simp; omega)]; rw [List.take_of_length_le (by simp; omega)])
    | (simp only [raw]; rw [copyInto_eq (by simp; omega)]))

/-- C04. Whatever the message value held before. -/
theorem C04_confirmLink_wire (c : ConfirmLink) (hc : SizedConfirmLink c) (s : Slice) (hs : s.len = 44) :
    ∃ m, c.parse s = .ret [] m ∧ WireConfirmLink s.vis m := by
  obtain ⟨v, e⟩ := s
  simp only [Slice.len_mk, SizedConfirmLink] at hs hc
  refine ⟨_, confirmLink_parse c v e (by omega), ⟨⟨?_, ?_, ?_⟩, ?_, ?_, ?_, ?_, ?_, ?_, ?_, ?_, ?_, ?_⟩⟩
  all_goals wire_field

/-- a message meeting the hypotheses, with the reply bit and a reserved bit set -/
example : SizedConfirmLink {} ∧ (⟨hex! "01 2c 00 83 98 03 9b ab cd ef fe 80 00 00 00 00 00 00 9a 03 9b ff fe ab cd ef 00 01 07 00 00 01 00 00 02 00 00 00 00 00 00 00 00 00", []⟩ : Slice).len = 44 ∧
    num (hex! "01 2c 00 83 98 03 9b ab cd ef fe 80 00 00 00 00 00 00 9a 03 9b ff fe ab cd ef 00 01 07 00 00 01 00 00 02 00 00 00 00 00 00 00 00 00") 26 0 24 = 263 := by
  decide +kernel

/-- C05. The last two bytes of `res4` lie beyond the 44 bytes; they keep the old contents of
the message value (zero for a fresh one). -/
theorem C05_addLink_wire (a : AddLink) (ha : SizedAddLink a) (s : Slice) (hs : s.len = 44) :
    ∃ m, a.parse s = .ret [] m ∧ WireAddLink s.vis (a.res4.drop 8) m := by
  obtain ⟨v, e⟩ := s
  simp only [Slice.len_mk, SizedAddLink] at hs ha
  refine ⟨_, addLink_parse a v e (by omega),
    ⟨⟨?_, ?_, ?_⟩, ?_, ?_, ?_, ?_, ?_, ?_, ?_, ?_, ?_, ?_, ?_, ?_, ?_, ?res4⟩⟩
  case res4 =>
    simp only [copyInto, raw]
    rw [List.take_of_length_le (by simp; omega), List.take_of_length_le (by simp; omega)]
    simp [hs]
  all_goals wire_field

/-- C05 for `ParseAddLink` -/
theorem C05_parseAddLink_wire (s : Slice) (hs : s.len = 44) :
    ∃ m, parseAddLink s = .ret [] m ∧ WireAddLink s.vis [0, 0] m :=
  C05_addLink_wire {} ⟨rfl, rfl⟩ s hs

example : (⟨hex! "02 2c 31 c5 98 03 9b ab cd ef 11 22 fe 80 00 00 00 00 00 00 9a 03 9b ff fe ab cd ef 00 01 07 03 25 00 02 01 0a 0b 0c 0d 0e 0f 10 11", []⟩ : Slice).len = 44 ∧
    num (hex! "02 2c 31 c5 98 03 9b ab cd ef 11 22 fe 80 00 00 00 00 00 00 9a 03 9b ff fe ab cd ef 00 01 07 03 25 00 02 01 0a 0b 0c 0d 0e 0f 10 11") 32 4 4 = 5 := by
  decide +kernel

theorem C06_addLinkCont_wire (a : AddLinkCont) (ha : SizedAddLinkCont a) (s : Slice) (hs : s.len = 44) :
    ∃ m, a.parse s = .ret [] m ∧ WireAddLinkCont s.vis m := by
  obtain ⟨v, e⟩ := s
  simp only [Slice.len_mk, SizedAddLinkCont] at hs ha
  obtain ⟨r₁, r₂, hr⟩ : ∃ r₁ r₂, a.RKeyPairs = [r₁, r₂] := by
    match h : a.RKeyPairs, ha.2.1 with
    | [r₁, r₂], _ => exact ⟨r₁, r₂, rfl⟩
  refine ⟨_, addLinkCont_parse a hr v e (by omega),
    ⟨⟨?_, ?_, ?_⟩, ?_, ?_, ?_, ?_, ?_, ?_, ⟨_, _, rfl, ⟨?_, ?_, ?_⟩, ⟨?_, ?_, ?_⟩⟩, ?_⟩⟩
  all_goals wire_field

example : SizedAddLinkCont {} ∧
    num (hex! "03 2c 00 80 01 01 00 00 00 00 00 01 00 00 00 02 00 00 00 00 00 00 00 03 00 00 00 04 00 00 00 05 00 00 00 00 00 00 00 06 00 00 00 00") 32 0 64 = 6 := by
  unfold SizedAddLinkCont; decide +kernel

theorem C07_deleteLink_wire (d : DeleteLink) (hd : SizedDeleteLink d) (s : Slice) (hs : s.len = 44) :
    ∃ m, d.parse s = .ret [] m ∧ WireDeleteLink s.vis m := by
  obtain ⟨v, e⟩ := s
  simp only [Slice.len_mk, SizedDeleteLink] at hs hd
  refine ⟨_, deleteLink_parse d v e (by omega), ⟨⟨?_, ?_, ?_⟩, ?_, ?_, ?_, ?_, ?_, ?_, ?_, ?_⟩⟩
  all_goals wire_field

example : SizedDeleteLink {} ∧
    num (hex! "04 2c 00 60 00 00 10 00 00 00 00 00 00 00 00 00 00 00 00 00 00 00 00 00 00 00 00 00 00 00 00 00 00 00 00 00 00 00 00 00 00 00 00 00") 5 0 32 = 0x100000 := by
  unfold SizedDeleteLink; decide +kernel

theorem C08_confirmRKey_wire (c : ConfirmRKey) (hc : SizedConfirmRKey c) (s : Slice) (hs : s.len = 44) :
    ∃ m, c.parse s = .ret [] m ∧ WireConfirmRKey s.vis m := by
  obtain ⟨v, e⟩ := s
  simp only [Slice.len_mk, SizedConfirmRKey] at hs hc
  obtain ⟨r₁, r₂, hr⟩ : ∃ r₁ r₂, c.OtherRMBs = [r₁, r₂] := by
    match h : c.OtherRMBs, hc with
    | [r₁, r₂], _ => exact ⟨r₁, r₂, rfl⟩
  refine ⟨_, confirmRKey_parse c hr v e (by omega),
    ⟨⟨?_, ?_, ?_⟩, ?_, ?_, ?_, ?_, ?_, ?_, ?_, ?_, ?_, ⟨_, _, rfl, ⟨?_, ?_, ?_⟩, ⟨?_, ?_, ?_⟩⟩, ?_⟩⟩
  all_goals wire_field

example : SizedConfirmRKey {} ∧
    num (hex! "06 2c 00 00 00 00 00 15 5d 00 00 00 0e ef 4d 00 00 00 00 00 00 00 00 00 00 00 00 00 00 00 00 00 00 00 00 00 00 00 00 00 00 00 00 00") 9 0 64 = 0xeef4d0000 := by
  unfold SizedConfirmRKey; decide +kernel

/-- C09 is false of the code: a 44 byte confirm RKey continuation, the only size the protocol
and `ParseLLC` know, makes the parser panic, because it reads one more reserved byte. -/
theorem C09_confirmRKeyCont_false (c : ConfirmRKeyCont) (hc : SizedConfirmRKeyCont c) (s : Slice)
    (hs : s.len = 44) : Go.Panics (c.parse s) :=
  (confirmRKeyCont_needs c (by rw [hc]) s).panics (by omega)

/-- C09, what does hold: on slices longer than the message, the fields are those of the
message. Missing: the messages of 44 bytes, for which the statement is false. -/
theorem C09_confirmRKeyCont_wire_partial (c : ConfirmRKeyCont) (hc : SizedConfirmRKeyCont c) (s : Slice)
    (hs : 44 < s.len) :
    ∃ m, c.parse s = .ret [] m ∧ WireConfirmRKeyCont s.vis m ∧ m.res4.toNat = num s.vis 44 0 8 := by
  obtain ⟨v, e⟩ := s
  simp only [Slice.len_mk, SizedConfirmRKeyCont] at hs hc
  obtain ⟨r₁, r₂, r₃, hr⟩ : ∃ r₁ r₂ r₃, c.OtherRMBs = [r₁, r₂, r₃] := by
    match h : c.OtherRMBs, hc with
    | [r₁, r₂, r₃], _ => exact ⟨r₁, r₂, r₃, rfl⟩
  refine ⟨_, confirmRKeyCont_parse c hr v e (by omega),
    ⟨⟨?_, ?_, ?_⟩, ?_, ?_, ?_, ?_, ?_, ?_, ⟨_, _, _, rfl, ⟨?_, ?_, ?_⟩, ⟨?_, ?_, ?_⟩, ⟨?_, ?_, ?_⟩⟩⟩, ?_⟩
  all_goals wire_field

/-- both hypotheses are met by real messages -/
example : SizedConfirmRKeyCont {} ∧ (⟨hex! "08 2c 00 a0 01 01 00 00 00 02 00 00 00 00 00 00 00 03 04 00 00 00 05 00 00 00 00 00 00 00 06 07 00 00 00 08 00 00 00 00 00 00 00 09", []⟩ : Slice).len = 44
    ∧ 44 < (⟨hex! "08 2c 00 a0 01 01 00 00 00 02 00 00 00 00 00 00 00 03 04 00 00 00 05 00 00 00 00 00 00 00 06 07 00 00 00 08 00 00 00 00 00 00 00 09 00", []⟩ : Slice).len := by
  unfold SizedConfirmRKeyCont; decide +kernel

theorem C10_deleteRKey_wire (d : DeleteRKey) (hd : SizedDeleteRKey d) (s : Slice) (hs : s.len = 44) :
    ∃ m, d.parse s = .ret [] m ∧ WireDeleteRKey s.vis m := by
  obtain ⟨v, e⟩ := s
  simp only [Slice.len_mk, SizedDeleteRKey] at hs hd
  obtain ⟨k₀, k₁, k₂, k₃, k₄, k₅, k₆, k₇, hk⟩ : ∃ k₀ k₁ k₂ k₃ k₄ k₅ k₆ k₇,
      d.rkeys = [k₀, k₁, k₂, k₃, k₄, k₅, k₆, k₇] := by
    match h : d.rkeys, hd.2.1 with
    | [k₀, k₁, k₂, k₃, k₄, k₅, k₆, k₇], _ => exact ⟨k₀, k₁, k₂, k₃, k₄, k₅, k₆, k₇, rfl⟩
  refine ⟨_, deleteRKey_parse d hk v e (by omega),
    ⟨⟨?_, ?_, ?_⟩, ?_, ?_, ?_, ?_, ?_, ?_, ?_, ?_, rfl, ?keys, ?_⟩⟩
  case keys =>
    intro i hi
    have hi' : i = 0 ∨ i = 1 ∨ i = 2 ∨ i = 3 ∨ i = 4 ∨ i = 5 ∨ i = 6 ∨ i = 7 := by omega
    rcases hi' with rfl | rfl | rfl | rfl | rfl | rfl | rfl | rfl <;>
      simp (disch := omega) [num_32, u32_toNat]
  all_goals wire_field

example : SizedDeleteRKey {} ∧
    num (hex! "09 2c 00 00 01 00 00 00 00 00 15 5d 00 00 00 07 00 00 00 00 00 00 00 00 00 00 00 00 00 00 00 00 00 00 00 00 00 00 00 00 00 00 00 00") 12 0 32 = 7 := by
  unfold SizedDeleteRKey; decide +kernel

theorem C11_testLink_wire (t : TestLink) (ht : SizedTestLink t) (s : Slice) (hs : s.len = 44) :
    ∃ m, t.parse s = .ret [] m ∧ WireTestLink s.vis m := by
  obtain ⟨v, e⟩ := s
  simp only [Slice.len_mk, SizedTestLink] at hs ht
  refine ⟨_, testLink_parse t v e (by omega), ⟨⟨?_, ?_, ?_⟩, ?_, ?_, ?_, ?_, ?_⟩⟩
  all_goals wire_field

example : SizedTestLink {} ∧ flag (hex! "07 2c 00 80 00 00 00 00") 3 0 = true := by
  unfold SizedTestLink; decide +kernel

theorem C12_cdc_wire (c : CDC) (hc : SizedCDC c) (s : Slice) (hs : s.len = 44) :
    ∃ m, c.parse s = .ret [] m ∧ WireCDC s.vis m := by
  obtain ⟨v, e⟩ := s
  simp only [Slice.len_mk, SizedCDC] at hs hc
  refine ⟨_, cdc_parse c v e (by omega), ⟨⟨?_, ?_, ?_⟩, ?_, ?_, ?_, ?_, ?_, ?_, ?_, ?_, ?_, ?_, ?_, ?_, ?_, ?_, ?_,
    ?_, ?_, v[25] &&& 0x1f, ?_, ?res4⟩⟩
  case res4 =>
    simp only [raw]
    rw [List.take_of_length_le (l := v.drop 26) (by simp; omega)]
    match h : c.res4, hc.2.2 with
    | x :: r, hr =>
      simp only [copyInto, List.length_cons, List.take_succ_cons, List.take_nil, List.drop_succ_cons, List.drop_zero,
        List.cons_append, List.nil_append, List.length_nil, List.take_zero]
      congr 1
      simp only [List.length_cons] at hr
      have hr' : List.length r = 18 := by omega
      have h1 : List.take r.length (v.drop 26) = v.drop 26 := List.take_of_length_le (by simp; omega)
      have h2 : List.drop (v.drop 26).length r = [] := List.drop_eq_nil_of_le (by simp; omega)
      rw [h1, h2, List.append_nil]
  all_goals wire_field

example : SizedCDC {} ∧
    num (hex! "fe 2c 00 01 00 00 00 03 00 00 00 00 00 00 00 0d 00 00 00 00 00 00 00 00 a8 60 00 00 00 00 00 00 00 00 00 00 00 00 00 00 00 00 00 00") 12 0 32 = 13 := by
  unfold SizedCDC; decide +kernel

end SMC.Props
