import Verif.Lemmas.Kept
import Verif.Props.Heap
import Verif.Props.CLCHeader
/-!
# C93: how much memory parsers allocate
-/

namespace SMC.Props

open SMC Spec

/-- C93: `ParseLLC` allocates the bytes that the message keeps and no others: a copy of the buffer, and 22 bytes more
for the addresses in Confirm Link and Add Link messages. -/
theorem C93_llc {h : Heap} {buf : Ref} {l : List Bytes} {m : LLC.HMsg} {h1 : Heap}
    (hp : LLC.parseLLCH buf h = .ret l (m, h1)) :
    h1.size = h.size + m.s.total ∧ (m.s.total = buf.len ∨ buf.len = 44 ∧ m.s.total = 66) := by
  obtain ⟨n, e, rfl, hn⟩ := LLC.parseLLCH_costs h l m h1 hp
  exact ⟨e, hn⟩

/-- C93: the same for RoCE packets; the ICRC is not copied. -/
theorem C93_roce {h : Heap} {buf : Ref} {l : List Bytes} {m : RoCE.HRoCE} {h1 : Heap}
    (hp : RoCE.parseRoCEv1H buf h = .ret l (m, h1) ∨ RoCE.parseRoCEv2H buf h = .ret l (m, h1)) :
    h1.size = h.size + m.total ∧ m.total ≤ buf.len + 18 := by
  rcases hp with hp | hp
  · obtain ⟨n, e, rfl, hn⟩ := RoCE.parseRoCEv1H_costs h l m h1 hp
    exact ⟨e, by omega⟩
  · obtain ⟨n, e, rfl, hn⟩ := RoCE.parseRoCEv2H_costs h l m h1 hp
    exact ⟨e, by omega⟩

/-- C32 for whole messages: whenever `Parse` returns, the message has the header that was received, whatever else is
wrong with it. -/
theorem C32_message_header (m : CLC.Message) (hm : SizedHeader m.hdr) (s : Slice) (l : List Bytes) (m' : CLC.Message)
    (h : m.parse s = .ret l m') : 8 ≤ s.len ∧ WireHeader s.vis m'.hdr := by
  obtain ⟨l1, e⟩ := CLC.Message.hdr_parse m s l m' h
  have h8 : 8 ≤ s.len := by
    refine Nat.le_of_not_lt fun hlt => ?_
    obtain ⟨l2, e2⟩ := (C32_header_panics_iff m.hdr hm s).2 hlt
    rw [e] at e2
    cases e2
  obtain ⟨h0, e0, hw⟩ := C32_header_wire m.hdr hm s h8
  rw [e] at e0
  cases e0
  exact ⟨h8, hw⟩

theorem view_hdr (h : Heap) (m : CLC.HMessage) : (m.view h).hdr = m.v.hdr := by
  obtain ⟨v, s⟩ := m
  cases v <;> rfl

/-- C93: `Parse` of new CLC messages allocates the bytes that the message keeps, at most as many as the message
declares to have. -/
theorem C93_clc {h : Heap} {buf : Ref} (hb : buf.Valid h) (v : CLC.Message) (hv : SizedHeader v.hdr) {l : List Bytes}
    {m : CLC.HMessage} {h1 : Heap} (hp : (CLC.HMessage.mk v {}).parse buf h = .ret l (m, h1)) :
    h1.size = h.size + m.s.total ∧ m.s.total ≤ num (h.bytes buf) 5 0 16 := by
  obtain ⟨n, e, rfl, hn⟩ := CLC.HMessage.parse_costs v buf h l m h1 hp
  refine ⟨e, ?_⟩
  have hw := (C32_message_header _ (by rw [view_hdr]; exact hv) _ _ _ (C54_clc_aliased hb v hp).2.1).2
  rw [view_hdr] at hw
  rw [hw.length] at hn
  exact hn

/-- a Confirm Link message takes 66 bytes; a Proposal with one IPv6 prefix takes 42 -/
example : (LLC.parseLLCH ⟨0, 0, 44, 44⟩ [hex! "01 2c" ++ zeros 42]).val?.map (fun r => (r.1.s.total, r.2.size)) = some (66, 110) ∧
    (CLC.HMessage.parse ⟨.proposal {}, {}⟩ ⟨0, 0, 69, 69⟩
      [hex! "e2 d4 c3 d9 01 00 45 10" ++ zeros 39 ++ [1] ++ zeros 17 ++ hex! "e2 d4 c3 d9"]).val?.map
        (fun r => (r.1.s.total, r.2.size)) = some (42, 111) := by
  decide +kernel

end SMC.Props
