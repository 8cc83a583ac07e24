import Verif.Lemmas.HeapLater
import Verif.Lemmas.Text
/-!
# C17, C54, C58: which messages own their bytes

`buf` is the caller's buffer in memory `h`. A call returns a message and the memory `h1`; later
events turn it into `later h1 es`. Bytes may be written to any array but those that the call
has allocated: to the caller's buffer, to other arrays that were there before, and to arrays
allocated later.
-/

namespace SMC.Props

open SMC Spec

/-! ## C17 -/

/-- C17: on memory, `ParseLLC` returns and logs what the model on values says, leaves what was
there before as it is, and the message stays what it is whatever is written later. -/
theorem C17_llc_owned {h : Heap} {buf : Ref} (hb : buf.Valid h) {l : List Bytes} {m : LLC.HMsg} {h1 : Heap}
    (hp : LLC.parseLLCH buf h = .ret l (m, h1)) :
    h.Ext h1 ∧ ∃ v, LLC.parseLLC (h.slice buf) = .ret l v ∧ m.view h1 = v ∧
      ∀ es, Spared h.length h1.length es → m.view (later h1 es) = v := by
  obtain ⟨he, v, hv, ho, rfl⟩ := (LLC.parseLLCH_sim hb).ret hp
  exact ⟨he, _, hv, rfl, fun es hs => ho.later_view hs⟩

/-- C17: what the methods return. -/
theorem C17_llc_methods {h : Heap} {buf : Ref} (hb : buf.Valid h) {l : List Bytes} {m : LLC.HMsg} {h1 : Heap}
    (hp : LLC.parseLLCH buf h = .ret l (m, h1)) (es : List Event) (hs : Spared h.length h1.length es) :
    (m.view (later h1 es)).hex = (m.view h1).hex ∧ (m.view (later h1 es)).string = (m.view h1).string ∧
      (m.view (later h1 es)).reserved = (m.view h1).reserved ∧
      (m.view (later h1 es)).getType = (m.view h1).getType := by
  obtain ⟨_, v, _, h2, h3⟩ := C17_llc_owned hb hp
  rw [h3 es hs, h2]
  exact ⟨rfl, rfl, rfl, rfl⟩

/-- C17: on memory and on values, `ParseLLC` panics for the same buffers. -/
theorem C17_llc_panics_iff {h : Heap} {buf : Ref} (hb : buf.Valid h) (l : List Bytes) :
    LLC.parseLLCH buf h = .panic l ↔ LLC.parseLLC (h.slice buf) = .panic l :=
  (LLC.parseLLCH_sim hb).panic_iff l

/-- a Test Link message behind two other bytes, in a bigger array -/
def exampleLLC : Heap :=
  [hex! "ff ff 07 2c 00 00 01 02 03 04 05 06 07 08 09 0a 0b 0c 0d 0e 0f 10" ++ zeros 24 ++ hex! "77 77"]

example : Ref.Valid exampleLLC ⟨0, 2, 44, 46⟩ ∧
    (LLC.parseLLCH ⟨0, 2, 44, 46⟩ exampleLLC).val?.map (fun r => (r.1.s.raw, r.2.length)) = some (⟨1, 0, 44, 44⟩, 2) ∧
    Spared 1 2 [.write 0 6 0xee, .alloc [1, 2], .write 2 0 7] ∧
    (later exampleLLC [.write 0 6 0xee, .alloc [1, 2], .write 2 0 7]).bytes ⟨0, 2, 6, 46⟩
      = hex! "07 2c 00 00 ee 02" := by
  refine ⟨⟨by decide, .inr ⟨by decide, by decide⟩⟩, by decide +kernel, ?_, by decide +kernel⟩
  intro arr i b hm
  simp at hm
  omega

/-! ## C54 -/

/-- C54, on memory: `Parse` of a new message (as `NewMessage` returns it) returns and logs what
the model on values says. Whatever is written later, the message differs from what it was in
`Raw` only, and this is the buffer as it is then. -/
theorem C54_clc_aliased {h : Heap} {buf : Ref} (hb : buf.Valid h) (v0 : CLC.Message) {l : List Bytes}
    {m : CLC.HMessage} {h1 : Heap} (hp : (CLC.HMessage.mk v0 {}).parse buf h = .ret l (m, h1)) :
    h.Ext h1 ∧ ((CLC.HMessage.mk v0 {}).view h).parse (h.slice buf) = .ret l (m.view h1) ∧
      ∀ es, Spared h.length h1.length es →
        m.view (later h1 es) = withRawHdr (m.view h1) ((later h1 es).slice buf) (m.view h1).hdr := by
  obtain ⟨he, v, hv, rfl, ho, hr⟩ := (CLC.HMessage.parse_sim hb (Nat.le_refl _) ⟨v0, {}⟩ (.nil _ _)).ret hp
  refine ⟨he, hv, fun es hs => ?_⟩
  rw [ho.later_view hs, hr]

/-- C54, for message values used before: the same if the slices of the used value are not
written to either. -/
theorem C54_clc_aliased_used {n : Nat} {h : Heap} {buf : Ref} (hb : buf.Valid h) (hn : n ≤ h.length)
    (m0 : CLC.HMessage) (ho : m0.s.Own n h) {l : List Bytes} {m : CLC.HMessage} {h1 : Heap}
    (hp : m0.parse buf h = .ret l (m, h1)) :
    h.Ext h1 ∧ (m0.view h).parse (h.slice buf) = .ret l (m.view h1) ∧
      ∀ es, Spared n h1.length es →
        m.view (later h1 es) = withRawHdr (m.view h1) ((later h1 es).slice buf) (m.view h1).hdr := by
  obtain ⟨he, v, hv, rfl, ho, hr⟩ := (CLC.HMessage.parse_sim hb hn m0 ho).ret hp
  refine ⟨he, hv, fun es hs => ?_⟩
  rw [ho.later_view hs, hr]

theorem withRawHdr_raw (m : CLC.Message) (s : Slice) (h : CLC.Header) : (withRawHdr m s h).raw = s := by
  cases m <;> rfl

theorem withRawHdr_string (m : CLC.Message) (s : Slice) : (withRawHdr m s m.hdr).string = m.string := by
  cases m <;> rfl

theorem withRawHdr_reserved (m : CLC.Message) (s : Slice) : (withRawHdr m s m.hdr).reserved = m.reserved := by
  cases m <;> rfl

/-- C54: what the methods return. -/
theorem C54_clc_methods {h : Heap} {buf : Ref} (hb : buf.Valid h) (v0 : CLC.Message) {l : List Bytes}
    {m : CLC.HMessage} {h1 : Heap} (hp : (CLC.HMessage.mk v0 {}).parse buf h = .ret l (m, h1))
    (es : List Event) (hs : Spared h.length h1.length es) :
    (m.view (later h1 es)).dump = hexDump ((later h1 es).bytes buf) ∧
      (m.view (later h1 es)).string = (m.view h1).string ∧
      (m.view (later h1 es)).reserved = (m.view h1).reserved := by
  rw [(C54_clc_aliased hb v0 hp).2.2 es hs, withRawHdr_string, withRawHdr_reserved]
  refine ⟨?_, rfl, rfl⟩
  rw [CLC.Message.dump, withRawHdr_raw]
  rfl

/-- C54: the messages of `NewMessage` are new, on any memory. -/
theorem C54_new_message (s : Slice) {l : List Bytes} {v : CLC.Message} {n : UInt16}
    (hm : CLC.newMessage s = .ret l (some v, n)) (h : Heap) : (CLC.HMessage.mk v {}).view h = v := by
  have key : ∀ x : Go (Option CLC.Message × UInt16),
      CLC.Ensures x (fun r => ∀ v, r.1 = some v → (CLC.HMessage.mk v {}).view h = v) →
      x = .ret l (some v, n) → (CLC.HMessage.mk v {}).view h = v := fun x hx e => hx _ _ e v rfl
  refine key _ ?_ hm
  unfold CLC.newMessage
  refine CLC.Ensures.bind fun _ => ?_
  refine CLC.Ensures.ite (CLC.Ensures.pure (by rintro _ ⟨⟩)) ?_
  refine CLC.Ensures.bind fun _ => ?_
  refine CLC.Ensures.bind fun _ => ?_
  refine CLC.Ensures.ite ?_ ?_
  · repeat' refine CLC.Ensures.bind fun _ => ?_
    exact CLC.Ensures.pure (by rintro _ ⟨⟩)
  · refine CLC.Ensures.bind fun _ => ?_
    refine CLC.Ensures.bind fun _ => ?_
    refine CLC.Ensures.bind fun _ => ?_
    repeat' refine CLC.Ensures.ite ?_ ?_
    all_goals
      refine CLC.Ensures.pure ?_
      rintro _ ⟨⟩
      try simp [CLC.HMessage.view, CLC.Proposal.on, CLC.ProposalV2.on, CLC.AcceptSMCR.on, Heap.bytes, Heap.slice,
        Ref.nil, CLC.prefixesOn]

/-- C54: on memory and on values, `Parse` panics for the same buffers. -/
theorem C54_clc_panics_iff {h : Heap} {buf : Ref} (hb : buf.Valid h) (v0 : CLC.Message) (l : List Bytes) :
    (CLC.HMessage.mk v0 {}).parse buf h = .panic l ↔
      ((CLC.HMessage.mk v0 {}).view h).parse (h.slice buf) = .panic l :=
  (CLC.HMessage.parse_sim hb (Nat.le_refl _) ⟨v0, {}⟩ (.nil _ _)).panic_iff l

/-- a Decline message -/
def exampleDecline : Heap :=
  [hex! "e2 d4 c3 d9 04 00 1c 10 25 25 25 25 25 25 25 00 03 01 00 00 00 00 00 00 e2 d4 c3 d9"]

/-- a new message, one that was used before, and events after `Parse`: the array of the buffer is written to, the two
arrays that `Parse` allocated are not -/
example : Ref.Valid exampleDecline ⟨0, 0, 28, 28⟩ ∧ CLC.newMessage ⟨exampleDecline.bytes ⟨0, 0, 28, 28⟩, []⟩ = .ret [] (some (.decline {}), 28) ∧
    ∃ m h1, (CLC.HMessage.mk (.decline {}) {}).parse ⟨0, 0, 28, 28⟩ exampleDecline = .ret [] (m, h1) ∧
      Spared exampleDecline.length h1.length [.write 0 14 0x26, .alloc [1], .write h1.length 0 2] ∧
      (m.parse ⟨0, 0, 28, 28⟩ h1).val?.isSome := by
  refine ⟨⟨by decide, .inr ⟨by decide, by decide⟩⟩, by decide +kernel, _, _, rfl, ?_, by decide +kernel⟩
  intro arr i b hm
  rcases List.mem_cons.1 hm with h | h
  · cases h; exact .inl (by decide)
  · rcases List.mem_cons.1 h with h | h
    · cases h
    · cases List.mem_singleton.1 h; exact .inr (Nat.le_refl _)

/-- C54 is not about nothing: a later write does change what `Dump` returns. -/
theorem C54_dump_changes : ∃ l m h1,
    (CLC.HMessage.mk (.decline {}) {}).parse ⟨0, 0, 28, 28⟩ exampleDecline = .ret l (m, h1) ∧
      (m.view (later h1 [.write 0 14 0x26])).dump ≠ (m.view h1).dump ∧
      (m.view (later h1 [.write 0 14 0x26])).string = (m.view h1).string := by
  refine ⟨_, _, _, rfl, ?_, ?_⟩
  · decide +kernel
  · decide +kernel

/-! ## C58 -/

/-- C58: on memory, `ParseRoCEv1` returns and logs what the model on values says. Whatever is
written later, the message differs from what it was in `ICRC` only, and this shows the last four
bytes of the buffer as it is then. -/
theorem C58_rocev1_owned {h : Heap} {buf : Ref} (hb : buf.Valid h) {l : List Bytes} {m : RoCE.HRoCE} {h1 : Heap}
    (hp : RoCE.parseRoCEv1H buf h = .ret l (m, h1)) :
    h.Ext h1 ∧ RoCE.parseRoCEv1 (h.slice buf) = .ret l (m.view h1) ∧
      ∀ es, Spared h.length h1.length es →
        m.view (later h1 es) = { m.view h1 with ICRC := (m.view (later h1 es)).ICRC } ∧
          (m.view (later h1 es)).ICRC.vis = lastFour ((later h1 es).bytes buf) := by
  obtain ⟨he, v, hv, ho, rfl, _, h4, hc⟩ := (RoCE.parseRoCEv1H_sim hb).ret hp
  refine ⟨he, hv, fun es hs => ⟨ho.later_view hs, ?_⟩⟩
  rw [← Ref.last4_bytes (later_valid es h1 (he.valid hb)) h4, ← hc]
  rfl

/-- C58 for `ParseRoCEv2` -/
theorem C58_rocev2_owned {h : Heap} {buf : Ref} (hb : buf.Valid h) {l : List Bytes} {m : RoCE.HRoCE} {h1 : Heap}
    (hp : RoCE.parseRoCEv2H buf h = .ret l (m, h1)) :
    h.Ext h1 ∧ RoCE.parseRoCEv2 (h.slice buf) = .ret l (m.view h1) ∧
      ∀ es, Spared h.length h1.length es →
        m.view (later h1 es) = { m.view h1 with ICRC := (m.view (later h1 es)).ICRC } ∧
          (m.view (later h1 es)).ICRC.vis = lastFour ((later h1 es).bytes buf) := by
  obtain ⟨he, v, hv, ho, rfl, _, h4, hc⟩ := (RoCE.parseRoCEv2H_sim hb).ret hp
  refine ⟨he, hv, fun es hs => ⟨ho.later_view hs, ?_⟩⟩
  rw [← Ref.last4_bytes (later_valid es h1 (he.valid hb)) h4, ← hc]
  rfl

/-- C58: on memory and on values, the functions panic for the same buffers. -/
theorem C58_roce_panics_iff {h : Heap} {buf : Ref} (hb : buf.Valid h) (l : List Bytes) :
    (RoCE.parseRoCEv1H buf h = .panic l ↔ RoCE.parseRoCEv1 (h.slice buf) = .panic l) ∧
      (RoCE.parseRoCEv2H buf h = .panic l ↔ RoCE.parseRoCEv2 (h.slice buf) = .panic l) :=
  ⟨(RoCE.parseRoCEv1H_sim hb).panic_iff l, (RoCE.parseRoCEv2H_sim hb).panic_iff l⟩

/-- a RoCEv2 packet: BTH, three bytes, ICRC -/
def exampleRoCE : Heap := [hex! "04 40 ff ff 00 00 01 07 80 00 00 05 aa bb cc 01 02 03 04"]

example : Ref.Valid exampleRoCE ⟨0, 0, 19, 19⟩ ∧ ∃ m h1, RoCE.parseRoCEv2H ⟨0, 0, 19, 19⟩ exampleRoCE = .ret [] (m, h1) ∧
    Spared exampleRoCE.length h1.length [.write 0 15 9, .write 0 13 9] := by
  refine ⟨⟨by decide, .inr ⟨by decide, by decide⟩⟩, _, _, rfl, ?_⟩
  intro arr i b hm
  rcases List.mem_cons.1 hm with h | h
  · cases h; exact .inl (by decide)
  · cases List.mem_singleton.1 h; exact .inl (by decide)

/-- a RoCEv1 packet: GRH, BTH, two bytes, ICRC; and one that is too short, on which the functions panic -/
example : Ref.Valid [zeros 40 ++ zeros 12 ++ [1, 2] ++ zeros 4] ⟨0, 0, 58, 58⟩ ∧
    (RoCE.parseRoCEv1H ⟨0, 0, 58, 58⟩ [zeros 40 ++ zeros 12 ++ [1, 2] ++ zeros 4]).val?.isSome ∧
    RoCE.parseRoCEv1H ⟨0, 0, 30, 30⟩ [zeros 40 ++ zeros 12 ++ [1, 2] ++ zeros 4] = .panic [] :=
  ⟨⟨by decide, .inr ⟨by decide, by decide⟩⟩, by decide +kernel, by decide +kernel⟩

/-- C58 is not about nothing: a later write does change `ICRC`; one to the payload does not
change the message. -/
theorem C58_icrc_changes : ∃ l m h1, RoCE.parseRoCEv2H ⟨0, 0, 19, 19⟩ exampleRoCE = .ret l (m, h1) ∧
    (m.view h1).ICRC.vis = hex! "01 02 03 04" ∧
    (m.view (later h1 [.write 0 15 9])).ICRC.vis = hex! "09 02 03 04" ∧
    m.view (later h1 [.write 0 13 9]) = m.view h1 := by
  refine ⟨_, _, _, rfl, ?_, ?_, ?_⟩ <;> decide +kernel

end SMC.Props
