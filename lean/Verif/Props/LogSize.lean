import Verif.Lemmas.LogSize
/-!
# C94: how much is logged about one message
-/

namespace SMC.Props
open SMC.CLC SMC.Spec

/-- a short line or a dump is at most five bytes for each byte of memory behind the buffer, and 100 -/
theorem shortOrDump_length {s : Slice} {t : Bytes} (h : ShortOrDump s t) : t.length ≤ 100 + 5 * s.cap := by
  rcases h with h | ⟨bs, h, rfl⟩
  · omega
  · have h := h.length_le
    have e : (go! "Message Buffer Hex Dump:\n").length = 25 := by decide
    rw [List.length_append, C84_length, e]
    rw [List.length_append] at h
    have hc : s.cap = s.vis.length + s.extra.length := rfl
    split <;> omega

/-- C94: `Parse` logs at most four texts about a buffer, whatever its bytes, its length and its receiver, and also if it
panics in the end.  Each of them is a short line or the dump of a part of the buffer. -/
theorem C94_parse (m : Message) (s : Slice) :
    (m.parse s).logOf.length ≤ 4 ∧
    ∀ t ∈ (m.parse s).logOf, ShortOrDump s t ∧ t.length ≤ 100 + 5 * s.cap :=
  ⟨few_message m s, fun t ht => ⟨size_message m s t ht, shortOrDump_length (size_message m s t ht)⟩⟩

/-- four texts are reached: too many prefixes and no trailer, 109 bytes -/
example :
    let v : Bytes := hex! "e2 d4 c3 d9 01 00 6d 28" ++ zeros 72 ++ zeros 7 ++ [2] ++ zeros 17 ++ zeros 4
    ((Message.proposalV2 {}).parse ⟨v, []⟩).logOf.length = 4 ∧
    ((Message.proposalV2 {}).parse ⟨v, []⟩).logOf.map List.length = [56, 575, 42, 92] := by
  decide +kernel

/-- a text before a panic: the header declares 20 bytes that are not there -/
example : ∃ l, (Message.decline {}).parse ⟨hex! "e2 d4 c3 d9 04 00 14 10", []⟩ = .panic l ∧ l.length = 1 :=
  ⟨_, rfl, rfl⟩

/-- C94: one fault at most, if there are no entries to be counted -/
theorem C94_fixed (m : Message) (s : Slice) (h : match m with | .proposal _ | .proposalV2 _ => False | _ => True) :
    (m.parse s).logOf.length ≤ 2 := by
  have all : ∀ {α : Type} {x : Go α} (c : α → Message), Few 2 x → Few 2 (do pure (c (← x))) :=
    fun c h => few_bind (n := 0) h fun _ => few_pure _
  cases m
  · exact h.elim
  · exact h.elim
  · exact all _ (few_smcr _ _)
  · exact all _ (few_smcd _ _)
  · exact all _ (few_smcdv2 _ _)
  · exact all _ (few_smcr _ _)
  · exact all _ (few_smcd _ _)
  · exact all _ (few_smcdv2 _ _)
  · exact all _ (few_decline _ _)
  · exact all _ (few_declineV2 _ _)

example : ((Message.decline {}).parse ⟨hex! "e2 d4 c3 d9 04 00 08 10", []⟩).logOf.length = 2 := by decide +kernel

/-- C94 for `NewMessage`: at most one report, also for buffers without a whole header -/
theorem C94_new (s : Slice) :
    (newMessage s).logOf.length ≤ 2 ∧
    ∀ t ∈ (newMessage s).logOf, ShortOrDump s t ∧ t.length ≤ 100 + 5 * s.cap :=
  ⟨few_new s, fun t ht => ⟨size_new s t ht, shortOrDump_length (size_new s t ht)⟩⟩

example : (newMessage ⟨hex! "e2 d4 c3 d9 04 04 01 10", []⟩).logOf.length = 2 := by decide +kernel

end SMC.Props
