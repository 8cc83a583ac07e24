import Verif.Lemmas.Logs
/-!
# C87: texts are lines of printable characters, except for names chosen by the peer
-/

namespace SMC.Props

open SMC.Spec

/-- **C87**: both texts of an LLC or CDC message, whatever its fields are, are one line of
printable ASCII characters with one line feed at its end. -/
theorem C87_llc (m : LLC.Msg) : OneLine m.string ∧ OneLine m.reserved :=
  ⟨LLC.oneLine_string m, LLC.oneLine_reserved m⟩

/-- **C87**: so are those of a BTH, whose texts never panic. -/
theorem C87_bth (b : RoCE.BTH) :
    (∃ t, b.string = .ret [] t ∧ OneLine t) ∧ ∃ t, b.reserved = .ret [] t ∧ OneLine t :=
  ⟨RoCE.bth_string b, RoCE.bth_reserved b⟩

/-- **C87**: and those of a GRH, if the names of the protocols are printable. -/
theorem C87_grh (names : UInt8 → Bytes) (hn : ∀ b, Printable (names b)) (g : RoCE.GRH) :
    OneLine (g.string names) ∧ OneLine (g.reserved names) :=
  ⟨RoCE.grh_string names hn g, RoCE.grh_string names hn g⟩

/-- not vacuous: such names -/
example : ∀ b : UInt8, Printable ((fun b => if b = 6 then go! "TCP" else go! "UnknownIPProtocol") b) := by
  intro b
  dsimp only
  split <;> decide

/-- **C87**: the texts of a CLC message are printable, without any line feed, exactly if all names
of the peer they show are, up to the first NUL. -/
theorem C87_clc (m : CLC.Message) :
    (Printable m.string ↔ ∀ n ∈ shownNames m, Printable (name n)) ∧
    (Printable m.reserved ↔ ∀ n ∈ shownNames m, Printable (name n)) :=
  ⟨CLC.printable_string m, CLC.printable_reserved m⟩

/-- **C87** (partial: only kinds of messages without names; the others are in `C87_clc`) -/
theorem C87_clc_partial (m : CLC.Message)
    (h : match m with
      | .proposalV2 _ | .acceptSMCDv2 _ | .confirmSMCDv2 _ => False
      | _ => True) :
    Printable m.string ∧ Printable m.reserved := by
  rw [(C87_clc m).1, (C87_clc m).2]
  cases m <;> first | exact h.elim | exact ⟨nofun, nofun⟩

/-- a message the partial result is about -/
example : Printable (CLC.Message.decline { PeerDiagnosis := 0x03050000 }).string := by decide +kernel

/-- an SMC-D v2 Accept message of 78 bytes that is in order, with an EID that begins with a line
feed -/
def forgedAccept : Bytes :=
  hex! "e2d4c3c4 02 004e 21" ++ hex! "1112131415161718 2122232425262728 01 10 0000 00000001 0002" ++
  go! "\nOther Payload\n" ++ zeros 17 ++ zeros 8 ++ hex! "e2d4c3c4"

/-- what it is parsed to -/
def forgedMessage : CLC.Message :=
  .acceptSMCDv2 {
    raw := ⟨forgedAccept, []⟩, hdr := { Eyecatcher := hex! "e2d4c3c4", Typ := 2, Length := 78, Version := 2, Path := 1 }
    GID := 0x1112131415161718, Token := 0x2122232425262728, DMBEIdx := 1, DMBESize := 1, LinkID := 1, ISMv2VCHID := 2
    EID := go! "\nOther Payload\n" ++ zeros 17, trailer := hex! "e2d4c3c4" }

/-- **C87** is false of the code: EIDs and host names are shown as they are. The peer of this message
makes the program print a line of its own choice, here that of an LLC message that was never there. -/
theorem C87_false : ∃ m m' a b,
    CLC.newMessage ⟨forgedAccept, []⟩ = .ret [] (some m, 78) ∧ m.parse ⟨forgedAccept, []⟩ = .ret [] m' ∧
    m'.string = a ++ [0x0a] ++ (LLC.Msg.other {}).string ++ b ∧ OneLine (LLC.Msg.other {}).string ∧
    ¬ Printable m'.string ∧ ¬ Printable m'.reserved := by
  have hm : (CLC.Message.acceptSMCDv2 {}).parse ⟨forgedAccept, []⟩ = .ret [] forgedMessage := by decide +kernel
  have hs : forgedMessage.string = forgedMessage.string.take 236 ++ [0x0a] ++ (LLC.Msg.other {}).string ++
      forgedMessage.string.drop 251 := by decide +kernel
  refine ⟨_, _, _, _, by decide +kernel, hm, hs, (C87_llc _).1, by decide +kernel, by decide +kernel⟩

/-- **C87**: what the parsers of CLC messages hand to package log are lines of printable characters
for all bytes received, also if they panic. -/
theorem C87_clc_log (m : CLC.Message) (s : Slice) :
    (∀ t ∈ (CLC.newMessage s).logOf, Lines t) ∧ ∀ t ∈ (m.parse s).logOf, Lines t :=
  ⟨CLC.logs_new s, CLC.logs_message m s⟩

/-- a message with a trailer that is not in order leads to two texts -/
example : ((CLC.Message.decline {}).parse ⟨hex! "e2d4c3d9 04 001c 10" ++ zeros 20, []⟩).logOf.length = 2 := by
  decide +kernel

/-- **C87**: the parsers of LLC messages and RoCE packets log nothing, also if they panic. -/
theorem C87_silent (m : LLC.Msg) (b : RoCE.BTH) (s : Slice) :
    (m.parse s).logOf = [] ∧ (LLC.parseLLC s).logOf = [] ∧ (b.parse s).logOf = [] ∧
    (RoCE.parseRoCEv1 s).logOf = [] ∧ (RoCE.parseRoCEv2 s).logOf = [] :=
  ⟨logs_none (LLC.logs_parse m s), logs_none (LLC.logs_llc s), logs_none (RoCE.logs_bth b s),
    logs_none (RoCE.logs_v1 s), logs_none (RoCE.logs_v2 s)⟩

end SMC.Props
