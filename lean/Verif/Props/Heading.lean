import Verif.Spec.Heading
import Verif.Props.CLCEvery
import Verif.Props.Alloc
import Verif.Props.CLCTextParsed
import Verif.Props.RoCE
import Verif.Props.LLCText
/-!
# C99: texts tell what they are about
-/

namespace SMC.Props

open SMC Spec CLC

theorem about_of {t h : Bytes} {a : Topic} (hh : h ∈ headings a) (e : ∃ r, t = h ++ r) : About t a :=
  ⟨h, hh, e.imp fun _ => Eq.symm⟩

theorem topics_all (a : Topic) : a ∈ topics := by
  cases a with
  | llc k => cases k <;> decide
  | _ => decide

/-- no heading begins like another one -/
theorem headings_apart : ∀ a ∈ topics, ∀ b ∈ topics, ∀ g ∈ headings a, ∀ h ∈ headings b, g <+: h → a = b := by
  decide +kernel

/-- C99: a text is about one thing only. -/
theorem C99_one_topic (t : Bytes) (a b : Topic) (ha : About t a) (hb : About t b) : a = b := by
  obtain ⟨g, hg, hgt⟩ := ha
  obtain ⟨h, hh, hht⟩ := hb
  rcases Nat.le_total g.length h.length with hl | hl
  · exact headings_apart a (topics_all a) b (topics_all b) g hg h hh (List.prefix_of_prefix_length_le hgt hht hl)
  · exact (headings_apart b (topics_all b) a (topics_all a) h hh g hg (List.prefix_of_prefix_length_le hht hgt hl)).symm

set_option maxRecDepth 8000 in
/-- C99: both texts of an LLC or CDC message, whatever its fields are, begin with the name of its
kind. -/
theorem C99_llc (m : LLC.Msg) : About m.string (.llc (kindOf m)) ∧ About m.reserved (.llc (kindOf m)) := by
  cases m
  case other m =>
    exact ⟨about_of (List.mem_singleton.2 rfl) ⟨[], rfl⟩, about_of (List.mem_singleton.2 rfl) ⟨[], rfl⟩⟩
  all_goals
    simp only [LLC.Msg.string, LLC.Msg.reserved, kindOf]
    refine ⟨about_of (List.mem_singleton.2 rfl) ?_, about_of (List.mem_singleton.2 rfl) ?_⟩
    all_goals
      first
        | unfold LLC.ConfirmLink.string
        | unfold LLC.ConfirmLink.reserved
        | unfold LLC.AddLink.string
        | unfold LLC.AddLink.reserved
        | unfold LLC.AddLinkCont.string
        | unfold LLC.AddLinkCont.reserved
        | unfold LLC.DeleteLink.string
        | unfold LLC.DeleteLink.reserved
        | unfold LLC.ConfirmRKey.string
        | unfold LLC.ConfirmRKey.reserved
        | unfold LLC.ConfirmRKeyCont.string
        | unfold LLC.ConfirmRKeyCont.reserved
        | unfold LLC.DeleteRKey.string
        | unfold LLC.DeleteRKey.reserved
        | unfold LLC.TestLink.string
        | unfold LLC.TestLink.reserved
        | unfold LLC.CDC.string
        | unfold LLC.CDC.reserved
      unfmt []
      exact ⟨_, rfl⟩

/-- C99: so two messages with the same text are of the same kind. -/
theorem C99_llc_kinds (m m' : LLC.Msg) (t : Bytes) (h : t = m.string ∨ t = m.reserved)
    (h' : t = m'.string ∨ t = m'.reserved) : kindOf m = kindOf m' := by
  have k : ∀ m : LLC.Msg, t = m.string ∨ t = m.reserved → About t (.llc (kindOf m)) := by
    rintro m (rfl | rfl)
    · exact (C99_llc m).1
    · exact (C99_llc m).2
  exact Topic.llc.inj (C99_one_topic t _ _ (k m h) (k m' h'))

/-- C99 and C20 together: the text of a parsed message, one of LLC or CDC but Add Link Continuation,
determines what it is and all of its fields that are not reserved. -/
theorem C99_llc_fields (s s' : Slice) (l l' : List Bytes) (m m' : LLC.Msg) (h : LLC.parseLLC s = .ret l m)
    (h' : LLC.parseLLC s' = .ret l' m') (ho : kindOf m ≠ .other) (hac : kindOf m ≠ .addLinkCont)
    (ht : m.string = m'.string) : kindOf m = kindOf m' ∧ visible m = visible m' :=
  have hk := C99_llc_kinds m m' m.string (.inl rfl) (.inl ht)
  ⟨hk, C20_parsed_partial s s' l l' m m' h h' hk ho hac ht⟩

example : ∃ l m, LLC.parseLLC ⟨7 :: 44 :: zeros 42, []⟩ = .ret l m ∧ kindOf m ≠ .other ∧ kindOf m ≠ .addLinkCont :=
  ⟨_, _, rfl, by decide, by decide⟩

/-- C99: the texts of BTHs and GRHs. -/
theorem C99_roce (b : RoCE.BTH) (names : UInt8 → Bytes) (g : RoCE.GRH) (l : List Bytes) (t : Bytes) :
    (b.string = .ret l t ∨ b.reserved = .ret l t → About t .bth) ∧
    (t = g.string names ∨ t = g.reserved names → About t .grh) := by
  have hg : About (g.string names) .grh := by
    refine about_of (List.mem_singleton.2 rfl) ?_
    unfold RoCE.GRH.string
    unfmt []
    exact ⟨_, rfl⟩
  refine ⟨?_, ?_⟩
  · obtain ⟨x, hx, -⟩ := opcodeStr_ret b.Opcode
    rintro (h | h)
    · unfold RoCE.BTH.string at h
      rw [hx, Go.ret_bind] at h
      obtain ⟨-, rfl⟩ := Go.ret.inj h
      refine about_of (List.mem_singleton.2 rfl) ?_
      unfmt []
      exact ⟨_, rfl⟩
    · unfold RoCE.BTH.reserved at h
      rw [hx, Go.ret_bind] at h
      obtain ⟨-, rfl⟩ := Go.ret.inj h
      refine about_of (List.mem_singleton.2 rfl) ?_
      unfmt []
      exact ⟨_, rfl⟩
  · rintro (rfl | rfl)
    · exact hg
    · exact hg

theorem about_type (t : UInt8) (r : Bytes) : About (msgTypeStr t ++ (58 :: 32 :: r)) .clc := by
  unfold msgTypeStr
  (repeat' split)
  · exact about_of (h := go! "Proposal: ") (by decide) ⟨_, rfl⟩
  · exact about_of (h := go! "Accept: ") (by decide) ⟨_, rfl⟩
  · exact about_of (h := go! "Confirm: ") (by decide) ⟨_, rfl⟩
  · exact about_of (h := go! "Decline: ") (by decide) ⟨_, rfl⟩
  · exact about_of (h := go! "Unknown: ") (by decide) ⟨_, rfl⟩

theorem about_app {t : Bytes} {a : Topic} (h : About t a) (r : Bytes) : About (t ++ r) a := by
  obtain ⟨g, hg, hp⟩ := h
  exact ⟨g, hg, hp.trans (List.prefix_append _ _)⟩

/-- C99: the texts of CLC headers, whatever their fields are. -/
theorem C99_header (h : Header) : About h.string .clc ∧ About h.reserved .clc := by
  constructor
  · unfold Header.string
    unfmt []
    exact about_type _ _
  · unfold Header.reserved
    split <;> unfmt [] <;> exact about_type _ _

/-- what follows the header -/
theorem clc_texts (m : Message) : (∃ r, m.string = m.hdr.string ++ ((44 :: []) ++ r)) ∧
    ∃ r, m.reserved = m.hdr.reserved ++ ((44 :: []) ++ r) := by
  cases m <;> simp only [Message.string, Message.reserved, Message.hdr]
  all_goals
    constructor <;>
    first
    | unfold Proposal.string | unfold Proposal.reserved | unfold ProposalV2.string | unfold ProposalV2.reserved
    | unfold AcceptSMCR.string | unfold AcceptSMCR.reserved | unfold AcceptSMCD.string | unfold AcceptSMCD.reserved
    | unfold AcceptSMCDv2.string | unfold AcceptSMCDv2.reserved | unfold Decline.string | unfold Decline.reserved
    | unfold DeclineV2.string | unfold DeclineV2.reserved
  all_goals
    unfmt []
    exact ⟨_, rfl⟩

/-- C99: the texts of CLC messages, whatever their fields are. -/
theorem C99_clc (m : Message) : About m.string .clc ∧ About m.reserved .clc := by
  obtain ⟨⟨r, h⟩, ⟨r', h'⟩⟩ := clc_texts m
  rw [h, h']
  exact ⟨about_app (C99_header _).1 _, about_app (C99_header _).2 _⟩

/-- C99: messages that `NewMessage` and `Parse` make of received bytes and that have the same text
are of the same kind. -/
theorem C99_clc_kinds (s s' : Slice) (k k' : CLCKind) (hk : classify s.vis = some k) (hk' : classify s'.vis = some k')
    (l l' : List Bytes) (m m' : Message) (h : (freshCLC k).parse s = .ret l m) (h' : (freshCLC k').parse s' = .ret l' m')
    (ht : m.string = m'.string ∨ m.reserved = m'.reserved) : k = k' := by
  have sized : ∀ k, SizedHeader (freshCLC k).hdr := by intro k; cases k <;> rfl
  have w := (C32_message_header _ (sized k) s l m h).2
  have w' := (C32_message_header _ (sized k') s' l' m' h').2
  have eye : ∀ {v k}, classify v = some k → IsEye (raw v 0 4) ∧ select (num v 4 0 8) (num v 7 0 4) (pathOf v) = some k := by
    intro v k hk
    unfold classify at hk
    split at hk
    · rename_i c; exact ⟨c.1, hk⟩
    · cases hk
  have p := plainHeader w (eye hk).1
  have p' := plainHeader w' (eye hk').1
  obtain ⟨⟨r, e⟩, ⟨q, f⟩⟩ := clc_texts m
  obtain ⟨⟨r', e'⟩, ⟨q', f'⟩⟩ := clc_texts m'
  have same : m.hdr.Typ = m'.hdr.Typ ∧ m.hdr.Version = m'.hdr.Version ∧ m.hdr.Path = m'.hdr.Path := by
    rcases ht with ht | ht
    · rw [e, e'] at ht
      have := (header_cut p p' ht).1
      unfold hdrFields at this
      split at this <;> split at this <;> cases hh : m.hdr <;> cases hh' : m'.hdr <;> simp_all
    · rw [f, f'] at ht
      have := (header_cut_reserved p p' ht).1
      unfold hdrEvery at this
      split at this <;> split at this <;> cases hh : m.hdr <;> cases hh' : m'.hdr <;> simp_all
  have h1 : num s.vis 4 0 8 = num s'.vis 4 0 8 := by rw [← w.typ, ← w'.typ, same.1]
  have h2 : num s.vis 7 0 4 = num s'.vis 7 0 4 := by rw [← w.version, ← w'.version, same.2.1]
  have h3 : pathOf s.vis = pathOf s'.vis := by
    have := congrArg UInt8.toNat same.2.2
    rw [w.path, w'.path] at this
    exact this
  have := (eye hk').2
  rw [← h1, ← h2, ← h3, (eye hk).2] at this
  exact Option.some.inj this

/-- an Accept and a Confirm -/
example : classify (hex! "e2 d4 c3 d9 02 00 44 10") = some .acceptSMCR ∧ classify (hex! "e2 d4 c3 d9 03 00 44 10") = some .confirmSMCR ∧
    ((freshCLC .acceptSMCR).parse ⟨hex! "e2 d4 c3 d9 02 00 44 10" ++ zeros 60, []⟩).val?.isSome := by
  decide +kernel

/-- C99 and C50 together: complete messages with the same text, the first of a kind without EIDs,
are of the same kind and have the same fields. -/
theorem C99_clc_fields (k k' : CLCKind) (hn : NoEIDs k) (s s' : Slice) (hs : Whole k s) (hs' : Whole k' s')
    (l l' : List Bytes) (m m' : Message) (h : (freshCLC k).parse s = .ret l m) (h' : (freshCLC k').parse s' = .ret l' m')
    (ht : m.string = m'.string) : k = k' ∧ present m = present m' := by
  obtain rfl := C99_clc_kinds s s' k k' hs.kind hs'.kind l l' m m' h h' (.inl ht)
  exact ⟨rfl, C50_parsed_noEIDs k hn s s' hs hs' l l' m m' h h' ht⟩

example : Whole .decline ⟨declineBytes, []⟩ ∧ NoEIDs .decline :=
  ⟨⟨by decide +kernel, by decide, by decide +kernel, ⟨by decide +kernel, trivial⟩, by decide +kernel⟩, by decide⟩

end SMC.Props
