import Verif.Props.Proposal
import Verif.Props.ProposalV2
import Verif.Spec.Message
import Verif.Lemmas.Text
/-!
# C33, C40, C44, C45, C48: what `Parse` does with messages of any kind
-/

namespace SMC.Props

open SMC Spec CLC

theorem map_ret {α β : Type} (f : α → β) (l : List Bytes) (a : α) :
    ((Go.ret l a : Go α) >>= fun x => pure (f x)) = .ret l (f a) := by
  show Go.bind _ _ = _
  simp [Go.bind]

theorem map_panics {α β : Type} (f : α → β) (x : Go α) : (x >>= fun a => pure (f a)).Panics ↔ x.Panics := by
  cases x with
  | ret l a =>
    rw [map_ret]
    exact ⟨fun h => (by obtain ⟨_, c⟩ := h; cases c), fun h => (by obtain ⟨_, c⟩ := h; cases c)⟩
  | panic l => exact ⟨fun _ => ⟨_, rfl⟩, fun _ => ⟨_, rfl⟩⟩

theorem map_reject {α β : Type} (f : α → β) (msg v e : Bytes) (n : Nat) (x : α) :
    (reject msg v e n x >>= fun a => pure (f a)) = reject msg v e n (f x) := by
  unfold reject
  split
  · exact map_ret _ _ _
  · rfl

theorem reject_panics {α : Type} (msg v e : Bytes) (n : Nat) (x : α) :
    (reject msg v e n x).Panics ↔ v.length + e.length < n := by
  unfold reject
  split
  · exact ⟨fun h => (by obtain ⟨_, c⟩ := h; cases c), fun h => by omega⟩
  · exact ⟨fun _ => by omega, fun _ => ⟨_, rfl⟩⟩

theorem ret_not_panics {α : Type} (l : List Bytes) (a : α) : ¬ (Go.ret l a).Panics := fun h => by
  obtain ⟨_, c⟩ := h; cases c

theorem acceptText_eq (v : Bytes) (hv : 8 ≤ v.length) :
    acceptText v[4] = tooShort .acceptSMCR (num v 4 0 8) := by
  have : v[4] = TypeConfirm ↔ num v 4 0 8 = 3 := by rw [num_8 v 4 (by omega)]; exact toNat_eq_three _
  unfold acceptText tooShort
  simp only [this]

theorem acceptV2Text_eq (v : Bytes) (hv : 8 ≤ v.length) :
    acceptV2Text v[4] = tooShort .acceptSMCDv2 (num v 4 0 8) := by
  have : v[4] = TypeConfirm ↔ num v 4 0 8 = 3 := by rw [num_8 v 4 (by omega)]; exact toNat_eq_three _
  unfold acceptV2Text tooShort
  simp only [this]

/-- messages that declare too little -/
theorem message_short (m : Message) (hm : Sized m) (v e : Bytes) (hv : 8 ≤ v.length)
    (h : declared v < minLen (clcKind m)) :
    m.parse ⟨v, e⟩ = reject (tooShort (clcKind m) (num v 4 0 8)) v e (declared v)
      (withRawHdr m ⟨v, e⟩ (hdrOf v hv)) := by
  have hd := declared_eq v hv
  rw [← hd] at h
  have e1 := acceptText_eq v hv
  have e2 := acceptV2Text_eq v hv
  rw [← hd]
  cases m with
  | proposal m => rw [Message.parse, proposal_short v e hv m hm.1 h]; exact map_reject _ _ _ _ _ _
  | proposalV2 m => rw [Message.parse, proposalV2_short v e hv m hm.1 h]; exact map_reject _ _ _ _ _ _
  | acceptSMCR m => rw [Message.parse, smcr_short v e hv m hm.1 h, e1]; exact map_reject _ _ _ _ _ _
  | acceptSMCD m => rw [Message.parse, smcd_short v e hv m hm.1 h, e1]; exact map_reject _ _ _ _ _ _
  | acceptSMCDv2 m => rw [Message.parse, smcdv2_short v e hv m hm.1 (.inl h), e2]; exact map_reject _ _ _ _ _ _
  | confirmSMCR m => rw [Message.parse, smcr_short v e hv m hm.1 h, e1]; exact map_reject _ _ _ _ _ _
  | confirmSMCD m => rw [Message.parse, smcd_short v e hv m hm.1 h, e1]; exact map_reject _ _ _ _ _ _
  | confirmSMCDv2 m => rw [Message.parse, smcdv2_short v e hv m hm.1 (.inl h), e2]; exact map_reject _ _ _ _ _ _
  | decline m => rw [Message.parse, decline_short v e hv m hm.1 h]; exact map_reject _ _ _ _ _ _
  | declineV2 m => rw [Message.parse, declineV2_short v e hv m hm.1 h]; exact map_reject _ _ _ _ _ _

/-! ## C40 -/

/-- C40. Such messages are only reported: an error text and the hex dump of the declared bytes
(as far as the capacity reaches; otherwise `Parse` panics). -/
theorem C40_short (m : Message) (hm : Sized m) (s : Slice) (hs : 8 ≤ s.len)
    (h : declared s.vis < minLen (clcKind m)) (hc : declared s.vis ≤ s.cap) :
    ∃ h, WireHeader s.vis h ∧
      m.parse s = .ret [tooShort (clcKind m) (num s.vis 4 0 8),
        go! "Message Buffer Hex Dump:\n" ++ hexDump ((s.vis ++ s.extra).take (declared s.vis))] (withRawHdr m s h) := by
  obtain ⟨v, e⟩ := s
  simp only [Slice.len_mk, Slice.cap_mk] at *
  refine ⟨hdrOf v hs, hdrOf_wire v hs, ?_⟩
  rw [message_short m hm v e hs h]
  unfold reject
  rw [if_pos hc]
  congr 2
  unfold dumpText
  unfmt []
  simp

/-- C40: it does panic if the declared bytes are not there. -/
theorem C40_short_panics_iff (m : Message) (hm : Sized m) (s : Slice) (hs : 8 ≤ s.len)
    (h : declared s.vis < minLen (clcKind m)) : (m.parse s).Panics ↔ s.cap < declared s.vis := by
  obtain ⟨v, e⟩ := s
  simp only [Slice.len_mk, Slice.cap_mk] at *
  rw [message_short m hm v e hs h, reject_panics]

example : declared (hex! "e2 d4 c3 d9 04 00 1b 10") = 27 ∧ minLen (clcKind (.decline {})) = 28 ∧ Sized (.decline {}) :=
  ⟨by decide +kernel, rfl, by unfold Sized; decide⟩

/-! ## C33, C44, C48 -/

theorem pfxLog_nil (msg v : Bytes) (L k w n : Nat) : pfxLog msg v L k w n = [] ↔ entries L k w n = n := by
  unfold pfxLog entries fits errLog
  split
  · simp; omega
  · simp; omega

/-- complete messages of the kinds without variable parts -/
theorem message_fixed (m : Message) (hm : Sized m) (v e : Bytes) (hv : 8 ≤ v.length) (h1 : clcKind m ≠ .proposal)
    (h2 : clcKind m ≠ .proposalV2) (hl : minLen (clcKind m) ≤ declared v) (hL : declared v ≤ v.length) :
    ∃ m', m.parse ⟨v, e⟩ = .ret (trailerLog (last4 v)) m' ∧ m'.trailer = last4 v := by
  have hd := declared_eq v hv
  cases m with
  | proposal m => exact absurd rfl h1
  | proposalV2 m => exact absurd rfl h2
  | acceptSMCR m | confirmSMCR m =>
    simp only [clcKind, minLen] at hl
    rw [Message.parse, smcr_parse v e hv m hm.1 hm.2.1 hm.2.2 (by omega) (by omega)]
    exact ⟨_, map_ret _ _ _, rfl⟩
  | acceptSMCD m | confirmSMCD m =>
    simp only [clcKind, minLen] at hl
    rw [Message.parse, smcd_parse v e hv m hm.1 hm.2.1 hm.2.2.1 hm.2.2.2 (by omega) (by omega)]
    exact ⟨_, map_ret _ _ _, rfl⟩
  | acceptSMCDv2 m | confirmSMCDv2 m =>
    simp only [clcKind, minLen] at hl
    obtain ⟨g1, g2, g3, g4, g5, g6, g7⟩ := hm
    by_cases hn : declared v = 114
    · rw [Message.parse, smcdv2_parse_fce v e hv m g1 g2 g3 g4 g7 g5 g6 (by omega) (by omega)]
      exact ⟨_, map_ret _ _ _, rfl⟩
    · rw [Message.parse, smcdv2_parse v e hv m g1 g2 g3 g4 g7 (by omega) (by omega) (by omega)]
      exact ⟨_, map_ret _ _ _, rfl⟩
  | decline m =>
    simp only [clcKind, minLen] at hl
    rw [Message.parse, decline_parse v e hv m hm.1 hm.2.1 hm.2.2.1 hm.2.2.2 (by omega) (by omega)]
    exact ⟨_, map_ret _ _ _, rfl⟩
  | declineV2 m =>
    simp only [clcKind, minLen] at hl
    rw [Message.parse, declineV2_parse v e hv m hm.1 hm.2.1 hm.2.2.1 hm.2.2.2 (by omega) (by omega)]
    exact ⟨_, map_ret _ _ _, rfl⟩

/-- a message that is only reported -/
def OnlyReported (m : Message) (x : Go Message) : Prop :=
  ∃ l m', x = .ret l m' ∧ m'.trailer = m.trailer ∧ l ≠ [] ∧ trailerText ∉ l
/-- a message that is decoded up to its trailer -/
def ParsedWhole (k : CLCKind) (v : Bytes) (x : Go Message) : Prop :=
  ∃ l m', x = .ret (l ++ trailerLog (last4 v)) m' ∧ m'.trailer = last4 v ∧ trailerText ∉ l ∧ (l = [] ↔ AllDecoded k v)

theorem trailerText_err : IsErr trailerText := rfl

theorem tooShort_err (k : CLCKind) (t : Nat) : IsErr (tooShort k t) ∧ tooShort k t ≠ trailerText := by
  by_cases ht : t = 3
  · subst ht; revert k; unfold IsErr
    intro k; cases k <;> decide
  · cases k <;> simp only [tooShort, ht, if_false, IsErr] <;> decide

/-- everything that can happen to a complete message -/
theorem message_complete (m : Message) (hm : Sized m) (v e : Bytes) (hv : 8 ≤ v.length) (hL : declared v ≤ v.length) :
    (Crashes (clcKind m) v (v.length + e.length) ∧ (m.parse ⟨v, e⟩).Panics) ∨
    (¬ Crashes (clcKind m) v (v.length + e.length) ∧ ¬ Accepted (clcKind m) v ∧ OnlyReported m (m.parse ⟨v, e⟩)) ∨
    (¬ Crashes (clcKind m) v (v.length + e.length) ∧ Accepted (clcKind m) v ∧
      ParsedWhole (clcKind m) v (m.parse ⟨v, e⟩)) := by
  by_cases hs : declared v < minLen (clcKind m)
  · refine .inr (.inl ⟨?_, fun c => by have := c.1; omega, ?_⟩)
    · intro c
      cases m <;> simp only [clcKind, minLen, Crashes] at c hs
      · have := c.1; omega
      · have := c.1; omega
    · rw [message_short m hm v e hv hs, reject_ret _ _ _ _ _ hL]
      obtain ⟨e1, e2⟩ := tooShort_err (clcKind m) (num v 4 0 8)
      refine ⟨_, _, rfl, by cases m <;> rfl, by simp [errLog], ?_⟩
      rw [mem_errLog trailerText_err]
      exact fun c => e2 c.symm
  · by_cases h1 : clcKind m = .proposal
    · cases m <;> simp only [clcKind, reduceCtorEq] at h1
      rename_i m
      simp only [clcKind, minLen] at hs ⊢
      rw [Message.parse, proposal_result v e hv m hm (by omega) (by omega) hL]
      unfold propResult
      by_cases c1 : num v 38 0 16 = 40 ∧ v.length + e.length < 80
      · rw [if_pos c1]
        exact .inl ⟨⟨by omega, c1.1, c1.2⟩, ⟨_, rfl⟩⟩
      · rw [if_neg c1]
        have nc : ¬ Crashes .proposal v (v.length + e.length) := fun c => c1 c.2
        by_cases c2 : declared v < ipAreaAt v + 12
        · rw [if_pos c2]
          refine .inr (.inl ⟨nc, fun c => by have := c.2; simp only at this; omega, _, _, map_ret _ _ _, ?_, by simp [errLog], ?_⟩)
          · exact propFixed_trailer v e hv m (by omega)
          · rw [mem_errLog trailerText_err]; decide
        · rw [if_neg c2]
          refine .inr (.inr ⟨nc, ⟨by simp only [minLen]; omega, by simp only; omega⟩, _, _, map_ret _ _ _, rfl, ?_, ?_⟩)
          · rw [mem_pfxLog trailerText_err]
            exact fun c => absurd c.1 (by decide)
          · exact pfxLog_nil _ _ _ _ _ _
    · by_cases h2 : clcKind m = .proposalV2
      · cases m <;> simp only [clcKind, reduceCtorEq] at h2
        rename_i m
        simp only [clcKind, minLen] at hs ⊢
        have hp := C33_proposalV2_panics_iff m hm ⟨v, e⟩ (by simp only; omega) hL
        simp only at hp
        rw [Message.parse]
        by_cases hc : (m.parse ⟨v, e⟩).Panics
        · exact .inl ⟨⟨by omega, hp.1 hc⟩, (map_panics _ _).2 hc⟩
        · have nc : ¬ Crashes .proposalV2 v (v.length + e.length) := fun c => hc (hp.2 c.2)
          cases hr : m.parse ⟨v, e⟩ with
          | panic l => exact absurd ⟨l, hr⟩ hc
          | ret l m' =>
            rcases v2_returns hm hv (by omega) (by omega) hL hr with ⟨c1, rfl, rfl⟩ | ⟨c1, c2, rfl, rfl⟩ |
              ⟨c1, c2, c3, c4, rfl, rfl⟩ | ⟨c1, c2, c3, c4, c5, rfl, rfl⟩
            · refine .inr (.inl ⟨nc, fun c => c1 c.2.1, _, _, map_ret _ _ _, rfl, by simp [errLog], ?_⟩)
              rw [mem_errLog trailerText_err]; decide
            · refine .inr (.inl ⟨nc, fun c => c2 c.2.2.1, _, _, map_ret _ _ _, ?_, by simp [errLog], ?_⟩)
              · show (v2P v e hv m _).trailer = m.trailer
                unfold v2P; split <;> rfl
              · rw [List.mem_append, mem_errLog trailerText_err, mem_v2LogP trailerText_err]
                rintro (c | c)
                · exact absurd c.2.1 (by decide)
                · exact absurd c (by decide)
            · refine .inr (.inl ⟨nc, fun c => c4 c.2.2.2, _, _, map_ret _ _ _, ?_, by simp [errLog], ?_⟩)
              · show (v2Q v e hv m _).trailer = m.trailer
                unfold v2Q v2P; split <;> split <;> rfl
              · rw [List.mem_append, List.mem_append, mem_errLog trailerText_err, mem_v2LogP trailerText_err,
                  mem_v2LogQ trailerText_err]
                rintro ((c | c) | c)
                · exact absurd c.2.1 (by decide)
                · exact absurd c.2.1 (by decide)
                · exact absurd c (by decide)
            · refine .inr (.inr ⟨nc, ⟨by simp only [minLen]; omega, c1, c2, c4⟩, _, _, map_ret _ _ _, rfl, ?_, ?_⟩)
              · rw [List.mem_append, List.mem_append, mem_v2LogP trailerText_err, mem_v2LogQ trailerText_err,
                  mem_v2LogR trailerText_err]
                rintro ((c | c) | c)
                · exact absurd c.2.1 (by decide)
                · exact absurd c.2.1 (by decide)
                · exact absurd c.2.1 (by decide)
              · rw [List.append_eq_nil_iff, List.append_eq_nil_iff, and_assoc]
                show _ ↔ (HasIP v → _) ∧ (HasExt v → _) ∧ (HasSMCD v → _)
                refine and_congr ?_ (and_congr ?_ ?_)
                · unfold v2LogP
                  by_cases hx : pathOf v = 2
                  · rw [if_pos hx]; exact ⟨fun _ c => absurd hx c, fun _ => rfl⟩
                  · rw [if_neg hx, pfxLog_nil]; exact ⟨fun c _ => c, fun c => c hx⟩
                · unfold v2LogQ
                  by_cases hx : pathv2Of v = 2
                  · rw [if_pos hx]; exact ⟨fun _ c => absurd hx c, fun _ => rfl⟩
                  · rw [if_neg hx, pfxLog_nil]; exact ⟨fun c _ => c, fun c => c hx⟩
                · unfold v2LogR
                  by_cases hx : HasSMCD v
                  · rw [if_pos hx, pfxLog_nil]; exact ⟨fun c _ => c, fun c => c hx⟩
                  · rw [if_neg hx]; exact ⟨fun _ c => absurd c hx, fun _ => rfl⟩
      · obtain ⟨m', h3, h4⟩ := message_fixed m hm v e hv h1 h2 (by omega) hL
        refine .inr (.inr ⟨?_, ⟨by omega, ?_⟩, [], m', by rw [h3, List.nil_append], h4, by simp, ?_⟩)
        · intro c
          cases m <;> simp only [clcKind, Crashes, ne_eq, not_true_eq_false] at c h1 h2
        · cases m <;> simp_all [clcKind]
        · cases m <;> simp_all [clcKind, AllDecoded]

/-- C33, exactly: on a complete message `Parse` panics if and only if the message is a Proposal
of version 1 with IP area offset 40 in a buffer with less than 80 bytes of capacity, or one
of version 2 with more than eight EIDs or GIDs. -/
theorem C33_panics_iff (m : Message) (hm : Sized m) (s : Slice) (hs : 8 ≤ s.len) (hL : declared s.vis ≤ s.len) :
    (m.parse s).Panics ↔ Crashes (clcKind m) s.vis s.cap := by
  obtain ⟨v, e⟩ := s
  simp only [Slice.len_mk, Slice.cap_mk] at *
  rcases message_complete m hm v e hs hL with h | ⟨h1, -, _, _, h2, -⟩ | ⟨h1, -, _, _, h2, -⟩
  · exact ⟨fun _ => h.1, fun _ => h.2⟩
  · rw [h2]; exact ⟨fun c => absurd c (ret_not_panics _ _), fun c => absurd c h1⟩
  · rw [h2]; exact ⟨fun c => absurd c (ret_not_panics _ _), fun c => absurd c h1⟩

theorem sized_fresh (k : CLCKind) : Sized (freshCLC k) := by
  cases k <;> simp only [freshCLC, Sized] <;> decide

theorem kind_fresh (k : CLCKind) : clcKind (freshCLC k) = k := by cases k <;> rfl

/-- C33, the part that holds: a message that `NewMessage` returned is parsed without panic if
it is complete and no Proposal, or a Proposal that does not meet the condition above. -/
theorem C33_complete_partial (s : Slice) (hs : 8 ≤ s.len) (l : List Bytes) (m : Message) (n : UInt16)
    (h : newMessage s = .ret l (some m, n)) (hn : n.toNat ≤ s.len) (hc : ¬ Crashes (clcKind m) s.vis s.cap) :
    ∃ l' m', m.parse s = .ret l' m' := by
  obtain ⟨l2, n2, h2⟩ := C29_newMessage_kind s hs
  have hn' := (C30_newMessage_length s hs l _ n h).1 rfl
  rw [h] at h2
  obtain ⟨-, h3⟩ := Go.ret.inj h2
  simp only [Prod.mk.injEq] at h3
  obtain ⟨h3, -⟩ := h3
  cases hk : classify s.vis with
  | none => rw [hk] at h3; cases h3
  | some k =>
    rw [hk, Option.map_some] at h3
    cases h3
    have := C33_panics_iff (freshCLC k) (sized_fresh k) s hs (by omega)
    cases hr : (freshCLC k).parse s with
    | ret l' m' => exact ⟨l', m', rfl⟩
    | panic l' => exact absurd (this.1 ⟨l', hr⟩) hc

/-- a Proposal of version 1, 52 bytes, IP area offset 40 -/
def shortOffset40 : Bytes :=
  hex! "e2d4c3d901003410b1a098039babcdeffe800000000000009a039bfffeabcdef98039babcdef00287f00000008000000e2d4c3d9"

/-- C33 is false for version 1, too: this complete message, in a buffer of just its size,
makes `Parse` panic. -/
theorem C33_proposal_false :
    declared shortOffset40 = shortOffset40.length ∧
    newMessage ⟨shortOffset40, []⟩ = .ret [] (some (.proposal {}), 52) ∧
    (Message.proposal {}).parse ⟨shortOffset40, []⟩ = .panic [] := by
  decide +kernel

example : ¬ Crashes .declineV2 (hex! "e2 d4 c3 d9 04 00 1c 20") 28 := fun h => h

/-- C44: a message that is decoded up to its trailer has the last four bytes of the *buffer* as
its trailer, and these are checked. -/
theorem C44_trailer (m : Message) (hm : Sized m) (s : Slice) (hs : 8 ≤ s.len) (hL : declared s.vis ≤ s.len)
    (ha : Accepted (clcKind m) s.vis) (l : List Bytes) (m' : Message) (h : m.parse s = .ret l m') :
    m'.trailer = lastFour s.vis ∧
      ((go! "Error parsing CLC message: invalid trailer") ∈ l ↔ ¬ IsEye (lastFour s.vis)) := by
  obtain ⟨v, e⟩ := s
  simp only [Slice.len_mk] at *
  rcases message_complete m hm v e hs hL with ⟨-, h1⟩ | ⟨-, h1, -⟩ | ⟨-, -, l2, m2, h2, h3, h4, -⟩
  · rw [h] at h1; exact absurd h1 (ret_not_panics _ _)
  · exact absurd ha h1
  · rw [h2] at h
    cases h
    refine ⟨h3, ?_⟩
    show trailerText ∈ _ ↔ _
    rw [List.mem_append, mem_trailerLog trailerText_err]
    exact ⟨fun c => c.elim (fun c => absurd c h4) (fun c => c.2), fun c => .inr ⟨rfl, c⟩⟩

/-- C44: a message that is rejected keeps its trailer, which is not checked. -/
theorem C44_rejected (m : Message) (hm : Sized m) (s : Slice) (hs : 8 ≤ s.len) (hL : declared s.vis ≤ s.len)
    (ha : ¬ Accepted (clcKind m) s.vis) (l : List Bytes) (m' : Message) (h : m.parse s = .ret l m') :
    m'.trailer = m.trailer ∧ (go! "Error parsing CLC message: invalid trailer") ∉ l := by
  obtain ⟨v, e⟩ := s
  simp only [Slice.len_mk] at *
  rcases message_complete m hm v e hs hL with ⟨-, h1⟩ | ⟨-, -, l2, m2, h2, h3, h4, h5⟩ | ⟨-, h1, -⟩
  · rw [h] at h1; exact absurd h1 (ret_not_panics _ _)
  · rw [h2] at h
    cases h
    exact ⟨h3, h5⟩
  · exact absurd h1 ha

/-- C44, as far as it holds: in a buffer of just the size of the message the trailer is the
last four bytes of the message. -/
theorem C44_trailer_partial (m : Message) (hm : Sized m) (s : Slice) (hs : 8 ≤ s.len) (hL : declared s.vis = s.len)
    (ha : Accepted (clcKind m) s.vis) (l : List Bytes) (m' : Message) (h : m.parse s = .ret l m') :
    m'.trailer = raw s.vis (declared s.vis - 4) 4 ∧
      ((go! "Error parsing CLC message: invalid trailer") ∈ l ↔ ¬ IsEye (raw s.vis (declared s.vis - 4) 4)) := by
  have hr : raw s.vis (declared s.vis - 4) 4 = lastFour s.vis := by
    unfold raw lastFour
    rw [hL]
    exact List.take_of_length_le (by simp [Slice.len]; omega)
  rw [hr]
  exact C44_trailer m hm s hs (by omega) ha l m' h

/-- C44 is false for longer buffers: the trailer of this valid Decline, followed by one more
byte, is not its last four bytes and is reported as invalid. -/
theorem C44_trailer_false :
    let v := hex! "e2d4c3d904001c1025252525252525000303000000000000e2d4c3d9"
    declared v = v.length ∧ IsEye (raw v 24 4) ∧ Accepted .decline (v ++ [0]) ∧
    ((Message.decline {}).parse ⟨v ++ [0], []⟩).val?.map (·.trailer) = some (hex! "d4c3d900") ∧
    (go! "Error parsing CLC message: invalid trailer") ∈ ((Message.decline {}).parse ⟨v ++ [0], []⟩).logOf := by
  refine ⟨by decide +kernel, by decide +kernel, ⟨by decide +kernel, trivial⟩, by decide +kernel, by decide +kernel⟩

example : Accepted .decline (hex! "e2d4c3d904001c1025252525252525000303000000000000e2d4c3d9") ∧ Sized (.decline {}) :=
  ⟨⟨by decide +kernel, trivial⟩, sized_fresh .decline⟩

/-- C48: if nothing is logged then the message is at least as long as its kind requires, all
its parts and all announced entries are in it, and its buffer ends with an eyecatcher. -/
theorem C48_silence (m : Message) (hm : Sized m) (s : Slice) (hs : 8 ≤ s.len) (hL : declared s.vis ≤ s.len)
    (m' : Message) (h : m.parse s = .ret [] m') :
    Accepted (clcKind m) s.vis ∧ AllDecoded (clcKind m) s.vis ∧ m'.trailer = lastFour s.vis ∧ IsEye m'.trailer := by
  obtain ⟨v, e⟩ := s
  simp only [Slice.len_mk] at *
  rcases message_complete m hm v e hs hL with ⟨-, h1⟩ | ⟨-, -, l2, m2, h2, -, h4, -⟩ | ⟨-, h1, l2, m2, h2, h3, -, h5⟩
  · rw [h] at h1; exact absurd h1 (ret_not_panics _ _)
  · rw [h2] at h
    cases h; exact absurd rfl h4
  · rw [h2] at h
    obtain ⟨h6, rfl⟩ := Go.ret.inj h
    rw [List.append_eq_nil_iff] at h6
    refine ⟨h1, h5.1 h6.1, h3, ?_⟩
    rw [h3]
    have := h6.2
    unfold trailerLog at this
    split at this
    · rename_i hx; exact hx
    · cases this

/-- C48, the other direction: such messages are decoded without any log line. -/
theorem C48_success (m : Message) (hm : Sized m) (s : Slice) (hs : 8 ≤ s.len) (hL : declared s.vis ≤ s.len)
    (h1 : Accepted (clcKind m) s.vis) (h2 : AllDecoded (clcKind m) s.vis) (h3 : IsEye (lastFour s.vis))
    (h4 : ¬ Crashes (clcKind m) s.vis s.cap) : ∃ m', m.parse s = .ret [] m' := by
  obtain ⟨v, e⟩ := s
  simp only [Slice.len_mk, Slice.cap_mk] at *
  rcases message_complete m hm v e hs hL with ⟨h, -⟩ | ⟨-, h, -⟩ | ⟨-, -, l2, m2, h5, -, -, h7⟩
  · exact absurd h h4
  · exact absurd h1 h
  · refine ⟨m2, ?_⟩
    rw [h5, h7.2 h2, List.nil_append]
    unfold trailerLog
    rw [if_pos (show last4 v = SMCREyecatcher ∨ last4 v = SMCDEyecatcher from h3)]

example : Accepted .proposalV2 v2Example ∧ AllDecoded .proposalV2 v2Example ∧ IsEye (lastFour v2Example) ∧
    ¬ Crashes .proposalV2 v2Example 239 :=
  ⟨⟨by decide +kernel, by decide +kernel, by decide +kernel, by decide +kernel⟩,
    ⟨by decide +kernel, by decide +kernel, by decide +kernel⟩, by decide +kernel, by unfold Crashes; decide +kernel⟩

end SMC.Props
