import Verif.Lemmas.TextSizeCLC
/-!
# Sizes after parsing
-/

namespace SMC.CLC

open Spec

theorem fits_header (h : Header) (hs : SizedHeader h) (s : Slice) : Ensures (h.parse s) SizedHeader := by
  unfold Header.parse
  repeat' refine Ensures.bind fun _ => ?_
  refine Ensures.pure ?_
  show (copyInto _ _).length = 4
  rw [copyInto_length]
  exact hs

theorem fits_trailer (t : Bytes) (n : Nat) (ht : t.length = n) (s : Slice) :
    Ensures (trailerParse t s) fun r => r.length = n := by
  unfold trailerParse
  repeat' first
    | refine Ensures.bind fun _ => ?_
    | refine Ensures.ite ?_ ?_
  all_goals exact Ensures.pure (by rw [copyInto_length]; exact ht)

theorem three_lt (a b c : UInt8) : a.toNat <<< 16 ||| b.toNat <<< 8 ||| c.toNat < 10 ^ 8 := by
  have h : ∀ x : UInt8, ∀ k, x.toNat <<< k < 2 ^ (8 + k) := by
    intro x k
    rw [Nat.shiftLeft_eq, Nat.pow_add]
    exact Nat.mul_lt_mul_of_pos_right x.toNat_lt (Nat.two_pow_pos k)
  refine Nat.lt_trans (Nat.or_lt_two_pow (n := 24) (Nat.or_lt_two_pow (h a 16) ?_) ?_) (by decide)
  · exact Nat.lt_trans (h b 8) (by decide)
  · exact Nat.lt_trans c.toNat_lt (by decide)

theorem zeros_length (n : Nat) : (zeros n).length = n := List.length_replicate

/-- follows the statements up to the trailer -/
macro "to_end" h:term "as" ht:ident : tactic => `(tactic| repeat' first
  | with_reducible refine Ensures.bind_with (fits_trailer _ 4 $h _) fun _ $ht => ?_
  | with_reducible refine Ensures.bind fun _ => ?_)

theorem fits_decline (m : Decline) (h : SizedDecline m) (s : Slice) : Ensures (m.parse s) SizedDecline := by
  unfold Decline.parse
  dsimp only
  refine Ensures.bind_with (fits_header _ h.1 s) fun _ hh => Ensures.ite ?_ ?_
  · to_end h.2.2.2 as ht
    exact Ensures.pure ⟨hh, h.2⟩
  · to_end h.2.2.2 as ht
    exact Ensures.pure ⟨hh, by rw [copyInto_length]; exact h.2.1, by rw [copyInto_length]; exact h.2.2.1, ht⟩

theorem fits_declineV2 (m : DeclineV2) (h : SizedDeclineV2 m) (s : Slice) : Ensures (m.parse s) SizedDeclineV2 := by
  unfold DeclineV2.parse
  dsimp only
  refine Ensures.bind_with (fits_header _ h.1 s) fun _ hh => Ensures.ite ?_ ?_
  · to_end h.2.2.2 as ht
    exact Ensures.pure ⟨hh, h.2⟩
  · to_end h.2.2.2 as ht
    exact Ensures.pure ⟨hh, by rw [copyInto_length]; exact h.2.1,
      by rw [List.length_modify, copyInto_length]; exact h.2.2.1, ht⟩

theorem fits_smcd (m : AcceptSMCD) (h : SizedSMCD m) (s : Slice) : Ensures (m.parse s) SizedSMCD := by
  unfold AcceptSMCD.parse
  dsimp only
  refine Ensures.bind_with (fits_header _ h.1 s) fun _ hh => Ensures.ite ?_ ?_
  · to_end h.2.2.2 as ht
    exact Ensures.pure ⟨hh, h.2⟩
  · to_end h.2.2.2 as ht
    exact Ensures.pure ⟨hh, by rw [copyInto_length]; exact h.2.1, by rw [copyInto_length]; exact h.2.2.1, ht⟩

theorem fits_fce (m : AcceptSMCDv2) (h : SizedSMCDv2 m) (s : Slice) : Ensures (m.parseFCE s) fun r => SizedSMCDv2 r.1 := by
  unfold AcceptSMCDv2.parseFCE
  dsimp only
  repeat' refine Ensures.bind fun _ => ?_
  exact Ensures.pure ⟨h.1, h.2.1, h.2.2.1, h.2.2.2.1, by rw [copyInto_length]; exact h.2.2.2.2.1,
    by rw [copyInto_length]; exact h.2.2.2.2.2.1, h.2.2.2.2.2.2⟩

theorem fits_smcdv2 (m : AcceptSMCDv2) (h : SizedSMCDv2 m) (s : Slice) : Ensures (m.parse s) SizedSMCDv2 := by
  unfold AcceptSMCDv2.parse
  dsimp only
  refine Ensures.bind_with (fits_header _ h.1 s) fun _ hh => Ensures.ite ?_ ?_
  · to_end h.2.2.2.2.2.2 as ht
    exact Ensures.pure ⟨hh, h.2⟩
  · iterate 24 refine Ensures.bind fun _ => ?_
    refine Ensures.ite (Ensures.bind_with (fits_fce _ ?_ _) fun r hr =>
      Ensures.bind_with (fits_trailer _ 4 hr.2.2.2.2.2.2 _) fun _ ht => Ensures.pure
      ⟨hr.1, hr.2.1, hr.2.2.1, hr.2.2.2.1, hr.2.2.2.2.1, hr.2.2.2.2.2.1, ht⟩) ?_
    · exact ⟨hh, by rw [copyInto_length]; exact h.2.1, by rw [copyInto_length]; exact h.2.2.1,
        by rw [copyInto_length]; exact h.2.2.2.1, h.2.2.2.2⟩
    · refine Ensures.bind_with (Q := fun r => SizedSMCDv2 r.1) (Ensures.pure ?_) fun r hr =>
        Ensures.bind_with (fits_trailer _ 4 hr.2.2.2.2.2.2 _) fun _ ht => Ensures.pure
        ⟨hr.1, hr.2.1, hr.2.2.1, hr.2.2.2.1, hr.2.2.2.2.1, hr.2.2.2.2.2.1, ht⟩
      exact ⟨hh, by rw [copyInto_length]; exact h.2.1, by rw [copyInto_length]; exact h.2.2.1,
        by rw [copyInto_length]; exact h.2.2.2.1, h.2.2.2.2⟩

/-- an SMC-R message after parsing -/
abbrev FitsSMCR (m : AcceptSMCR) : Prop :=
  SizedSMCR m ∧ m.IBGID.length ≤ 16 ∧ m.IBMAC.length ≤ 6 ∧ m.QPN < 10 ^ 8 ∧ m.PSN < 10 ^ 8

theorem fits_smcr (m : AcceptSMCR) (h : FitsSMCR m) (s : Slice) : Ensures (m.parse s) FitsSMCR := by
  unfold AcceptSMCR.parse
  dsimp only
  refine Ensures.bind_with (fits_header _ h.1.1 s) fun _ hh => Ensures.ite ?_ ?_
  · to_end h.1.2.2 as ht
    exact Ensures.pure ⟨⟨hh, h.1.2⟩, h.2⟩
  · to_end h.1.2.2 as ht
    exact Ensures.pure ⟨⟨hh, by rw [copyInto_length]; exact h.1.2.1, ht⟩, by rw [copyInto_length]; decide,
      by rw [copyInto_length]; decide, three_lt _ _ _, three_lt _ _ _⟩

/-! ## Proposals -/

theorem fits_prefixes (l : UInt16) (s : Slice) (n k : Nat) (ps : List IPv6Prefix) (hp : ∀ p ∈ ps, p.pfx.length ≤ 16) :
    Ensures (parsePrefixes l s n k ps) fun r =>
      (∀ p ∈ r, p.pfx.length ≤ 16) ∧ 17 * r.length ≤ 17 * ps.length + (l.toNat - k) := by
  induction n generalizing k ps with
  | zero => exact Ensures.pure ⟨hp, Nat.le_add_right _ _⟩
  | succ n ih =>
    unfold parsePrefixes
    dsimp only
    split
    · repeat' refine Ensures.bind fun _ => ?_
      exact Ensures.pure ⟨hp, Nat.le_add_right _ _⟩
    · rename_i hc
      simp only [IPv6PrefixLen, TrailerLen, EyecatcherLen] at hc
      refine Ensures.bind fun _ => Ensures.bind fun _ => ?_
      intro l' r hr
      obtain ⟨h1, h2⟩ := ih _ _ (fun p hm => by
        rcases List.mem_append.1 hm with hm | hm
        · exact hp p hm
        · rw [List.mem_singleton.1 hm, copyInto_length, zeros_length]; exact Nat.le_refl _) _ _ hr
      refine ⟨h1, Nat.le_trans h2 ?_⟩
      rw [List.length_append, List.length_singleton]
      omega

theorem fits_prefixesV2 (l : UInt16) (s : Slice) (n k : Nat) (ps : List IPv6Prefix) (hp : ∀ p ∈ ps, p.pfx.length ≤ 16) :
    Ensures (parsePrefixesV2 l s n k ps) fun r =>
      (∀ p ∈ r.1, p.pfx.length ≤ 16) ∧ 17 * r.1.length ≤ 17 * ps.length + (l.toNat - k) := by
  induction n generalizing k ps with
  | zero => exact Ensures.pure ⟨hp, Nat.le_add_right _ _⟩
  | succ n ih =>
    unfold parsePrefixesV2
    dsimp only
    split
    · repeat' refine Ensures.bind fun _ => ?_
      exact Ensures.pure ⟨hp, Nat.le_add_right _ _⟩
    · rename_i hc
      simp only [IPv6PrefixLen, TrailerLen, EyecatcherLen] at hc
      refine Ensures.bind fun _ => Ensures.bind fun _ => ?_
      intro l' r hr
      obtain ⟨h1, h2⟩ := ih _ _ (fun p hm => by
        rcases List.mem_append.1 hm with hm | hm
        · exact hp p hm
        · rw [List.mem_singleton.1 hm, copyInto_length, zeros_length]; exact Nat.le_refl _) _ _ hr
      refine ⟨h1, Nat.le_trans h2 ?_⟩
      rw [List.length_append, List.length_singleton]
      omega

/-- a Proposal after parsing -/
abbrev GoodProposal (n : Nat) (m : Proposal) : Prop :=
  SizedProposal m ∧ (∀ p ∈ m.IPv6Prefixes, p.pfx.length ≤ 16) ∧ m.IBGID.length ≤ 16 ∧ m.IBMAC.length ≤ 6 ∧
    m.Prefix.length ≤ 16 ∧ 17 * m.IPv6Prefixes.length ≤ n + m.hdr.Length.toNat

theorem fits_proposalSMCD (m : Proposal) (s : Slice) (k : Nat) :
    Ensures (m.parseSMCD s k) fun r => ∃ g v, r.1 = { m with SMCDGID := g, rsv := v } ∧ v.length = m.rsv.length := by
  unfold Proposal.parseSMCD
  dsimp only
  refine Ensures.ite ?_ ?_
  · repeat' refine Ensures.bind fun _ => ?_
    exact Ensures.pure ⟨_, _, rfl, copyInto_length _ _⟩
  · exact Ensures.pure ⟨_, _, rfl, rfl⟩

theorem fits_proposal (m : Proposal) (h : SizedProposal m)
    (hp : ∀ p ∈ m.IPv6Prefixes, p.pfx.length ≤ 16) (ha : m.IBGID.length ≤ 16 ∧ m.IBMAC.length ≤ 6 ∧ m.Prefix.length ≤ 16)
    (s : Slice) : Ensures (m.parse s) (GoodProposal (17 * m.IPv6Prefixes.length)) := by
  unfold Proposal.parse
  dsimp only
  refine Ensures.bind_with (fits_header _ h.1 s) fun _ hh => Ensures.ite ?_ ?_
  · repeat' refine Ensures.bind fun _ => ?_
    exact Ensures.pure ⟨⟨hh, h.2⟩, hp, ha.1, ha.2.1, ha.2.2, Nat.le_add_right _ _⟩
  · refine Ensures.bind fun _ => Ensures.bind fun _ => Ensures.bind fun _ => Ensures.bind fun _ => Ensures.bind fun _ => ?_
    refine Ensures.bind_with (fits_proposalSMCD _ _ _) fun r hr => ?_
    obtain ⟨p, k⟩ := r
    obtain ⟨g, v, hr, hv⟩ := hr
    dsimp only at hr hv
    subst hr
    dsimp only
    refine Ensures.ite ?_ ?_
    · repeat' refine Ensures.bind fun _ => ?_
      exact Ensures.pure ⟨⟨hh, by rw [copyInto_length]; exact h.2.1, by rw [hv]; exact h.2.2.1, h.2.2.2⟩, hp,
        by rw [copyInto_length]; decide, by rw [copyInto_length]; decide, ha.2.2, Nat.le_add_right _ _⟩
    · refine Ensures.bind fun _ => Ensures.bind fun _ => Ensures.bind fun _ => Ensures.bind fun _ => ?_
      refine Ensures.bind_with (fits_prefixes _ _ _ _ _ hp) fun ps hps => ?_
      refine Ensures.bind_with (fits_trailer _ 4 h.2.2.2.2 _) fun _ ht => ?_
      exact Ensures.pure ⟨⟨hh, by rw [copyInto_length]; exact h.2.1, by rw [hv]; exact h.2.2.1,
        by rw [copyInto_length]; exact h.2.2.2.1, ht⟩, hps.1, by rw [copyInto_length]; decide,
        by rw [copyInto_length]; decide, by rw [copyInto_length]; decide, by have := hps.2; dsimp only; omega⟩

/-- a Proposal of version 2 whose parts have their sizes -/
abbrev CoreV2 (m : ProposalV2) : Prop :=
  SizedProposalV2 m ∧ (∀ p ∈ m.IPv6Prefixes, p.pfx.length ≤ 16) ∧ m.IBGID.length ≤ 16 ∧ m.IBMAC.length ≤ 6 ∧
    m.Prefix.length ≤ 16

theorem fits_v2fixed (m : ProposalV2) (h : CoreV2 m) (s : Slice) :
    Ensures (m.parseFixed s) fun r => CoreV2 r.1 ∧ r.1.IPv6Prefixes = m.IPv6Prefixes ∧ r.1.hdr = m.hdr := by
  obtain ⟨h, hp, ha⟩ := h
  unfold ProposalV2.parseFixed
  dsimp only
  repeat' refine Ensures.bind fun _ => ?_
  exact Ensures.pure ⟨⟨⟨h.1, by rw [copyInto_length]; exact h.2.1, by rw [copyInto_length]; exact h.2.2.1, h.2.2.2⟩, hp,
    by rw [copyInto_length]; decide, by rw [copyInto_length]; decide, ha.2.2⟩, rfl, rfl⟩

theorem fits_v2ip (m : ProposalV2) (h : CoreV2 m) (s : Slice) (k : Nat) :
    Ensures (m.parseIPArea s k) fun r => CoreV2 r.1 ∧
      17 * r.1.IPv6Prefixes.length ≤ 17 * m.IPv6Prefixes.length + m.hdr.Length.toNat ∧ r.1.hdr = m.hdr := by
  unfold ProposalV2.parseIPArea
  dsimp only
  refine Ensures.ite (Ensures.ite ?_ ?_) ?_
  · repeat' refine Ensures.bind fun _ => ?_
    exact Ensures.pure ⟨h, Nat.le_add_right _ _, rfl⟩
  · obtain ⟨h, hp, ha⟩ := h
    iterate 4 refine Ensures.bind fun _ => ?_
    refine Ensures.bind_with (fits_prefixesV2 _ _ _ _ _ hp) fun ps hps => ?_
    obtain ⟨ps, k'⟩ := ps
    dsimp only at hps
    exact Ensures.pure ⟨⟨⟨h.1, h.2.1, h.2.2.1, by rw [copyInto_length]; exact h.2.2.2.1, h.2.2.2.2⟩, hps.1, ha.1, ha.2.1,
      by rw [copyInto_length]; decide⟩, by have := hps.2; dsimp only; omega, rfl⟩
  · exact Ensures.pure ⟨h, Nat.le_add_right _ _, rfl⟩

theorem fits_eids (l : UInt16) (s : Slice) (n i k : Nat) (es : List Bytes)
    (h : es.length = 8 ∧ ∀ x ∈ es, x.length = 32) :
    Ensures (parseEIDs l s n i k es) fun r => r.1.length = 8 ∧ ∀ x ∈ r.1, x.length = 32 := by
  induction n generalizing i k es with
  | zero => exact Ensures.pure h
  | succ n ih =>
    unfold parseEIDs
    dsimp only
    refine Ensures.ite ?_ ?_
    · repeat' refine Ensures.bind fun _ => ?_
      exact Ensures.pure h
    · split
      · intro l r hr; cases hr
      · rename_i e he
        refine Ensures.bind fun _ => ih _ _ _ ⟨by rw [List.length_set]; exact h.1, fun x hx => ?_⟩
        rcases List.mem_or_eq_of_mem_set hx with hx | hx
        · exact h.2 x hx
        · rw [hx, copyInto_length]
          exact h.2 e (List.mem_of_getElem? he)

theorem fits_gids (l : UInt16) (s : Slice) (n i k : Nat) (gs : List GIDEntry) (h : gs.length = 8) :
    Ensures (parseGIDs l s n i k gs) fun r => r.length = 8 := by
  induction n generalizing i k gs with
  | zero => exact Ensures.pure h
  | succ n ih =>
    unfold parseGIDs
    dsimp only
    refine Ensures.ite ?_ ?_
    · repeat' refine Ensures.bind fun _ => ?_
      exact Ensures.pure h
    · split
      · intro l r hr; cases hr
      · iterate 4 refine Ensures.bind fun _ => ?_
        exact ih _ _ _ (by rw [List.length_set]; exact h)

theorem fits_v2ext (m : ProposalV2) (h : CoreV2 m) (s : Slice) (k : Nat) :
    Ensures (m.parseV2Ext s k) fun r => CoreV2 r.1 ∧ r.1.IPv6Prefixes = m.IPv6Prefixes ∧ r.1.hdr = m.hdr := by
  unfold ProposalV2.parseV2Ext
  dsimp only
  refine Ensures.ite (Ensures.ite ?_ ?_) ?_
  · repeat' refine Ensures.bind fun _ => ?_
    exact Ensures.pure ⟨h, rfl, rfl⟩
  · obtain ⟨h, hp, ha⟩ := h
    iterate 10 refine Ensures.bind fun _ => ?_
    refine Ensures.bind_with (fits_eids _ _ _ _ _ _ ⟨h.2.2.2.2.2.2.1, h.2.2.2.2.2.2.2.1⟩) fun es hes => ?_
    obtain ⟨es, k'⟩ := es
    dsimp only at hes
    exact Ensures.pure ⟨⟨⟨h.1, h.2.1, h.2.2.1, h.2.2.2.1, by rw [copyInto_length]; exact h.2.2.2.2.1,
      by rw [copyInto_length]; exact h.2.2.2.2.2.1, hes.1, hes.2, h.2.2.2.2.2.2.2.2⟩, hp, ha⟩, rfl, rfl⟩
  · exact Ensures.pure ⟨h, rfl, rfl⟩

theorem fits_v2smcd (m : ProposalV2) (h : CoreV2 m) (s : Slice) (k : Nat) :
    Ensures (m.parseSMCDExt s k) fun r => CoreV2 r.1 ∧ r.1.IPv6Prefixes = m.IPv6Prefixes ∧ r.1.hdr = m.hdr := by
  unfold ProposalV2.parseSMCDExt
  dsimp only
  refine Ensures.ite (Ensures.ite ?_ ?_) ?_
  · repeat' refine Ensures.bind fun _ => ?_
    exact Ensures.pure ⟨h, rfl, rfl⟩
  · obtain ⟨h, hp, ha⟩ := h
    iterate 2 refine Ensures.bind fun _ => ?_
    refine Ensures.bind_with (fits_gids _ _ _ _ _ _ h.2.2.2.2.2.2.2.2.2.2.1) fun gs hgs => ?_
    exact Ensures.pure ⟨⟨⟨h.1, h.2.1, h.2.2.1, h.2.2.2.1, h.2.2.2.2.1, h.2.2.2.2.2.1, h.2.2.2.2.2.2.1, h.2.2.2.2.2.2.2.1,
      by rw [copyInto_length]; exact h.2.2.2.2.2.2.2.2.1, by rw [copyInto_length]; exact h.2.2.2.2.2.2.2.2.2.1, hgs,
      h.2.2.2.2.2.2.2.2.2.2.2⟩, hp, ha⟩, rfl, rfl⟩
  · exact Ensures.pure ⟨h, rfl, rfl⟩

theorem fits_proposalV2 (m : ProposalV2) (h : CoreV2 m) (s : Slice) :
    Ensures (m.parse s) fun r => CoreV2 r ∧
      17 * r.IPv6Prefixes.length ≤ 17 * m.IPv6Prefixes.length + r.hdr.Length.toNat := by
  obtain ⟨h, hp, ha⟩ := h
  unfold ProposalV2.parse
  dsimp only
  refine Ensures.bind_with (fits_header _ h.1 s) fun _ hh => Ensures.ite ?_ ?_
  · repeat' refine Ensures.bind fun _ => ?_
    exact Ensures.pure ⟨⟨⟨hh, h.2⟩, hp, ha⟩, Nat.le_add_right _ _⟩
  · refine Ensures.bind_with (fits_v2fixed _ ?_ s) fun r hr => ?_
    · exact ⟨⟨hh, h.2⟩, hp, ha⟩
    obtain ⟨p, k⟩ := r
    obtain ⟨c1, p1, h1⟩ := hr
    dsimp only at c1 p1 h1 ⊢
    refine Ensures.bind_with (fits_v2ip p c1 s k) fun r hr => ?_
    obtain ⟨q, o⟩ := r
    obtain ⟨c2, p2, h2⟩ := hr
    dsimp only at c2 p2 h2
    have e2 : 17 * q.IPv6Prefixes.length ≤ 17 * m.IPv6Prefixes.length + q.hdr.Length.toNat := by
      rw [h2, ← p1]; exact p2
    cases o with
    | none => exact Ensures.pure ⟨c2, e2⟩
    | some k =>
      refine Ensures.bind_with (fits_v2ext q c2 s k) fun r hr => ?_
      obtain ⟨q3, o⟩ := r
      obtain ⟨c3, p3, h3⟩ := hr
      dsimp only at c3 p3 h3
      rw [← p3, ← h3] at e2
      cases o with
      | none => exact Ensures.pure ⟨c3, e2⟩
      | some k =>
        refine Ensures.bind_with (fits_v2smcd q3 c3 s k) fun r hr => ?_
        obtain ⟨q4, o⟩ := r
        obtain ⟨c4, p4, h4⟩ := hr
        dsimp only at c4 p4 h4
        rw [← p4, ← h4] at e2
        cases o with
        | none => exact Ensures.pure ⟨c4, e2⟩
        | some k =>
          obtain ⟨g, gp, ga⟩ := c4
          refine Ensures.bind_with (fits_trailer _ 4 g.2.2.2.2.2.2.2.2.2.2.2 _) fun _ ht => ?_
          exact Ensures.pure ⟨⟨⟨g.1, g.2.1, g.2.2.1, g.2.2.2.1, g.2.2.2.2.1, g.2.2.2.2.2.1, g.2.2.2.2.2.2.1,
            g.2.2.2.2.2.2.2.1, g.2.2.2.2.2.2.2.2.1, g.2.2.2.2.2.2.2.2.2.1, g.2.2.2.2.2.2.2.2.2.2.1, ht⟩, gp, ga⟩, e2⟩

theorem fits_message (m : Message) (h : Fits m) (s : Slice) :
    Ensures (m.parse s) fun r => Fits r ∧
      17 * (prefixesOf r).length ≤ 17 * (prefixesOf m).length + r.hdr.Length.toNat := by
  cases m <;> unfold Message.parse
  case proposal m =>
    exact Ensures.bind_with (fits_proposal m h.1 h.2.1 h.2.2 s) fun _ k =>
      Ensures.pure ⟨⟨k.1, k.2.1, k.2.2.1, k.2.2.2.1, k.2.2.2.2.1⟩, k.2.2.2.2.2⟩
  case proposalV2 m =>
    exact Ensures.bind_with (fits_proposalV2 m h s) fun _ k => Ensures.pure k
  case acceptSMCR m =>
    exact Ensures.bind_with (fits_smcr m ⟨h.1, h.2.2⟩ s) fun _ k =>
      Ensures.pure ⟨⟨k.1, fun _ h => absurd h List.not_mem_nil, k.2⟩, Nat.zero_le _⟩
  case confirmSMCR m =>
    exact Ensures.bind_with (fits_smcr m ⟨h.1, h.2.2⟩ s) fun _ k =>
      Ensures.pure ⟨⟨k.1, fun _ h => absurd h List.not_mem_nil, k.2⟩, Nat.zero_le _⟩
  case acceptSMCD m =>
    exact Ensures.bind_with (fits_smcd m h.1 s) fun _ k =>
      Ensures.pure ⟨⟨k, fun _ h => absurd h List.not_mem_nil, trivial⟩, Nat.zero_le _⟩
  case confirmSMCD m =>
    exact Ensures.bind_with (fits_smcd m h.1 s) fun _ k =>
      Ensures.pure ⟨⟨k, fun _ h => absurd h List.not_mem_nil, trivial⟩, Nat.zero_le _⟩
  case acceptSMCDv2 m =>
    exact Ensures.bind_with (fits_smcdv2 m h.1 s) fun _ k =>
      Ensures.pure ⟨⟨k, fun _ h => absurd h List.not_mem_nil, trivial⟩, Nat.zero_le _⟩
  case confirmSMCDv2 m =>
    exact Ensures.bind_with (fits_smcdv2 m h.1 s) fun _ k =>
      Ensures.pure ⟨⟨k, fun _ h => absurd h List.not_mem_nil, trivial⟩, Nat.zero_le _⟩
  case decline m =>
    exact Ensures.bind_with (fits_decline m h.1 s) fun _ k =>
      Ensures.pure ⟨⟨k, fun _ h => absurd h List.not_mem_nil, trivial⟩, Nat.zero_le _⟩
  case declineV2 m =>
    exact Ensures.bind_with (fits_declineV2 m h.1 s) fun _ k =>
      Ensures.pure ⟨⟨k, fun _ h => absurd h List.not_mem_nil, trivial⟩, Nat.zero_le _⟩

end SMC.CLC
