import Verif.Lemmas.Logs
/-!
# How much parsers log
-/

namespace SMC

/-- at most `k` texts are logged, also before a panic -/
def Few {α : Type} (k : Nat) (x : Go α) : Prop := x.logOf.length ≤ k

theorem Few.le {α : Type} {k n : Nat} {x : Go α} (h : Few k x) (hk : k ≤ n) : Few n x := Nat.le_trans h hk

theorem logOf_bind {α β : Type} (x : Go α) (f : α → Go β) :
    (x >>= f).logOf = x.logOf ∨ ∃ l a, x = .ret l a ∧ (x >>= f).logOf = l ++ (f a).logOf := by
  show (Go.bind x f).logOf = _ ∨ ∃ l a, _ ∧ (Go.bind x f).logOf = _
  cases x with
  | panic l => exact .inl rfl
  | ret l a =>
    refine .inr ⟨l, a, rfl, ?_⟩
    show Go.logOf (match f a with | .panic l' => .panic (l ++ l') | .ret l' b => .ret (l ++ l') b) = _
    cases f a <;> rfl

theorem few_bind {α β : Type} {k n : Nat} {x : Go α} {f : α → Go β} (hx : Few k x) (hf : ∀ a, Few n (f a)) :
    Few (k + n) (x >>= f) := by
  unfold Few at *
  rcases logOf_bind x f with h | ⟨l, a, rfl, h⟩
  · rw [h]; omega
  · rw [h, List.length_append]
    have := hf a
    have : l.length ≤ k := hx
    omega

/-- a step that logs nothing -/
theorem few_free {α β : Type} {n : Nat} {x : Go α} {f : α → Go β} (hx : Logs (fun _ => False) x) (hf : ∀ a, Few n (f a)) :
    Few n (x >>= f) := by
  have : Few 0 x := by unfold Few; rw [logs_none hx]; exact Nat.le_refl _
  exact (few_bind this hf).le (by omega)

theorem few_pure {α : Type} {n : Nat} (a : α) : Few n (pure a : Go α) := Nat.zero_le _

theorem few_panic {α : Type} {n : Nat} : Few n (.panic [] : Go α) := Nat.zero_le _

theorem few_log {t : Bytes} : Few 1 (Go.log t) := Nat.le_refl _

theorem few_ite {α : Type} {n : Nat} (c : Prop) [Decidable c] {x y : Go α} (hx : Few n x) (hy : Few n y) :
    Few n (if c then x else y) := by
  split <;> assumption

namespace CLC

theorem few_errDump (s : Slice) : Few 1 (errDump s) := few_log

/-- a report: a line, the bytes, and the end -/
theorem few_report {α : Type} {n : Nat} (t : Bytes) (s : Slice) (i : Nat) (a : α) (hn : 2 ≤ n) :
    Few n (do Go.log t; errDump (← s.sto i); pure a) :=
  (few_bind (n := 1) few_log fun _ => few_free (logs_sto _ _) fun _ =>
    (few_bind (n := 0) (few_errDump _) fun _ => few_pure _).le (Nat.le_refl _)).le hn

theorem few_trailer (t : Bytes) (s : Slice) : Few 2 (trailerParse t s) := by
  unfold trailerParse
  refine few_free (logs_lastBytes _) fun _ => few_free (logs_eye _) fun _ => few_ite _ ?_ (few_pure _)
  exact few_bind (k := 1) (n := 1) few_log fun _ => few_free (logs_lastBytes _) fun _ =>
    (few_bind (n := 0) (few_errDump _) fun _ => few_pure _).le (Nat.le_refl _)

theorem few_end {α : Type} {n : Nat} (t : Bytes) (s : Slice) (f : Bytes → α) (hn : 2 ≤ n) :
    Few n (do pure (f (← trailerParse t s))) :=
  (few_bind (n := 0) (few_trailer t s) fun _ => few_pure _).le hn

/-- follows the silent steps of a program -/
macro "few" : tactic => `(tactic| repeat' first
  | with_reducible refine few_free (logs_idx _ _) (fun _ => ?_)
  | with_reducible refine few_free (logs_sfrom _ _) (fun _ => ?_)
  | with_reducible refine few_free (logs_sto _ _) (fun _ => ?_)
  | with_reducible refine few_free (logs_sub _ _ _) (fun _ => ?_)
  | with_reducible refine few_free (logs_be16 _) (fun _ => ?_)
  | with_reducible refine few_free (logs_be32 _) (fun _ => ?_)
  | with_reducible refine few_free (logs_be64 _) (fun _ => ?_)
  | with_reducible refine few_free (logs_hdr _ _) (fun _ => ?_)
  | with_reducible refine few_free (logs_fce _ _) (fun _ => ?_)
  | with_reducible refine few_free (logs_fixed _ _) (fun _ => ?_)
  | with_reducible refine few_free (logs_parseSMCD _ _ _) (fun _ => ?_)
  | with_reducible refine few_free (logs_pure _) (fun _ => ?_)
  | with_reducible exact few_pure _
  | with_reducible exact few_panic
  | with_reducible exact few_report _ _ _ _ (by decide)
  | with_reducible exact few_end _ _ _ (by decide)
  | with_reducible refine few_ite _ ?_ ?_)

theorem few_smcr (m : AcceptSMCR) (s : Slice) : Few 2 (m.parse s) := by
  unfold AcceptSMCR.parse; few

theorem few_smcd (m : AcceptSMCD) (s : Slice) : Few 2 (m.parse s) := by
  unfold AcceptSMCD.parse; few

theorem few_smcdv2 (m : AcceptSMCDv2) (s : Slice) : Few 2 (m.parse s) := by
  unfold AcceptSMCDv2.parse; few

theorem few_decline (m : Decline) (s : Slice) : Few 2 (m.parse s) := by
  unfold Decline.parse; few

theorem few_declineV2 (m : DeclineV2) (s : Slice) : Few 2 (m.parse s) := by
  unfold DeclineV2.parse; few

theorem few_prefixes (l : UInt16) (s : Slice) (n k : Nat) (ps : List IPv6Prefix) : Few 2 (parsePrefixes l s n k ps) := by
  induction n generalizing k ps with
  | zero => exact few_pure _
  | succ n ih => unfold parsePrefixes; few; exact ih _ _

theorem few_proposal (m : Proposal) (s : Slice) : Few 4 (m.parse s) := by
  unfold Proposal.parse; few
  exact few_bind (k := 2) (n := 2) (few_prefixes _ _ _ _ _) fun _ => few_end _ _ _ (by decide)

/-- `Tells k Q x`: at most `k` texts before a panic; if `x` returns `a` after `n` texts, then `Q n a` -/
def Tells {α : Type} (k : Nat) (Q : Nat → α → Prop) : Go α → Prop
  | .panic l => l.length ≤ k
  | .ret l a => Q l.length a

theorem tells_pure {α : Type} {k : Nat} {Q : Nat → α → Prop} {a : α} (h : Q 0 a) : Tells k Q (pure a) := h

theorem tells_bind {α β : Type} {k : Nat} {P : Nat → α → Prop} {Q : Nat → β → Prop} {x : Go α} {f : α → Go β}
    (hx : Tells k P x) (hf : ∀ n a, P n a → Tells (k - n) (fun m b => Q (n + m) b) (f a) ∧ n ≤ k) :
    Tells k Q (x >>= f) := by
  change Tells k Q (Go.bind x f)
  cases x with
  | panic l => exact hx
  | ret l a =>
    obtain ⟨h1, h2⟩ := hf _ _ hx
    change Tells k Q (match f a with | .panic l' => .panic (l ++ l') | .ret l' b => .ret (l ++ l') b)
    cases e : f a with
    | panic l' =>
      rw [e] at h1
      change (l ++ l').length ≤ k
      have h1 : l'.length ≤ k - l.length := h1
      rw [List.length_append]
      omega
    | ret l' b =>
      rw [e] at h1
      change Q (l ++ l').length b
      rw [List.length_append]
      exact h1

theorem tells_free {α β : Type} {k : Nat} {Q : Nat → β → Prop} {x : Go α} {f : α → Go β} (hx : Logs (fun _ => False) x)
    (hf : ∀ a, Tells k Q (f a)) : Tells k Q (x >>= f) := by
  have h0 := logs_none hx
  refine tells_bind (P := fun n _ => n = 0) ?_ fun n a hn => ?_
  · cases x with
    | panic l => have h0 : l = [] := h0; subst h0; exact Nat.zero_le _
    | ret l a => exact congrArg List.length h0
  · subst hn
    refine ⟨?_, Nat.zero_le _⟩
    simpa using hf a

theorem tells_ite {α : Type} {k : Nat} {Q : Nat → α → Prop} (c : Prop) [Decidable c] {x y : Go α} (hx : c → Tells k Q x)
    (hy : ¬c → Tells k Q y) : Tells k Q (if c then x else y) := by
  split
  · exact hx ‹_›
  · exact hy ‹_›

theorem tells_few {α : Type} {k : Nat} {Q : Nat → α → Prop} {x : Go α} (hx : Tells k Q x) (h : ∀ n a, Q n a → n ≤ k) :
    Few k x := by
  cases x with
  | panic l => exact hx
  | ret l a => exact h _ _ hx

theorem few_tells {α : Type} {k : Nat} {x : Go α} (hx : Few k x) : Tells k (fun n _ => n ≤ k) x := by
  cases x <;> exact hx

theorem tells_mono {α : Type} {k : Nat} {P Q : Nat → α → Prop} {x : Go α} (hx : Tells k P x) (h : ∀ n a, P n a → Q n a) :
    Tells k Q x := by
  cases x with
  | panic l => exact hx
  | ret l a => exact h _ _ hx

theorem tells_more {α : Type} {k k' : Nat} {Q : Nat → α → Prop} {x : Go α} (hx : Tells k Q x) (h : k ≤ k') : Tells k' Q x := by
  cases x with
  | panic l => exact Nat.le_trans hx h
  | ret l a => exact hx

theorem tells_report {α : Type} {Q : Nat → α → Prop} (t : Bytes) (s : Slice) (i : Nat) (a : α) (h : Q 2 a) :
    Tells 2 Q (do Go.log t; errDump (← s.sto i); pure a) := by
  refine tells_bind (P := fun n _ => n = 1) rfl fun n _ hn => ⟨?_, by omega⟩
  subst hn
  refine tells_free (logs_sto _ _) fun x => ?_
  refine tells_bind (P := fun n _ => n = 1) rfl fun n _ hn => ⟨?_, by omega⟩
  subst hn
  exact h

/-- follows the silent steps of a program -/
macro "tells" : tactic => `(tactic| repeat' first
  | with_reducible refine tells_free (logs_idx _ _) (fun _ => ?_)
  | with_reducible refine tells_free (logs_sub _ _ _) (fun _ => ?_)
  | with_reducible refine tells_free (logs_be16 _) (fun _ => ?_)
  | with_reducible refine tells_free (logs_be64 _) (fun _ => ?_))

theorem tells_prefixesV2 (l : UInt16) (s : Slice) (n k : Nat) (ps : List IPv6Prefix) :
    Tells 2 (fun c r => c = 0 ∨ c = 2 ∧ (l.toNat : Int) - (r.2 : Nat) < 21) (parsePrefixesV2 l s n k ps) := by
  induction n generalizing k ps with
  | zero => exact tells_pure (.inl rfl)
  | succ n ih =>
    unfold parsePrefixesV2
    refine tells_ite _ (fun hc => tells_report _ _ _ _ (.inr ⟨rfl, hc⟩)) fun _ => ?_
    tells
    exact ih _ _

theorem tells_eids (l : UInt16) (s : Slice) (n i k : Nat) (es : List Bytes) :
    Tells 2 (fun c r => c = 0 ∨ c = 2 ∧ (l.toNat : Int) - (r.2 : Nat) < 36) (parseEIDs l s n i k es) := by
  induction n generalizing i k es with
  | zero => exact tells_pure (.inl rfl)
  | succ n ih =>
    unfold parseEIDs
    refine tells_ite _ (fun hc => tells_report _ _ _ _ (.inr ⟨rfl, hc⟩)) fun _ => ?_
    split
    · exact Nat.zero_le _
    · tells
      exact ih _ _ _

theorem few_gids (l : UInt16) (s : Slice) (n i k : Nat) (gs : List GIDEntry) : Few 2 (parseGIDs l s n i k gs) := by
  induction n generalizing i k gs with
  | zero => exact few_pure _
  | succ n ih =>
    unfold parseGIDs
    few
    split
    · exact few_panic
    · few; exact ih _ _ _

theorem tells_ipArea (m : ProposalV2) (s : Slice) (k : Nat) :
    Tells 2 (fun c r => r.1.hdr = m.hdr ∧
      (c = 0 ∨ c = 2 ∧ ∀ j, r.2 = some j → (m.hdr.Length.toNat : Int) - (j : Nat) < 21)) (m.parseIPArea s k) := by
  unfold ProposalV2.parseIPArea
  refine tells_ite _ (fun _ => tells_ite _ (fun _ => ?_) fun _ => ?_) fun _ => tells_pure ⟨rfl, .inl rfl⟩
  · exact tells_report _ _ _ _ ⟨rfl, .inr ⟨rfl, nofun⟩⟩
  · tells
    refine tells_bind (tells_prefixesV2 _ _ _ _ _) fun n r hr => ⟨?_, by omega⟩
    refine tells_pure ⟨rfl, ?_⟩
    rcases hr with h | ⟨h, h'⟩
    · exact .inl h
    · refine .inr ⟨h, fun j hj => ?_⟩
      cases hj
      exact h'

theorem tells_v2Ext (m : ProposalV2) (s : Slice) (k : Nat) :
    Tells 2 (fun c r => r.1.hdr = m.hdr ∧
      ((c = 0 ∧ m.hdr.Pathv2 = SMCTypeN ∧ r.2 = some k) ∨ (c = 2 ∧ r.2 = none) ∨
       ((m.hdr.Length.toNat : Int) - k ≥ 44 ∧
        (c = 0 ∨ c = 2 ∧ ∀ j, r.2 = some j → (m.hdr.Length.toNat : Int) - (j : Nat) < 36)))) (m.parseV2Ext s k) := by
  unfold ProposalV2.parseV2Ext
  refine tells_ite _ (fun _ => tells_ite _ (fun _ => ?_) fun hc => ?_) fun hn => tells_pure ⟨rfl, .inl ⟨rfl, by simpa using hn, rfl⟩⟩
  · exact tells_report _ _ _ _ ⟨rfl, .inr (.inl ⟨rfl, rfl⟩)⟩
  · tells
    refine tells_bind (tells_eids _ _ _ _ _ _) fun n r hr => ⟨?_, by omega⟩
    refine tells_pure ⟨rfl, .inr (.inr ⟨?_, ?_⟩)⟩
    · simp only [ProposalV2ExtLen, TrailerLen, EyecatcherLen] at hc
      omega
    rcases hr with h | ⟨h, h'⟩
    · exact .inl h
    · refine .inr ⟨h, fun j hj => ?_⟩
      cases hj
      exact h'

theorem tells_smcdExt (m : ProposalV2) (s : Slice) (k : Nat) :
    Tells 2 (fun c r => (c = 0 ∧ ¬(m.hdr.Pathv2 = SMCTypeD ∨ m.hdr.Pathv2 = SMCTypeB)) ∨ (c = 2 ∧ r.2 = none) ∨
       ((m.hdr.Length.toNat : Int) - k ≥ 52 ∧ c ≤ 2)) (m.parseSMCDExt s k) := by
  unfold ProposalV2.parseSMCDExt
  refine tells_ite _ (fun _ => tells_ite _ (fun _ => ?_) fun hc => ?_) fun hn => tells_pure (.inl ⟨rfl, hn⟩)
  · exact tells_report _ _ _ _ (.inr (.inl ⟨rfl, rfl⟩))
  · tells
    refine tells_bind (few_tells (few_gids _ _ _ _ _ _)) fun n r hr => ⟨?_, by omega⟩
    refine tells_pure (.inr (.inr ⟨?_, hr⟩))
    simp only [SMCDv2ExtLen, TrailerLen, EyecatcherLen] at hc
    omega

theorem few_proposalV2 (m : ProposalV2) (s : Slice) : Few 4 (m.parse s) := by
  have last : ∀ (k : Nat) (p : ProposalV2) (Q : Nat → ProposalV2 → Prop), 2 ≤ k → (∀ n a, n ≤ 2 → Q n a) →
      Tells k Q (do
        let p := { p with trailer := ← trailerParse p.trailer s }
        pure p) :=
    fun k p Q hk hQ => tells_mono (tells_more (few_tells (few_end _ _ _ (Nat.le_refl 2))) hk) fun c a h => hQ c a h
  refine tells_few (Q := fun n _ => n ≤ 4) ?_ fun n _ h => h
  unfold ProposalV2.parse
  refine tells_free (logs_hdr _ _) fun h => ?_
  refine tells_ite _ (fun _ => tells_more (tells_report _ _ _ _ (by decide)) (by decide)) fun _ => ?_
  refine tells_free (logs_fixed _ _) fun r => ?_
  obtain ⟨p, k⟩ := r
  refine tells_bind (tells_more (tells_ipArea p s k) (show 2 ≤ 4 by decide)) fun n r hr => ⟨?_, by omega⟩
  obtain ⟨p1, o1⟩ := r
  obtain ⟨hh, hr⟩ := hr
  cases o1 with
  | none => exact tells_pure (by omega)
  | some k1 =>
  have hr : n = 0 ∨ n = 2 ∧ (p.hdr.Length.toNat : Int) - (k1 : Nat) < 21 := hr.imp id fun h => ⟨h.1, h.2 _ rfl⟩
  have hh : p1.hdr = p.hdr := hh
  refine tells_bind (tells_more (tells_v2Ext p1 s k1) (by omega)) fun n' r' hr' => ?_
  obtain ⟨p2, o2⟩ := r'
  obtain ⟨hh', hr'⟩ := hr'
  cases o2 with
  | none => exact ⟨tells_pure (by omega), by omega⟩
  | some k2 =>
  have hh' : p2.hdr = p1.hdr := hh'
  have hr' : n + n' ≤ 2 ∧ (n + n' = 0 ∨ (p.hdr.Length.toNat : Int) - (k2 : Nat) < 52) := by
    rw [hh] at hr'
    rcases hr' with ⟨a, -, b⟩ | ⟨-, b⟩ | ⟨a, b⟩
    · have b : k2 = k1 := Option.some.inj b
      omega
    · cases b
    · have b := b.imp id fun h => And.intro h.1 (h.2 k2 rfl)
      omega
  refine ⟨tells_bind (tells_more (tells_smcdExt p2 s k2) (by omega)) fun n2 r2 hr2 => ?_, by omega⟩
  obtain ⟨p3, o3⟩ := r2
  rw [hh', hh] at hr2
  cases o3 with
  | none => exact ⟨tells_pure (by omega), by omega⟩
  | some k3 =>
  have hr2 : n + n' + n2 ≤ 2 := by
    rcases hr2 with ⟨a, -⟩ | ⟨-, b⟩ | ⟨a, b⟩
    · omega
    · cases b
    · omega
  exact ⟨last _ _ _ (by omega) fun c _ hc => by omega, by omega⟩

theorem few_message (m : Message) (s : Slice) : Few 4 (m.parse s) := by
  have all : ∀ {α : Type} {n : Nat} {x : Go α} (c : α → Message), Few n x → n ≤ 4 → Few 4 (do pure (c (← x))) :=
    fun c h hn => (few_bind (n := 0) h fun _ => few_pure _).le hn
  cases m <;> unfold Message.parse
  · exact all _ (few_proposal _ _) (by decide)
  · exact all _ (few_proposalV2 _ _) (by decide)
  · exact all _ (few_smcr _ _) (by decide)
  · exact all _ (few_smcd _ _) (by decide)
  · exact all _ (few_smcdv2 _ _) (by decide)
  · exact all _ (few_smcr _ _) (by decide)
  · exact all _ (few_smcd _ _) (by decide)
  · exact all _ (few_smcdv2 _ _) (by decide)
  · exact all _ (few_decline _ _) (by decide)
  · exact all _ (few_declineV2 _ _) (by decide)

theorem few_new (s : Slice) : Few 2 (newMessage s) := by
  unfold newMessage
  refine few_free (logs_eye _) fun _ => ?_
  few

end CLC
end SMC
