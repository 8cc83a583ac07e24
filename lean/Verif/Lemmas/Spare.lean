import Verif.Lemmas.Crash
/-!
# Executions with and without spare capacity

`SpareSim R x y`: if `x` returns, then `y` returns with the same log, and the results are related.
-/

namespace SMC

open CLC

/-- if `x` returns then `y` returns, with the same log and a related result -/
def SpareSim {α β : Type} (R : α → β → Prop) (x : Go α) (y : Go β) : Prop :=
  ∀ l a, x = .ret l a → ∃ b, y = .ret l b ∧ R a b

theorem spareSim_ret {α β : Type} {R : α → β → Prop} (l : List Bytes) {a : α} {b : β} (h : R a b) :
    SpareSim R (.ret l a) (.ret l b) := by
  intro l a h'; cases h'; exact ⟨b, rfl, h⟩

theorem spareSim_pure {α β : Type} {R : α → β → Prop} {a : α} {b : β} (h : R a b) : SpareSim R (pure a) (pure b) :=
  spareSim_ret [] h

theorem spareSim_panic {α β : Type} {R : α → β → Prop} (l : List Bytes) (y : Go β) : SpareSim R (.panic l : Go α) y := by
  intro _ _ h; cases h

theorem spareSim_refl {α : Type} (x : Go α) : SpareSim Eq x x := fun _ a h => ⟨a, h, rfl⟩

theorem spareSim_bind {α β γ δ : Type} {R : α → β → Prop} {S : γ → δ → Prop} {x : Go α} {y : Go β}
    {f : α → Go γ} {g : β → Go δ} (h : SpareSim R x y) (hf : ∀ a b, R a b → SpareSim S (f a) (g b)) :
    SpareSim S (x >>= f) (y >>= g) := by
  intro l c hc
  obtain ⟨l1, a, l2, h1, h2, rfl⟩ := (Go.bind_eq_ret _ _ _ _).1 hc
  obtain ⟨b, h3, hab⟩ := h l1 a h1
  obtain ⟨d, h4, hcd⟩ := hf a b hab l2 c h2
  exact ⟨d, (Go.bind_eq_ret _ _ _ _).2 ⟨l1, b, l2, h3, h4, rfl⟩, hcd⟩

theorem spareSim_ite {α β : Type} {R : α → β → Prop} {c : Prop} [Decidable c] {x x' : Go α} {y y' : Go β}
    (h : SpareSim R x y) (h' : SpareSim R x' y') : SpareSim R (if c then x else x') (if c then y else y') := by
  split <;> assumption

/-- the same contents, any capacities -/
def SameVis (a b : Slice) : Prop := a.vis = b.vis

/-- the same contents, the first without spare capacity, the second with `e` behind -/
def Spare (e : Bytes) (a b : Slice) : Prop := ∃ w, a = ⟨w, []⟩ ∧ b = ⟨w, e⟩

theorem spareSim_sub (v e : Bytes) (i j : Nat) : SpareSim SameVis (Slice.sub ⟨v, []⟩ i j) (Slice.sub ⟨v, e⟩ i j) := by
  unfold Slice.sub
  by_cases h : i ≤ j ∧ j ≤ v.length
  · rw [if_pos (by simpa [Slice.cap] using h), if_pos (by simp only [Slice.cap]; omega)]
    refine spareSim_ret _ ?_
    show ((v ++ []).drop i).take (j - i) = ((v ++ e).drop i).take (j - i)
    rw [List.append_nil, List.drop_append_of_le_length (by omega), List.take_append_of_le_length (by rw [List.length_drop]; omega)]
  · rw [if_neg (by simpa [Slice.cap] using h)]
    exact spareSim_panic _ _

theorem spareSim_sto (v e : Bytes) (j : Nat) : SpareSim SameVis (Slice.sto ⟨v, []⟩ j) (Slice.sto ⟨v, e⟩ j) := spareSim_sub v e 0 j

theorem spareSim_sfrom (v e : Bytes) (i : Nat) : SpareSim (Spare e) (Slice.sfrom ⟨v, []⟩ i) (Slice.sfrom ⟨v, e⟩ i) := by
  unfold Slice.sfrom
  exact spareSim_ite (c := i ≤ v.length) (spareSim_ret _ ⟨_, rfl, rfl⟩) (spareSim_panic _ _)

theorem spareSim_idx (w x y : Bytes) (i : Nat) : SpareSim Eq (Slice.idx ⟨w, x⟩ i) (Slice.idx ⟨w, y⟩ i) := spareSim_refl _
theorem spareSim_be16 (w x y : Bytes) : SpareSim Eq (be16 ⟨w, x⟩) (be16 ⟨w, y⟩) := spareSim_refl _
theorem spareSim_be32 (w x y : Bytes) : SpareSim Eq (be32 ⟨w, x⟩) (be32 ⟨w, y⟩) := spareSim_refl _
theorem spareSim_be64 (w x y : Bytes) : SpareSim Eq (be64 ⟨w, x⟩) (be64 ⟨w, y⟩) := spareSim_refl _
theorem spareSim_errDump (w x y : Bytes) : SpareSim Eq (errDump ⟨w, x⟩) (errDump ⟨w, y⟩) := spareSim_refl _
theorem spareSim_log (b : Bytes) : SpareSim Eq (Go.log b) (Go.log b) := spareSim_refl _

theorem spareSim_bind_eq {α γ δ : Type} {S : γ → δ → Prop} {x y : Go α} {f : α → Go γ} {g : α → Go δ}
    (h : SpareSim Eq x y) (hf : ∀ a, SpareSim S (f a) (g a)) : SpareSim S (x >>= f) (y >>= g) :=
  spareSim_bind h fun a _ e => e ▸ hf a

theorem spareSim_bind_vis {γ δ : Type} {S : γ → δ → Prop} {x y : Go Slice} {f : Slice → Go γ} {g : Slice → Go δ}
    (h : SpareSim SameVis x y) (hf : ∀ w a b, SpareSim S (f ⟨w, a⟩) (g ⟨w, b⟩)) : SpareSim S (x >>= f) (y >>= g) :=
  spareSim_bind h fun a b e => by
    obtain ⟨w, x⟩ := a
    obtain ⟨w', y⟩ := b
    obtain rfl : w = w' := e
    exact hf w x y

theorem spareSim_bind_spare {γ δ : Type} {e : Bytes} {S : γ → δ → Prop} {x y : Go Slice} {f : Slice → Go γ}
    {g : Slice → Go δ} (h : SpareSim (Spare e) x y) (hf : ∀ w, SpareSim S (f ⟨w, []⟩) (g ⟨w, e⟩)) :
    SpareSim S (x >>= f) (y >>= g) :=
  spareSim_bind h fun _ _ ⟨w, h1, h2⟩ => h1 ▸ h2 ▸ hf w

/-- one step of two executions of the same code -/
macro "spareSim1" : tactic => `(tactic| first
  | with_reducible exact spareSim_pure rfl
  | exact spareSim_panic _ _
  | (with_reducible refine spareSim_ite ?_ ?_)
  | (refine spareSim_bind_vis (spareSim_sub _ _ _ _) ?_; intro w x y; try dsimp only)
  | (refine spareSim_bind_vis (spareSim_sto _ _ _) ?_; intro w x y; try dsimp only)
  | (refine spareSim_bind_spare (spareSim_sfrom _ _ _) ?_; intro w; try dsimp only)
  | (refine spareSim_bind_eq (spareSim_idx _ _ _ _) ?_; intro a; try dsimp only)
  | (refine spareSim_bind_eq (spareSim_be16 _ _ _) ?_; intro a; try dsimp only)
  | (refine spareSim_bind_eq (spareSim_be32 _ _ _) ?_; intro a; try dsimp only)
  | (refine spareSim_bind_eq (spareSim_be64 _ _ _) ?_; intro a; try dsimp only)
  | (refine spareSim_bind_eq (spareSim_errDump _ _ _) ?_; intro a; try dsimp only)
  | (refine spareSim_bind_eq (spareSim_log _) ?_; intro a; try dsimp only))

theorem spareSim_header (h : Header) (v e : Bytes) : SpareSim Eq (h.parse ⟨v, []⟩) (h.parse ⟨v, e⟩) := by
  unfold Header.parse
  repeat spareSim1

theorem spareSim_lastBytes (v e : Bytes) : SpareSim (Spare e) (lastBytes ⟨v, []⟩) (lastBytes ⟨v, e⟩) := by
  unfold lastBytes
  exact spareSim_ite (c := v.length < TrailerLen) (spareSim_panic _ _) (spareSim_sfrom _ _ _)

theorem spareSim_trailer (t v e : Bytes) : SpareSim Eq (trailerParse t ⟨v, []⟩) (trailerParse t ⟨v, e⟩) := by
  unfold trailerParse
  refine spareSim_bind (spareSim_lastBytes _ _) ?_
  rintro _ _ ⟨w, rfl, rfl⟩
  try dsimp only
  refine spareSim_bind (spareSim_refl _) ?_
  rintro a _ rfl
  refine spareSim_ite ?_ (spareSim_pure rfl)
  spareSim1
  refine spareSim_bind (spareSim_lastBytes _ _) ?_
  rintro _ _ ⟨w, rfl, rfl⟩
  repeat spareSim1

/-! ## The messages -/

theorem spareSim_decline (m : Decline) (v e : Bytes) :
    SpareSim (fun a b => b = { a with raw := ⟨v, e⟩ }) (m.parse ⟨v, []⟩) (m.parse ⟨v, e⟩) := by
  unfold Decline.parse rawParse
  try dsimp only
  refine spareSim_bind (spareSim_header _ _ _) ?_
  rintro h _ rfl
  try dsimp only
  repeat spareSim1
  refine spareSim_bind (spareSim_trailer _ _ _) ?_
  rintro t _ rfl
  exact spareSim_pure rfl

theorem spareSim_declineV2 (m : DeclineV2) (v e : Bytes) :
    SpareSim (fun a b => b = { a with raw := ⟨v, e⟩ }) (m.parse ⟨v, []⟩) (m.parse ⟨v, e⟩) := by
  unfold DeclineV2.parse rawParse
  try dsimp only
  refine spareSim_bind (spareSim_header _ _ _) ?_
  rintro h _ rfl
  try dsimp only
  repeat spareSim1
  refine spareSim_bind (spareSim_trailer _ _ _) ?_
  rintro t _ rfl
  exact spareSim_pure rfl

theorem spareSim_smcr (m : AcceptSMCR) (v e : Bytes) :
    SpareSim (fun a b => b = { a with raw := ⟨v, e⟩ }) (m.parse ⟨v, []⟩) (m.parse ⟨v, e⟩) := by
  unfold AcceptSMCR.parse rawParse
  try dsimp only
  refine spareSim_bind (spareSim_header _ _ _) ?_
  rintro h _ rfl
  try dsimp only
  repeat spareSim1
  refine spareSim_bind (spareSim_trailer _ _ _) ?_
  rintro t _ rfl
  exact spareSim_pure rfl

theorem spareSim_smcd (m : AcceptSMCD) (v e : Bytes) :
    SpareSim (fun a b => b = { a with raw := ⟨v, e⟩ }) (m.parse ⟨v, []⟩) (m.parse ⟨v, e⟩) := by
  unfold AcceptSMCD.parse rawParse
  try dsimp only
  refine spareSim_bind (spareSim_header _ _ _) ?_
  rintro h _ rfl
  try dsimp only
  repeat spareSim1
  refine spareSim_bind (spareSim_trailer _ _ _) ?_
  rintro t _ rfl
  exact spareSim_pure rfl

theorem spareSim_fce (m : AcceptSMCDv2) (r : Slice) (v e : Bytes) :
    SpareSim (fun (a b : AcceptSMCDv2 × Slice) => b.1 = { a.1 with raw := r } ∧ Spare e a.2 b.2) (m.parseFCE ⟨v, []⟩)
      ({ m with raw := r }.parseFCE ⟨v, e⟩) := by
  unfold AcceptSMCDv2.parseFCE
  try dsimp only
  repeat spareSim1
  exact spareSim_pure ⟨rfl, _, rfl, rfl⟩

theorem spareSim_smcdv2 (m : AcceptSMCDv2) (v e : Bytes) :
    SpareSim (fun a b => b = { a with raw := ⟨v, e⟩ }) (m.parse ⟨v, []⟩) (m.parse ⟨v, e⟩) := by
  unfold AcceptSMCDv2.parse rawParse
  try dsimp only
  refine spareSim_bind (spareSim_header _ _ _) ?_
  rintro h _ rfl
  refine spareSim_ite ?_ ?_
  · repeat spareSim1
  repeat spareSim1
  all_goals
    refine spareSim_bind (R := fun (a b : AcceptSMCDv2 × Slice) => b.1 = { a.1 with raw := ⟨v, e⟩ } ∧ Spare e a.2 b.2) ?_ ?_
    · first
        | exact spareSim_fce _ ⟨v, e⟩ _ _
        | exact spareSim_pure ⟨rfl, _, rfl, rfl⟩
    · rintro ⟨a, s⟩ ⟨b, t⟩ ⟨rfl : b = _, ⟨w, rfl, rfl⟩⟩
      refine spareSim_bind_eq (spareSim_trailer _ _ _) fun t => spareSim_pure rfl

/-! ## Proposals -/

theorem spareSim_prefixes (length : UInt16) (v e : Bytes) (n k : Nat) (ps : List IPv6Prefix) :
    SpareSim Eq (parsePrefixes length ⟨v, []⟩ n k ps) (parsePrefixes length ⟨v, e⟩ n k ps) := by
  induction n generalizing k ps with
  | zero => exact spareSim_refl _
  | succ n ih =>
    unfold parsePrefixes
    try dsimp only
    repeat spareSim1
    exact ih _ _

theorem spareSim_propSMCD (p : Proposal) (r : Slice) (v e : Bytes) (k : Nat) :
    SpareSim (fun a b => b = ({ a.1 with raw := r }, a.2)) (p.parseSMCD ⟨v, []⟩ k) ({ p with raw := r }.parseSMCD ⟨v, e⟩ k) := by
  unfold Proposal.parseSMCD
  try dsimp only
  repeat spareSim1

theorem spareSim_proposal (m : Proposal) (v e : Bytes) :
    SpareSim (fun a b => b = { a with raw := ⟨v, e⟩ }) (m.parse ⟨v, []⟩) (m.parse ⟨v, e⟩) := by
  unfold Proposal.parse rawParse
  try dsimp only
  refine spareSim_bind (spareSim_header _ _ _) ?_
  rintro h _ rfl
  try dsimp only
  repeat spareSim1
  refine spareSim_bind (spareSim_propSMCD _ ⟨v, e⟩ _ _ _) ?_
  rintro ⟨p, k⟩ _ rfl
  try dsimp only
  repeat spareSim1
  refine spareSim_bind (spareSim_prefixes _ _ _ _ _ _) ?_
  rintro ps _ rfl
  try dsimp only
  refine spareSim_bind (spareSim_trailer _ _ _) ?_
  rintro t _ rfl
  exact spareSim_pure rfl

theorem spareSim_prefixesV2 (length : UInt16) (v e : Bytes) (n k : Nat) (ps : List IPv6Prefix) :
    SpareSim Eq (parsePrefixesV2 length ⟨v, []⟩ n k ps) (parsePrefixesV2 length ⟨v, e⟩ n k ps) := by
  induction n generalizing k ps with
  | zero => exact spareSim_refl _
  | succ n ih =>
    unfold parsePrefixesV2
    try dsimp only
    repeat spareSim1
    exact ih _ _

theorem spareSim_eids (length : UInt16) (v e : Bytes) (n i k : Nat) (es : List Bytes) :
    SpareSim Eq (parseEIDs length ⟨v, []⟩ n i k es) (parseEIDs length ⟨v, e⟩ n i k es) := by
  induction n generalizing i k es with
  | zero => exact spareSim_refl _
  | succ n ih =>
    unfold parseEIDs
    try dsimp only
    repeat spareSim1
    cases es[i]? <;> dsimp only
    · exact spareSim_panic _ _
    · repeat spareSim1
      exact ih _ _ _

theorem spareSim_gids (length : UInt16) (v e : Bytes) (n i k : Nat) (gs : List GIDEntry) :
    SpareSim Eq (parseGIDs length ⟨v, []⟩ n i k gs) (parseGIDs length ⟨v, e⟩ n i k gs) := by
  induction n generalizing i k gs with
  | zero => exact spareSim_refl _
  | succ n ih =>
    unfold parseGIDs
    try dsimp only
    repeat spareSim1
    cases gs[i]? <;> dsimp only
    · exact spareSim_panic _ _
    · repeat spareSim1
      exact ih _ _ _

theorem spareSim_fixed (p : ProposalV2) (r : Slice) (v e : Bytes) :
    SpareSim (fun a b => b = ({ a.1 with raw := r }, a.2)) (p.parseFixed ⟨v, []⟩) ({ p with raw := r }.parseFixed ⟨v, e⟩) := by
  unfold ProposalV2.parseFixed
  try dsimp only
  repeat spareSim1

theorem spareSim_ipArea (p : ProposalV2) (r : Slice) (v e : Bytes) (k : Nat) :
    SpareSim (fun a b => b = ({ a.1 with raw := r }, a.2)) (p.parseIPArea ⟨v, []⟩ k) ({ p with raw := r }.parseIPArea ⟨v, e⟩ k) := by
  unfold ProposalV2.parseIPArea
  try dsimp only
  repeat spareSim1
  refine spareSim_bind (spareSim_prefixesV2 _ _ _ _ _ _) ?_
  rintro ⟨ps, k⟩ _ rfl
  all_goals exact spareSim_pure rfl

theorem spareSim_v2Ext (p : ProposalV2) (r : Slice) (v e : Bytes) (k : Nat) :
    SpareSim (fun a b => b = ({ a.1 with raw := r }, a.2)) (p.parseV2Ext ⟨v, []⟩ k) ({ p with raw := r }.parseV2Ext ⟨v, e⟩ k) := by
  unfold ProposalV2.parseV2Ext
  try dsimp only
  repeat spareSim1
  refine spareSim_bind (spareSim_eids _ _ _ _ _ _ _) ?_
  rintro ⟨ps, k⟩ _ rfl
  all_goals exact spareSim_pure rfl

theorem spareSim_smcdExt (p : ProposalV2) (r : Slice) (v e : Bytes) (k : Nat) :
    SpareSim (fun a b => b = ({ a.1 with raw := r }, a.2)) (p.parseSMCDExt ⟨v, []⟩ k)
      ({ p with raw := r }.parseSMCDExt ⟨v, e⟩ k) := by
  unfold ProposalV2.parseSMCDExt
  try dsimp only
  repeat spareSim1
  refine spareSim_bind (spareSim_gids _ _ _ _ _ _ _) ?_
  rintro gs _ rfl
  all_goals exact spareSim_pure rfl

theorem spareSim_proposalV2 (m : ProposalV2) (v e : Bytes) :
    SpareSim (fun a b => b = { a with raw := ⟨v, e⟩ }) (m.parse ⟨v, []⟩) (m.parse ⟨v, e⟩) := by
  unfold ProposalV2.parse rawParse
  try dsimp only
  refine spareSim_bind (spareSim_header _ _ _) ?_
  rintro h _ rfl
  try dsimp only
  repeat spareSim1
  refine spareSim_bind (spareSim_fixed _ ⟨v, e⟩ _ _) ?_
  rintro ⟨p, k⟩ _ rfl
  try dsimp only
  refine spareSim_bind (spareSim_ipArea _ ⟨v, e⟩ _ _ _) ?_
  rintro ⟨p, _ | k⟩ _ rfl
  · exact spareSim_pure rfl
  try dsimp only
  refine spareSim_bind (spareSim_v2Ext _ ⟨v, e⟩ _ _ _) ?_
  rintro ⟨p, _ | k⟩ _ rfl
  · exact spareSim_pure rfl
  try dsimp only
  refine spareSim_bind (spareSim_smcdExt _ ⟨v, e⟩ _ _ _) ?_
  rintro ⟨p, _ | k⟩ _ rfl
  · exact spareSim_pure rfl
  try dsimp only
  refine spareSim_bind (spareSim_trailer _ _ _) ?_
  rintro t _ rfl
  exact spareSim_pure rfl

end SMC
