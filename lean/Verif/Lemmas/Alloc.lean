import Verif.Spec.Alloc
import Verif.Lemmas.HeapCLC
/-!
# Counting what is allocated

`Costs x Q`: if `x` returns `a`, it has allocated `n` bytes with `Q n a`.
-/

namespace SMC

open HGo

theorem Heap.size_append (h k : Heap) : (h ++ k).size = h.size + k.size := by
  simp [Heap.size]

theorem Heap.size_modify (h : Heap) (i : Nat) (f : Bytes → Bytes) (hf : ∀ b, (f b).length = b.length) :
    Heap.size (h.modify i f) = h.size := by
  unfold Heap.size
  congr 1
  apply List.ext_getElem
  · simp
  · intro j h1 h2
    simp [List.getElem_modify]
    split <;> simp [hf]

/-- See the head of the file. -/
def Costs {α : Type} (x : HGo α) (Q : Nat → α → Prop) : Prop :=
  ∀ h l a h1, x h = .ret l (a, h1) → ∃ n, h1.size = h.size + n ∧ Q n a

namespace Costs

variable {α β : Type}

theorem pure {a : α} {Q : Nat → α → Prop} (h : Q 0 a) : Costs (Pure.pure a) Q := by
  intro h0 l b h1 e
  have e : Go.ret [] (a, h0) = Go.ret l (b, h1) := e
  cases e
  exact ⟨0, rfl, h⟩

theorem bind {x : HGo α} {f : α → HGo β} {P : Nat → α → Prop} {Q : Nat → β → Prop} (hx : Costs x P)
    (hf : ∀ n a, P n a → Costs (f a) (fun m b => Q (n + m) b)) : Costs (x >>= f) Q := by
  intro h l b h2 e
  rw [run_bind] at e
  cases hx1 : x h with
  | panic l1 => rw [hx1] at e; cases e
  | ret l1 r =>
    obtain ⟨a, h1⟩ := r
    obtain ⟨n, e1, hp⟩ := hx h l1 a h1 hx1
    rw [hx1] at e
    cases hf1 : f a h1 with
    | panic l2 => simp only [Go.bind, hf1] at e; cases e
    | ret l2 r2 =>
      simp only [Go.bind, hf1] at e
      cases e
      obtain ⟨m, e2, hq⟩ := hf n a hp h1 l2 b h2 hf1
      exact ⟨n + m, by omega, hq⟩

theorem mono {x : HGo α} {P Q : Nat → α → Prop} (hx : Costs x P) (h : ∀ n a, P n a → Q n a) : Costs x Q := by
  intro h0 l a h1 e
  obtain ⟨n, e1, hp⟩ := hx h0 l a h1 e
  exact ⟨n, e1, h n a hp⟩

/-- computations that allocate nothing -/
theorem free {x : HGo α} {f : α → HGo β} {P : α → Prop} {Q : Nat → β → Prop} (hx : Costs x fun n a => n = 0 ∧ P a)
    (hf : ∀ a, P a → Costs (f a) Q) : Costs (x >>= f) Q :=
  bind hx fun n a ⟨hn, hp⟩ => by subst hn; exact (hf a hp).mono fun m b hq => by rwa [Nat.zero_add]

theorem lift {x : Go α} : Costs (HGo.lift x) fun n _ => n = 0 ∧ True := by
  intro h l a h1 e
  rw [run_lift] at e
  cases x <;> simp only [Go.bind] at e <;> cases e
  exact ⟨0, rfl, rfl, trivial⟩

theorem read_post {r : Ref} {f : Slice → Go α} {P : α → Prop} (hf : ∀ s, CLC.Ensures (f s) P) :
    Costs (HGo.read r f) fun n a => n = 0 ∧ P a := by
  intro h l a h1 e
  rw [run_read] at e
  cases hs : f (h.slice r) <;> simp only [Go.bind, hs] at e <;> cases e
  exact ⟨0, rfl, rfl, hf _ _ _ hs⟩

theorem read {r : Ref} {f : Slice → Go α} : Costs (HGo.read r f) fun n _ => n = 0 ∧ True :=
  read_post fun _ _ _ _ => trivial

theorem sub {r : Ref} {a b : Nat} : Costs (r.sub a b) fun n s => n = 0 ∧ s.len = b - a := by
  intro h l s h1 e
  rw [run_sub] at e
  split at e <;> cases e
  exact ⟨0, rfl, rfl, rfl⟩

theorem sto {r : Ref} {b : Nat} : Costs (r.sto b) fun n s => n = 0 ∧ s.len = b :=
  sub

theorem sfrom {r : Ref} {a : Nat} : Costs (r.sfrom a) fun n s => n = 0 ∧ (s.len = r.len - a ∧ a ≤ r.len) := by
  intro h l s h1 e
  rw [run_sfrom] at e
  split at e <;> cases e
  exact ⟨0, rfl, rfl, rfl, by assumption⟩

theorem makeCopy {n : Nat} {src : Ref} : Costs (HGo.makeCopy n src) fun k r => k = n ∧ r.len = n := by
  intro h l r h1 e
  have e : Go.ret [] (⟨h.length, 0, n, n⟩, Heap.copy (h ++ [zeros n]) ⟨h.length, 0, n, n⟩ src) = Go.ret l (r, h1) := e
  cases e
  refine ⟨n, ?_, rfl, rfl⟩
  rw [Heap.copy, Heap.size_modify, Heap.size_append]
  · simp [Heap.size, zeros]
  · intro b
    simp [copyInto_length]
    omega

theorem ite {c : Prop} [Decidable c] {x y : HGo α} {Q : Nat → α → Prop} (hx : c → Costs x Q) (hy : ¬c → Costs y Q) :
    Costs (if c then x else y) Q := by
  split
  · exact hx ‹_›
  · exact hy ‹_›

end Costs

/-- one statement that allocates nothing -/
syntax "cost_step" : tactic
macro_rules
  | `(tactic| cost_step) => `(tactic| first
    | refine Costs.free Costs.read fun _ _ => ?_
    | refine Costs.free Costs.sfrom fun _ ⟨_, _⟩ => ?_
    | refine Costs.free Costs.sto fun _ _ => ?_
    | refine Costs.free Costs.sub fun _ _ => ?_
    | refine Costs.free Costs.lift fun _ _ => ?_
    | refine Costs.bind Costs.makeCopy fun _ _ ⟨_, _⟩ => ?_)

namespace LLC

theorem setBaseMsgH_costs {b : BaseMsg} {r : Ref} :
    Costs (setBaseMsgH b r) fun n a => n = r.len ∧ a.2.len = r.len := by
  unfold setBaseMsgH setRawH Ref.idx
  repeat' cost_step
  exact Costs.pure (by dsimp only; omega)

theorem parseConfirmH_costs {r : Ref} : Costs (parseConfirmH r) fun n m => n = m.s.total ∧ n = r.len + 22 := by
  unfold parseConfirmH Ref.idx
  refine Costs.bind setBaseMsgH_costs fun n a ⟨hn, ha⟩ => ?_
  repeat' cost_step
  exact Costs.pure (by dsimp only [Refs.total]; omega)

theorem parseAddLinkH_costs {r : Ref} : Costs (parseAddLinkH r) fun n m => n = m.s.total ∧ n = r.len + 22 := by
  unfold parseAddLinkH Ref.idx
  refine Costs.bind setBaseMsgH_costs fun n a ⟨hn, ha⟩ => ?_
  repeat' cost_step
  exact Costs.pure (by dsimp only [Refs.total]; omega)

theorem parseRawH_costs {f : Slice → Go Msg} {r : Ref} : Costs (parseRawH f r) fun n m => n = m.s.total ∧ n = r.len := by
  unfold parseRawH setRawH
  repeat' cost_step
  exact Costs.pure (by dsimp only [Refs.total, Ref.nil]; omega)

theorem parseLLCH_costs {r : Ref} :
    Costs (parseLLCH r) fun n m => n = m.s.total ∧ (n = r.len ∨ r.len = 44 ∧ n = 66) := by
  have raw : ∀ f, Costs (parseRawH f r) fun n m => n = m.s.total ∧ (n = r.len ∨ r.len = 44 ∧ n = 66) :=
    fun f => parseRawH_costs.mono fun n _ h => ⟨h.1, .inl h.2⟩
  unfold parseLLCH Ref.idx
  refine Costs.ite (fun _ => raw _) fun h => ?_
  have hl : r.len = 44 := by simpa [LLCMsgLen] using h
  refine Costs.free Costs.read fun t _ => ?_
  refine Costs.ite (fun _ => parseConfirmH_costs.mono fun n _ h => ⟨h.1, .inr ⟨hl, by omega⟩⟩) fun _ => ?_
  refine Costs.ite (fun _ => parseAddLinkH_costs.mono fun n _ h => ⟨h.1, .inr ⟨hl, by omega⟩⟩) fun _ => ?_
  repeat' refine Costs.ite (fun _ => raw _) fun _ => ?_
  exact raw _

end LLC

namespace RoCE

theorem parseBTHH_costs {r : Ref} : Costs (parseBTHH r) fun n b => n = r.len ∧ b.raw.len = r.len := by
  unfold parseBTHH
  repeat' cost_step
  exact Costs.pure (by dsimp only; omega)

theorem parseGRHH_costs {r : Ref} (hr : r.len = 40) : Costs (parseGRHH r) fun n g => n = 40 ∧ g.contents.len = 40 := by
  unfold parseGRHH
  refine Costs.bind Costs.makeCopy fun _ _ ⟨_, _⟩ => ?_
  cost_step
  refine Costs.ite (fun _ => by omega) fun _ => ?_
  repeat' cost_step
  exact Costs.pure (by dsimp only; omega)

theorem icrcH_costs {r : Ref} : Costs (icrcH r) fun n _ => n = 0 ∧ 4 ≤ r.len := by
  unfold icrcH
  refine Costs.ite (fun _ => ?_) fun _ => Costs.sfrom.mono fun n _ h => ⟨h.1, by omega⟩
  intro h l a h1 e
  cases e

theorem payloadH_costs {r : Ref} : Costs (payloadH r) fun n s => n = 0 ∧ s.len = r.len - 4 := by
  unfold payloadH
  refine Costs.ite (fun _ => ?_) fun _ => Costs.sto
  intro h l a h1 e
  cases e

theorem parseRoCEv2H_costs {r : Ref} :
    Costs (parseRoCEv2H r) fun n m => n = m.total ∧ (n + 4 = r.len ∨ r.len = 60 ∧ n = 78) := by
  unfold parseRoCEv2H
  refine Costs.free Costs.sto fun a ha => ?_
  refine Costs.bind parseBTHH_costs fun n b hn => ?_
  refine Costs.free Costs.sfrom fun c ⟨hc, hc'⟩ => ?_
  refine Costs.free icrcH_costs fun d hd => ?_
  refine Costs.free payloadH_costs fun e he => ?_
  refine Costs.bind LLC.parseLLCH_costs fun k m hk => Costs.pure ?_
  simp only [BTHLen, HRoCE.total] at *
  omega

theorem parseRoCEv1H_costs {r : Ref} :
    Costs (parseRoCEv1H r) fun n m => n = m.total ∧ (n + 4 = r.len ∨ r.len = 100 ∧ n = 118) := by
  unfold parseRoCEv1H
  refine Costs.free Costs.sto fun a ha => ?_
  refine Costs.bind (parseGRHH_costs ha) fun n b hn => ?_
  refine Costs.free Costs.sfrom fun c ⟨hc, hc'⟩ => ?_
  refine Costs.free Costs.sto fun a' ha' => ?_
  refine Costs.bind parseBTHH_costs fun n' b' hn' => ?_
  refine Costs.free Costs.sfrom fun c' ⟨hc1, hc2⟩ => ?_
  refine Costs.free icrcH_costs fun d hd => ?_
  refine Costs.free payloadH_costs fun e he => ?_
  refine Costs.bind LLC.parseLLCH_costs fun k m hk => Costs.pure ?_
  simp only [BTHLen, GRHLen, HRoCE.total] at *
  omega

end RoCE

namespace CLC

theorem AcceptSMCR.parseH_costs (ac : AcceptSMCR) (buf : Ref) :
    Costs (ac.parseH {} buf) fun n a => n = a.2.total ∧ (n = 0 ∨ n = 22 ∧ 68 ≤ a.1.hdr.Length.toNat) := by
  unfold AcceptSMCR.parseH Ref.idx
  cost_step
  refine Costs.ite (fun _ => ?_) fun hl => ?_
  · repeat' cost_step
    exact Costs.pure ⟨rfl, .inl rfl⟩
  · repeat' cost_step
    simp only [AcceptSMCRLen] at hl
    refine Costs.pure ⟨?_, .inr ⟨by omega, by dsimp only; omega⟩⟩
    simp only [Refs.total, Ref.nil, List.map_nil, List.sum_nil]
    omega

theorem parsePrefixesH_costs (length : UInt16) (buf : Ref) : ∀ (n skip : Nat) (ps : List (Ref × UInt8)),
    Costs (parsePrefixesH length buf n skip ps) fun k qs =>
      k + (ps.map (·.1.len)).sum = (qs.map (·.1.len)).sum ∧
      k = 16 * (qs.length - ps.length) ∧ ps.length ≤ qs.length ∧ qs.length ≤ ps.length + n ∧
        (qs.length = ps.length ∨ skip + 17 * (qs.length - ps.length) + 5 ≤ length.toNat) := by
  intro n
  induction n with
  | zero => intro skip ps; exact Costs.pure (by omega)
  | succ n ih =>
    intro skip ps
    unfold parsePrefixesH Ref.idx
    refine Costs.ite (fun _ => ?_) fun hc => ?_
    · repeat' cost_step
      exact Costs.pure (by omega)
    · cost_step
      cost_step
      cost_step
      refine (ih _ _).mono fun k qs ⟨h0, h1, h2, h3, h4⟩ => ?_
      simp only [List.length_append, List.length_singleton, IPv6PrefixLen, TrailerLen, EyecatcherLen, List.map_append,
        List.map_cons, List.map_nil, List.sum_append, List.sum_cons, List.sum_nil] at *
      omega

theorem Proposal.parseSMCD_keeps (p : Proposal) (s : Slice) (skip : Nat) :
    Ensures (p.parseSMCD s skip) fun r => r.1.hdr = p.hdr ∧ skip ≤ r.2 := by
  unfold Proposal.parseSMCD
  refine Ensures.ite ?_ (Ensures.pure ⟨rfl, by dsimp only; omega⟩)
  repeat' refine Ensures.bind fun _ => ?_
  exact Ensures.pure ⟨rfl, by dsimp only; omega⟩

theorem Proposal.parseH_costs (p : Proposal) (buf : Ref) :
    Costs (p.parseH {} buf) fun n a => n = a.2.total ∧ n ≤ a.1.hdr.Length.toNat := by
  unfold Proposal.parseH Ref.idx
  cost_step
  refine Costs.ite (fun _ => ?_) fun hl => ?_
  · repeat' cost_step
    exact Costs.pure ⟨rfl, Nat.zero_le _⟩
  · dsimp only at hl ⊢
    simp only [ProposalLen] at hl
    cost_step
    cost_step
    cost_step
    cost_step
    cost_step
    cost_step
    cost_step
    cost_step
    refine Costs.free (Costs.read_post fun _ => Proposal.parseSMCD_keeps _ _ _) fun r ⟨hr, hs⟩ => ?_
    obtain ⟨p', skip⟩ := r
    dsimp only at hr hs ⊢
    refine Costs.ite (fun hc => ?_) fun hc => ?_
    · repeat' cost_step
      refine Costs.pure ⟨?_, ?_⟩
      · simp only [Refs.total, Ref.nil, List.map_nil, List.sum_nil]
        omega
      · rw [hr]
        omega
    · cost_step
      cost_step
      cost_step
      cost_step
      cost_step
      cost_step
      refine Costs.bind (parsePrefixesH_costs _ _ _ _ _) fun k qs ⟨h0, h1, h2, h3, h4⟩ => ?_
      cost_step
      refine Costs.pure ⟨?_, ?_⟩ <;>
      · simp only [TrailerLen, EyecatcherLen, HeaderLen, PeerIDLen, Refs.total, List.map_nil, List.sum_nil,
          List.length_nil] at *
        omega

theorem parsePrefixesV2H_costs (length : UInt16) (buf : Ref) : ∀ (n skip : Nat) (ps : List (Ref × UInt8)),
    Costs (parsePrefixesV2H length buf n skip ps) fun k r =>
      k + (ps.map (·.1.len)).sum = (r.1.map (·.1.len)).sum ∧
      k = 16 * (r.1.length - ps.length) ∧ ps.length ≤ r.1.length ∧ r.1.length ≤ ps.length + n ∧
        (r.1.length = ps.length ∨ skip + 17 * (r.1.length - ps.length) + 4 ≤ length.toNat) := by
  intro n
  induction n with
  | zero => intro skip ps; exact Costs.pure (by dsimp only; omega)
  | succ n ih =>
    intro skip ps
    unfold parsePrefixesV2H Ref.idx
    refine Costs.ite (fun _ => ?_) fun hc => ?_
    · repeat' cost_step
      exact Costs.pure (by dsimp only; omega)
    · cost_step
      cost_step
      cost_step
      refine (ih _ _).mono fun k r ⟨h0, h1, h2, h3, h4⟩ => ?_
      simp only [List.length_append, List.length_singleton, IPv6PrefixLen, TrailerLen, EyecatcherLen, List.map_append,
        List.map_cons, List.map_nil, List.sum_append, List.sum_cons, List.sum_nil] at *
      omega

theorem ProposalV2.parseV2Ext_keeps (p : ProposalV2) (s : Slice) (skip : Nat) :
    Ensures (p.parseV2Ext s skip) fun r => r.1.hdr = p.hdr := by
  unfold ProposalV2.parseV2Ext
  refine Ensures.ite (Ensures.ite ?_ ?_) (Ensures.pure rfl) <;>
  · repeat' refine Ensures.bind fun _ => ?_
    exact Ensures.pure rfl

theorem ProposalV2.parseSMCDExt_keeps (p : ProposalV2) (s : Slice) (skip : Nat) :
    Ensures (p.parseSMCDExt s skip) fun r => r.1.hdr = p.hdr := by
  unfold ProposalV2.parseSMCDExt
  refine Ensures.ite (Ensures.ite ?_ ?_) (Ensures.pure rfl) <;>
  · repeat' refine Ensures.bind fun _ => ?_
    exact Ensures.pure rfl

theorem ProposalV2.parseFixedH_costs (p : ProposalV2) (r : Ref) (buf : Ref) :
    Costs (p.parseFixedH { raw := r } buf) fun n a => n = 22 ∧ a.1.1.hdr = p.hdr ∧ a.1.2.total = 22 ∧
      a.1.2.pfx = .nil ∧ a.1.2.prefixes = [] ∧ a.2 = 80 := by
  unfold ProposalV2.parseFixedH
  repeat' cost_step
  refine Costs.pure ⟨by omega, rfl, ?_, rfl, rfl, rfl⟩
  simp only [Refs.total, Ref.nil, List.map_nil, List.sum_nil]
  omega

theorem ProposalV2.parseIPAreaH_costs (p : ProposalV2) (s : Refs) (buf : Ref) (h1 : s.pfx = .nil) (h2 : s.prefixes = []) :
    Costs (p.parseIPAreaH s buf 80) fun n a => a.1.1.hdr = p.hdr ∧ n + s.total = a.1.2.total ∧
      (n = 0 ∨ 88 + n ≤ p.hdr.Length.toNat) := by
  unfold ProposalV2.parseIPAreaH Ref.idx
  refine Costs.ite (fun _ => Costs.ite (fun _ => ?_) fun hc => ?_) fun _ => Costs.pure ⟨rfl, Nat.zero_add _, .inl rfl⟩
  · repeat' cost_step
    exact Costs.pure ⟨rfl, Nat.zero_add _, .inl rfl⟩
  · cost_step
    cost_step
    cost_step
    cost_step
    cost_step
    cost_step
    refine Costs.bind (parsePrefixesV2H_costs _ _ _ _ _) fun k r ⟨h0, h1, h2, h3, h4⟩ => Costs.pure ⟨rfl, ?_⟩
    simp_all only [TrailerLen, EyecatcherLen, Refs.total, List.map_nil, List.sum_nil, List.length_nil, Ref.nil]
    omega

theorem ProposalV2.parseH_costs (p : ProposalV2) (buf : Ref) :
    Costs (p.parseH {} buf) fun n a => n = a.2.total ∧ n ≤ a.1.hdr.Length.toNat := by
  unfold ProposalV2.parseH
  cost_step
  refine Costs.ite (fun _ => ?_) fun hl => ?_
  · repeat' cost_step
    exact Costs.pure ⟨rfl, Nat.zero_le _⟩
  dsimp only at hl ⊢
  simp only [ProposalV2Len] at hl
  refine Costs.bind (ProposalV2.parseFixedH_costs _ _ _) fun n1 r1 ⟨e1, e2, e3, e4, e5, e6⟩ => ?_
  obtain ⟨⟨p1, s1⟩, skip⟩ := r1
  dsimp only at e2 e3 e4 e5 e6 ⊢
  subst e6
  refine Costs.bind (ProposalV2.parseIPAreaH_costs _ _ _ e4 e5) fun n2 r2 ⟨f1, f2, f3⟩ => ?_
  obtain ⟨⟨p2, s2⟩, o⟩ := r2
  dsimp only at f1 f2 f3 ⊢
  have key : ∀ p3 : ProposalV2, p3.hdr = p2.hdr → n1 + (n2 + 0) = s2.total ∧ n1 + (n2 + 0) ≤ p3.hdr.Length.toNat := by
    intro p3 h3
    rw [h3, f1, e2]
    rw [e2] at f3
    omega
  cases o with
  | none => exact Costs.pure (key _ rfl)
  | some skip =>
    refine Costs.free (Costs.read_post fun _ => ProposalV2.parseV2Ext_keeps _ _ _) fun r3 g3 => ?_
    obtain ⟨p3, o3⟩ := r3
    cases o3 with
    | none => exact Costs.pure (key _ g3)
    | some skip =>
      refine Costs.free (Costs.read_post fun _ => ProposalV2.parseSMCDExt_keeps _ _ _) fun r4 g4 => ?_
      obtain ⟨p4, o4⟩ := r4
      cases o4 with
      | none => exact Costs.pure (key _ (g4.trans g3))
      | some skip =>
        dsimp only
        cost_step
        exact Costs.pure (key _ (g4.trans g3))

/-- all kinds: at most the declared length -/
theorem HMessage.parse_costs (v : Message) (buf : Ref) :
    Costs ((HMessage.mk v {}).parse buf) fun n m => n = m.s.total ∧ n ≤ m.v.hdr.Length.toNat := by
  have zero : ∀ {α : Type} (f : Slice → Go α) (c : α → Message),
      Costs (do pure (HMessage.mk (c (← HGo.read buf f)) { raw := buf }) : HGo HMessage)
        fun n m => n = m.s.total ∧ n ≤ m.v.hdr.Length.toNat := by
    intro α f c
    cost_step
    exact Costs.pure ⟨rfl, Nat.zero_le _⟩
  unfold HMessage.parse
  cases v with
  | proposal p => exact Costs.bind (p.parseH_costs _) fun n r hr => Costs.pure hr
  | proposalV2 p => exact Costs.bind (p.parseH_costs _) fun n r hr => Costs.pure hr
  | acceptSMCR a =>
    refine Costs.bind (a.parseH_costs _) fun n r hr => Costs.pure ?_
    change n + 0 = r.2.total ∧ n + 0 ≤ r.1.hdr.Length.toNat
    omega
  | confirmSMCR a =>
    refine Costs.bind (a.parseH_costs _) fun n r hr => Costs.pure ?_
    change n + 0 = r.2.total ∧ n + 0 ≤ r.1.hdr.Length.toNat
    omega
  | acceptSMCD a => exact zero _ _
  | acceptSMCDv2 a => exact zero _ _
  | confirmSMCD a => exact zero _ _
  | confirmSMCDv2 a => exact zero _ _
  | decline a => exact zero _ _
  | declineV2 a => exact zero _ _

end CLC
end SMC
