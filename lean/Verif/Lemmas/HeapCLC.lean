import Verif.Lemmas.HeapLLC
/-!
# CLC parsers on memory do what the parsers on values do
-/

namespace SMC.CLC
open Sim

theorem Refs.Own.ext {n : Nat} {a b : Heap} {s : Refs} (hs : s.Own n a) (h : a.Ext b) : s.Own n b :=
  ⟨hs.1.ext h, hs.2.1.ext h, hs.2.2.1.ext h, fun p hp => (hs.2.2.2 p hp).ext h⟩

theorem Refs.Own.nil (n : Nat) (h1 : Heap) : Refs.Own n h1 {} :=
  ⟨.nil _ _, .nil _ _, .nil _ _, fun _ hp => by cases hp⟩

theorem prefixesOn_ext {n : Nat} {a b : Heap} {ps : List (Ref × UInt8)} (h : a.Ext b)
    (hp : ∀ p ∈ ps, p.1.Own n a) : prefixesOn b ps = prefixesOn a ps := by
  refine List.map_congr_left fun p hm => ?_
  rw [h.bytes (hp p hm).1]

theorem AcceptSMCR.parseH_sim {n : Nat} {h : Heap} {buf : Ref} (hb : buf.Valid h) (hn : n ≤ h.length)
    (ac : AcceptSMCR) (s : Refs) (hs : s.Own n h) :
    Sim h (ac.parseH s buf) ((ac.on h s).parse (h.slice buf))
      (fun h1 r v => v = r.1.on h1 r.2 ∧ r.2.Own n h1 ∧ r.2.raw = buf) := by
  unfold AcceptSMCR.parseH AcceptSMCR.parse
  dsimp only [AcceptSMCR.on]
  refine read_bind fun hdr => ?_
  refine Sim.ite (fun _ => ?_) fun _ => ?_
  · refine lift_bind fun _ => ?_
    refine sto_bind hb fun _ _ _ _ => ?_
    refine read_bind fun _ => ?_
    exact Sim.pure ⟨rfl, hs, rfl⟩
  have hb0 := hb
  refine sfrom_bind hb fun buf1 hb _ _ => ?_
  refine sto_bind hb fun _ _ _ _ => ?_
  refine read_pure ?_
  refine sfrom_bind hb fun buf2 hb _ _ => ?_
  refine sto_bind hb fun src hsrc _ _ => ?_
  refine makeCopy_bind hsrc fun h1 gid he1 hgid ha1 _ hg => ?_
  rw [← he1.slice hb]
  replace hb := he1.valid hb
  refine sfrom_bind hb fun buf3 hb _ _ => ?_
  refine sto_bind hb fun src' hsrc' _ _ => ?_
  refine makeCopy_bind hsrc' fun h2 mac he2 hmac ha2 _ hm => ?_
  rw [← he2.slice hb]
  replace hb := he2.valid hb
  refine sfrom_bind hb fun buf4 hb _ _ => ?_
  refine idx_bind fun _ => ?_
  refine idx_bind fun _ => ?_
  refine idx_bind fun _ => ?_
  refine sfrom_bind hb fun buf5 hb _ _ => ?_
  refine sto_bind hb fun _ _ _ _ => ?_
  refine read_bind fun _ => ?_
  refine sfrom_bind hb fun buf6 hb _ _ => ?_
  refine idx_bind fun _ => ?_
  refine sfrom_bind hb fun buf7 hb _ _ => ?_
  refine sto_bind hb fun _ _ _ _ => ?_
  refine read_bind fun _ => ?_
  refine sfrom_bind hb fun buf8 hb _ _ => ?_
  refine idx_bind fun _ => ?_
  refine idx_bind fun _ => ?_
  refine sfrom_bind hb fun buf9 hb _ _ => ?_
  refine idx_bind fun _ => ?_
  refine sfrom_bind hb fun buf10 hb _ _ => ?_
  refine sto_bind hb fun _ _ _ _ => ?_
  refine read_bind fun _ => ?_
  refine sfrom_bind hb fun buf11 hb _ _ => ?_
  refine idx_bind fun _ => ?_
  refine sfrom_bind hb fun buf12 hb _ _ => ?_
  refine idx_bind fun _ => ?_
  refine idx_bind fun _ => ?_
  refine idx_bind fun _ => ?_
  refine sfrom_bind hb fun buf13 hb _ _ => ?_
  refine read_bind fun _ => ?_
  have l1 := he1.length
  have he := he1.trans he2
  refine Sim.pure ⟨?_, ⟨?_, ?_, hs.2.2.1.ext he, fun p hp => (hs.2.2.2 p hp).ext he⟩, rfl⟩
  · simp only [rawParse, he2.bytes hgid, hg, hm, he.slice hb0]
    rfl
  · exact ⟨he2.valid hgid, .inr (by dsimp only; omega)⟩
  · exact ⟨hmac, .inr (by dsimp only; omega)⟩

theorem parsePrefixesH_bind {n : Nat} {γ δ : Type} (length : UInt16) {buf : Ref} :
    ∀ (k skip : Nat) (ps : List (Ref × UInt8)) (h : Heap), buf.Valid h → n ≤ h.length → (∀ p ∈ ps, p.1.Own n h) →
    ∀ {f : List (Ref × UInt8) → HGo γ} {g : List IPv6Prefix → Go δ} {R : Heap → γ → δ → Prop},
    (∀ h1 qs, h.Ext h1 → (∀ p ∈ qs, p.1.Own n h1) → Sim h1 (f qs) (g (prefixesOn h1 qs)) R) →
    Sim h (parsePrefixesH length buf k skip ps >>= f)
      (parsePrefixes length (h.slice buf) k skip (prefixesOn h ps) >>= g) R := by
  intro k skip ps h hb hn hps f g R hf
  refine Sim.bind (R := fun h1 qs v => (∀ p ∈ qs, p.1.Own n h1) ∧ v = prefixesOn h1 qs) ?_ ?_
  · clear hf
    induction k generalizing skip ps h with
    | zero =>
      unfold parsePrefixesH parsePrefixes
      exact Sim.pure ⟨hps, rfl⟩
    | succ k ih =>
      unfold parsePrefixesH parsePrefixes
      dsimp only
      refine Sim.ite (fun _ => ?_) fun _ => ?_
      · refine lift_bind fun _ => ?_
        refine sto_bind hb fun _ _ _ _ => ?_
        refine read_bind fun _ => ?_
        exact Sim.pure ⟨hps, rfl⟩
      refine sub_bind hb fun src hsrc _ _ => ?_
      refine makeCopy_bind hsrc fun h1 p he hp ha _ hc => ?_
      rw [← he.slice hb]
      refine idx_bind fun l => ?_
      have hps1 : ∀ q ∈ ps ++ [(p, l)], q.1.Own n h1 := by
        intro q hq
        rcases List.mem_append.1 hq with hq | hq
        · exact (hps q hq).ext he
        · rw [List.mem_singleton.1 hq]
          exact ⟨hp, .inr (by dsimp only; omega)⟩
      have e : prefixesOn h ps ++ [{ pfx := copyInto (zeros 16) (h.slice src).vis, prefixLen := l }]
          = prefixesOn h1 (ps ++ [(p, l)]) := by
        have : prefixesOn h1 (ps ++ [(p, l)]) = prefixesOn h1 ps ++ [{ pfx := h1.bytes p, prefixLen := l }] := by
          simp only [prefixesOn, List.map_append, List.map_cons, List.map_nil]
        rw [this, hc, prefixesOn_ext he hps]
        rfl
      rw [e]
      exact ih _ _ h1 (he.valid hb) (Nat.le_trans hn he.length) hps1
  · rintro h1 qs v he ⟨h2, rfl⟩
    exact hf h1 qs he h2

/-- a statement on values that is a statement on memory up to the slices -/
theorem _root_.SMC.Sim.read_bind_map {α β γ δ : Type} {h : Heap} {r : Ref} {k : Slice → Go α} {y : Go β} {c : α → β}
    {f : α → HGo γ} {g : β → Go δ} {R : Heap → γ → δ → Prop}
    (hy : y = (k (h.slice r) >>= fun a => Pure.pure (c a))) (hf : ∀ a, Sim h (f a) (g (c a)) R) :
    Sim h (HGo.read r k >>= f) (y >>= g) R := by
  have : (y >>= g) = (k (h.slice r) >>= fun a => g (c a)) := by
    rw [hy]
    cases k (h.slice r) with
    | panic l => rfl
    | ret l a =>
      show Go.bind (Go.bind (.ret l a) fun a => .ret [] (c a)) g = Go.bind (.ret l a) fun a => g (c a)
      simp only [Go.bind, List.append_nil]
  rw [this]
  exact read_bind hf

theorem _root_.SMC.Go.bind_bind {α β γ : Type} (x : Go α) (f : α → Go β) (g : β → Go γ) :
    (x >>= f >>= g) = (x >>= fun a => f a >>= g) := by
  show Go.bind (Go.bind x f) g = Go.bind x fun a => Go.bind (f a) g
  cases x with
  | panic l => rfl
  | ret l a =>
    simp only [Go.bind]
    cases f a with
    | panic l' => rfl
    | ret l' b =>
      simp only
      cases g b with
      | panic l'' => simp
      | ret l'' c => simp

theorem Proposal.parseSMCD_on (h : Heap) (p : Proposal) (s : Refs) (b : Slice) (skip : Nat) :
    (p.on h s).parseSMCD b skip = (p.parseSMCD b skip >>= fun r => Pure.pure (r.1.on h s, r.2)) := by
  unfold Proposal.parseSMCD
  by_cases hc : p.IPAreaOffset.toNat = SMCDIPAreaOffset
  · rw [if_pos (show (p.on h s).IPAreaOffset.toNat = SMCDIPAreaOffset from hc), if_pos hc]
    simp only [Go.bind_bind, Go.pure_eq, Go.ret_bind]
    rfl
  · rw [if_neg (show ¬(p.on h s).IPAreaOffset.toNat = SMCDIPAreaOffset from hc), if_neg hc]
    rfl

theorem Proposal.parseH_sim {n : Nat} {h : Heap} {buf : Ref} (hb : buf.Valid h) (hn : n ≤ h.length)
    (p : Proposal) (s : Refs) (hs : s.Own n h) :
    Sim h (p.parseH s buf) ((p.on h s).parse (h.slice buf))
      (fun h1 r v => v = r.1.on h1 r.2 ∧ r.2.Own n h1 ∧ r.2.raw = buf) := by
  unfold Proposal.parseH Proposal.parse
  dsimp only [Proposal.on]
  refine read_bind fun hdr => ?_
  refine Sim.ite (fun _ => ?_) fun _ => ?_
  · refine lift_bind fun _ => ?_
    refine sto_bind hb fun _ _ _ _ => ?_
    refine read_bind fun _ => ?_
    exact Sim.pure ⟨rfl, hs, rfl⟩
  refine sub_bind hb fun _ _ _ _ => ?_
  refine read_pure ?_
  refine sub_bind hb fun src hsrc _ _ => ?_
  refine makeCopy_bind hsrc fun h1 gid he1 hgid ha1 _ hg => ?_
  rw [← he1.slice hb]
  replace hb := he1.valid hb
  refine sub_bind hb fun src' hsrc' _ _ => ?_
  refine makeCopy_bind hsrc' fun h2 mac he2 hmac ha2 _ hm => ?_
  rw [← he2.slice hb]
  replace hb := he2.valid hb
  refine sub_bind hb fun _ _ _ _ => ?_
  refine read_bind fun off => ?_
  have he12 := he1.trans he2
  have l1 := he1.length
  have l2 := he2.length
  refine read_bind_map (c := fun r => (r.1.on h2 { s with raw := buf, ibgid := gid, ibmac := mac }, r.2)) ?_ fun r => ?_
  · rw [← Proposal.parseSMCD_on]
    congr 1
    simp only [Proposal.on, rawParse, he2.bytes hgid, hg, hm, he12.bytes hs.2.2.1.1, prefixesOn_ext he12 hs.2.2.2]
    rfl
  obtain ⟨p, skip⟩ := r
  dsimp only [Proposal.on]
  have hs2 : Refs.Own n h2 { s with raw := buf, ibgid := gid, ibmac := mac } :=
    ⟨⟨he2.valid hgid, .inr (by dsimp only; omega)⟩, ⟨hmac, .inr (by dsimp only; omega)⟩, hs.2.2.1.ext he12,
      fun q hq => (hs.2.2.2 q hq).ext he12⟩
  refine Sim.ite (fun _ => ?_) fun _ => ?_
  · refine lift_bind fun _ => ?_
    refine sto_bind hb fun _ _ _ _ => ?_
    refine read_bind fun _ => ?_
    exact Sim.pure ⟨rfl, hs2, rfl⟩
  refine sub_bind hb fun src3 hsrc3 _ _ => ?_
  refine makeCopy_bind hsrc3 fun h3 pfx he3 hpfx ha3 _ hp => ?_
  rw [← he3.slice hb]
  replace hb := he3.valid hb
  refine idx_bind fun _ => ?_
  refine sub_bind hb fun _ _ _ _ => ?_
  refine read_pure ?_
  refine idx_bind fun _ => ?_
  have l3 := he3.length
  rw [← prefixesOn_ext he3 hs2.2.2.2]
  refine parsePrefixesH_bind (n := n) _ _ _ _ _ hb (by omega) (fun q hq => (hs2.2.2.2 q hq).ext he3) fun h4 qs he4 hq => ?_
  rw [← he4.slice hb]
  refine read_bind fun _ => ?_
  have he34 := he3.trans he4
  refine Sim.pure ⟨?_, ⟨hs2.1.ext he34, hs2.2.1.ext he34, ⟨he4.valid hpfx, .inr (by dsimp only; omega)⟩, hq⟩, rfl⟩
  simp only [he34.bytes hs2.1.1, he34.bytes hs2.2.1.1, he4.bytes hpfx, hp]
  rfl

/-! ## Proposal v2 -/

theorem parsePrefixesV2H_bind {n : Nat} {γ δ : Type} (length : UInt16) {buf : Ref} :
    ∀ (k skip : Nat) (ps : List (Ref × UInt8)) (h : Heap), buf.Valid h → n ≤ h.length → (∀ p ∈ ps, p.1.Own n h) →
    ∀ {f : List (Ref × UInt8) × Nat → HGo γ} {g : List IPv6Prefix × Nat → Go δ} {R : Heap → γ → δ → Prop},
    (∀ h1 qs j, h.Ext h1 → (∀ p ∈ qs, p.1.Own n h1) → Sim h1 (f (qs, j)) (g (prefixesOn h1 qs, j)) R) →
    Sim h (parsePrefixesV2H length buf k skip ps >>= f)
      (parsePrefixesV2 length (h.slice buf) k skip (prefixesOn h ps) >>= g) R := by
  intro k skip ps h hb hn hps f g R hf
  refine Sim.bind (R := fun h1 qs v => (∀ p ∈ qs.1, p.1.Own n h1) ∧ v = (prefixesOn h1 qs.1, qs.2)) ?_ ?_
  · clear hf
    induction k generalizing skip ps h with
    | zero =>
      unfold parsePrefixesV2H parsePrefixesV2
      exact Sim.pure ⟨hps, rfl⟩
    | succ k ih =>
      unfold parsePrefixesV2H parsePrefixesV2
      dsimp only
      refine Sim.ite (fun _ => ?_) fun _ => ?_
      · refine lift_bind fun _ => ?_
        refine sto_bind hb fun _ _ _ _ => ?_
        refine read_bind fun _ => ?_
        exact Sim.pure ⟨hps, rfl⟩
      refine sub_bind hb fun src hsrc _ _ => ?_
      refine makeCopy_bind hsrc fun h1 p he hp ha _ hc => ?_
      rw [← he.slice hb]
      refine idx_bind fun l => ?_
      have hps1 : ∀ q ∈ ps ++ [(p, l)], q.1.Own n h1 := by
        intro q hq
        rcases List.mem_append.1 hq with hq | hq
        · exact (hps q hq).ext he
        · rw [List.mem_singleton.1 hq]
          exact ⟨hp, .inr (by dsimp only; omega)⟩
      have e : prefixesOn h ps ++ [{ pfx := copyInto (zeros 16) (h.slice src).vis, prefixLen := l }]
          = prefixesOn h1 (ps ++ [(p, l)]) := by
        have : prefixesOn h1 (ps ++ [(p, l)]) = prefixesOn h1 ps ++ [{ pfx := h1.bytes p, prefixLen := l }] := by
          simp only [prefixesOn, List.map_append, List.map_cons, List.map_nil]
        rw [this, hc, prefixesOn_ext he hps]
        rfl
      rw [e]
      exact ih _ _ h1 (he.valid hb) (Nat.le_trans hn he.length) hps1
  · rintro h1 ⟨qs, j⟩ v he ⟨h2, rfl⟩
    exact hf h1 qs j he h2

theorem ProposalV2.parseFixedH_bind {n : Nat} {γ δ : Type} {h : Heap} {buf : Ref} (hb : buf.Valid h)
    (hn : n ≤ h.length) (p : ProposalV2) (s : Refs) (hs : s.Own n h) (hr : s.raw.Valid h)
    {f : (ProposalV2 × Refs) × Nat → HGo γ} {g : ProposalV2 × Nat → Go δ} {R : Heap → γ → δ → Prop}
    (hf : ∀ h1 p' s' j, h.Ext h1 → s'.Own n h1 → s'.raw = s.raw →
      Sim h1 (f ((p', s'), j)) (g (p'.on h1 s', j)) R) :
    Sim h (p.parseFixedH s buf >>= f) ((p.on h s).parseFixed (h.slice buf) >>= g) R := by
  refine Sim.bind (R := fun h1 r v => (r.1.2.Own n h1 ∧ r.1.2.raw = s.raw) ∧
    v = (r.1.1.on h1 r.1.2, r.2)) ?_ ?_
  · unfold ProposalV2.parseFixedH ProposalV2.parseFixed
    dsimp only [ProposalV2.on]
    refine sub_bind hb fun _ _ _ _ => ?_
    refine read_pure ?_
    refine sub_bind hb fun src hsrc _ _ => ?_
    refine makeCopy_bind hsrc fun h1 gid he1 hgid ha1 _ hg => ?_
    rw [← he1.slice hb]
    replace hb := he1.valid hb
    refine sub_bind hb fun src' hsrc' _ _ => ?_
    refine makeCopy_bind hsrc' fun h2 mac he2 hmac ha2 _ hm => ?_
    rw [← he2.slice hb]
    replace hb := he2.valid hb
    refine sub_bind hb fun _ _ _ _ => ?_
    refine read_bind fun off => ?_
    refine sub_bind hb fun _ _ _ _ => ?_
    refine read_bind fun _ => ?_
    refine sub_bind hb fun _ _ _ _ => ?_
    refine read_bind fun _ => ?_
    refine sub_bind hb fun _ _ _ _ => ?_
    refine read_bind fun _ => ?_
    refine sub_bind hb fun _ _ _ _ => ?_
    refine read_pure ?_
    have he12 := he1.trans he2
    have l1 := he1.length
    refine Sim.pure ⟨⟨⟨⟨he2.valid hgid, .inr (by dsimp only; omega)⟩, ⟨hmac, .inr (by dsimp only; omega)⟩,
      hs.2.2.1.ext he12, fun q hq => (hs.2.2.2 q hq).ext he12⟩, rfl⟩, ?_⟩
    simp only [he12.slice hr, he2.bytes hgid, hg, hm, he12.bytes hs.2.2.1.1, prefixesOn_ext he12 hs.2.2.2]
    rfl
  · rintro h1 ⟨⟨p', s'⟩, j⟩ v he ⟨⟨h2, h3⟩, rfl⟩
    exact hf h1 p' s' j he h2 h3

theorem ProposalV2.parseIPAreaH_bind {n : Nat} {γ δ : Type} {h : Heap} {buf : Ref} (hb : buf.Valid h)
    (hn : n ≤ h.length) (p : ProposalV2) (s : Refs) (hs : s.Own n h) (hr : s.raw.Valid h) (skip : Nat)
    {f : (ProposalV2 × Refs) × Option Nat → HGo γ} {g : ProposalV2 × Option Nat → Go δ} {R : Heap → γ → δ → Prop}
    (hf : ∀ h1 p' s' j, h.Ext h1 → s'.Own n h1 → s'.raw = s.raw →
      Sim h1 (f ((p', s'), j)) (g (p'.on h1 s', j)) R) :
    Sim h (p.parseIPAreaH s buf skip >>= f) ((p.on h s).parseIPArea (h.slice buf) skip >>= g) R := by
  refine Sim.bind (R := fun h1 r v => (r.1.2.Own n h1 ∧ r.1.2.raw = s.raw) ∧
    v = (r.1.1.on h1 r.1.2, r.2)) ?_ ?_
  · unfold ProposalV2.parseIPAreaH ProposalV2.parseIPArea
    dsimp only [ProposalV2.on]
    refine Sim.ite (fun _ => ?_) fun _ => Sim.pure ⟨⟨hs, rfl⟩, rfl⟩
    refine Sim.ite (fun _ => ?_) fun _ => ?_
    · refine lift_bind fun _ => ?_
      refine sto_bind hb fun _ _ _ _ => ?_
      refine read_bind fun _ => ?_
      exact Sim.pure ⟨⟨hs, rfl⟩, rfl⟩
    refine sub_bind hb fun src3 hsrc3 _ _ => ?_
    refine makeCopy_bind hsrc3 fun h3 pfx he3 hpfx ha3 _ hp => ?_
    rw [← he3.slice hb]
    replace hb := he3.valid hb
    refine idx_bind fun _ => ?_
    refine sub_bind hb fun _ _ _ _ => ?_
    refine read_pure ?_
    refine idx_bind fun _ => ?_
    have l3 := he3.length
    rw [← prefixesOn_ext he3 hs.2.2.2]
    refine parsePrefixesV2H_bind (n := n) _ _ _ _ _ hb (by omega) (fun q hq => (hs.2.2.2 q hq).ext he3)
      fun h4 qs j he4 hq => ?_
    have he34 := he3.trans he4
    refine Sim.pure ⟨⟨⟨hs.1.ext he34, hs.2.1.ext he34, ⟨he4.valid hpfx, .inr (by dsimp only; omega)⟩, hq⟩, rfl⟩, ?_⟩
    simp only [he34.slice hr, he34.bytes hs.1.1, he34.bytes hs.2.1.1, he4.bytes hpfx, hp]
    rfl
  · rintro h1 ⟨⟨p', s'⟩, j⟩ v he ⟨⟨h2, h3⟩, rfl⟩
    exact hf h1 p' s' j he h2 h3

theorem _root_.SMC.Go.bind_congr {α β : Type} (x : Go α) {f g : α → Go β} (h : ∀ a, f a = g a) :
    (x >>= f) = (x >>= g) := by
  rw [funext h]

theorem ProposalV2.parseV2Ext_on (h : Heap) (p : ProposalV2) (s : Refs) (b : Slice) (skip : Nat) :
    (p.on h s).parseV2Ext b skip = (p.parseV2Ext b skip >>= fun r => Pure.pure (r.1.on h s, r.2)) := by
  unfold ProposalV2.parseV2Ext
  by_cases hc : p.hdr.Pathv2 ≠ SMCTypeN
  · rw [if_pos (show (p.on h s).hdr.Pathv2 ≠ SMCTypeN from hc), if_pos hc]
    by_cases hd : (p.hdr.Length.toNat : Int) - skip < ProposalV2ExtLen + TrailerLen
    · rw [if_pos (show ((p.on h s).hdr.Length.toNat : Int) - skip < ProposalV2ExtLen + TrailerLen from hd), if_pos hd]
      simp only [Go.bind_bind, Go.pure_eq, Go.ret_bind]
      rfl
    · rw [if_neg (show ¬((p.on h s).hdr.Length.toNat : Int) - skip < ProposalV2ExtLen + TrailerLen from hd), if_neg hd]
      simp only [Go.bind_bind, Go.pure_eq, Go.ret_bind]
      rfl
  · rw [if_neg (show ¬(p.on h s).hdr.Pathv2 ≠ SMCTypeN from hc), if_neg hc]
    rfl

theorem ProposalV2.parseSMCDExt_on (h : Heap) (p : ProposalV2) (s : Refs) (b : Slice) (skip : Nat) :
    (p.on h s).parseSMCDExt b skip = (p.parseSMCDExt b skip >>= fun r => Pure.pure (r.1.on h s, r.2)) := by
  unfold ProposalV2.parseSMCDExt
  by_cases hc : p.hdr.Pathv2 = SMCTypeD ∨ p.hdr.Pathv2 = SMCTypeB
  · rw [if_pos (show (p.on h s).hdr.Pathv2 = SMCTypeD ∨ (p.on h s).hdr.Pathv2 = SMCTypeB from hc), if_pos hc]
    by_cases hd : (p.hdr.Length.toNat : Int) - skip < SMCDv2ExtLen + TrailerLen
    · rw [if_pos (show ((p.on h s).hdr.Length.toNat : Int) - skip < SMCDv2ExtLen + TrailerLen from hd), if_pos hd]
      simp only [Go.bind_bind, Go.pure_eq, Go.ret_bind]
      rfl
    · rw [if_neg (show ¬((p.on h s).hdr.Length.toNat : Int) - skip < SMCDv2ExtLen + TrailerLen from hd), if_neg hd]
      simp only [Go.bind_bind, Go.pure_eq, Go.ret_bind]
      rfl
  · rw [if_neg (show ¬((p.on h s).hdr.Pathv2 = SMCTypeD ∨ (p.on h s).hdr.Pathv2 = SMCTypeB) from hc), if_neg hc]
    rfl

theorem ProposalV2.parseH_sim {n : Nat} {h : Heap} {buf : Ref} (hb : buf.Valid h) (hn : n ≤ h.length)
    (p : ProposalV2) (s : Refs) (hs : s.Own n h) :
    Sim h (p.parseH s buf) ((p.on h s).parse (h.slice buf))
      (fun h1 r v => v = r.1.on h1 r.2 ∧ r.2.Own n h1 ∧ r.2.raw = buf) := by
  unfold ProposalV2.parseH ProposalV2.parse
  refine read_bind fun hdr => ?_
  refine Sim.ite (fun _ => ?_) fun _ => ?_
  · refine lift_bind fun _ => ?_
    refine sto_bind hb fun _ _ _ _ => ?_
    refine read_bind fun _ => ?_
    exact Sim.pure ⟨rfl, hs, rfl⟩
  refine ProposalV2.parseFixedH_bind (n := n) hb hn { p with hdr := hdr } { s with raw := buf } hs hb
    fun h1 p1 s1 skip he1 hs1 hr1 => ?_
  rw [← he1.slice hb]
  have l1 := he1.length
  replace hb := he1.valid hb
  have hr1' : s1.raw.Valid h1 := hr1 ▸ hb
  refine ProposalV2.parseIPAreaH_bind (n := n) hb (by omega) p1 s1 hs1 hr1' skip fun h2 p2 s2 j he2 hs2 hr2 => ?_
  rw [← he2.slice hb]
  replace hb := he2.valid hb
  cases j with
  | none => exact Sim.pure ⟨rfl, hs2, hr2.trans hr1⟩
  | some skip =>
    refine read_bind_map (ProposalV2.parseV2Ext_on h2 p2 s2 _ _) fun r => ?_
    obtain ⟨p3, j⟩ := r
    cases j with
    | none => exact Sim.pure ⟨rfl, hs2, hr2.trans hr1⟩
    | some skip =>
      refine read_bind_map (ProposalV2.parseSMCDExt_on h2 p3 s2 _ _) fun r => ?_
      obtain ⟨p4, j⟩ := r
      cases j with
      | none => exact Sim.pure ⟨rfl, hs2, hr2.trans hr1⟩
      | some skip =>
        refine read_bind fun _ => ?_
        exact Sim.pure ⟨rfl, hs2, hr2.trans hr1⟩

/-! ## Messages of any kind -/

/-- every returned value has the property -/
def Ensures {α : Type} (x : Go α) (P : α → Prop) : Prop := ∀ l a, x = .ret l a → P a

theorem Ensures.bind {α β : Type} {x : Go α} {f : α → Go β} {P : β → Prop} (h : ∀ a, Ensures (f a) P) :
    Ensures (x >>= f) P := by
  intro l b hb
  obtain ⟨_, a, _, _, h2, _⟩ := (Go.bind_eq_ret x f l b).1 hb
  exact h a _ _ h2

theorem Ensures.bind_with {α β : Type} {x : Go α} {f : α → Go β} {P : β → Prop} {Q : α → Prop}
    (hx : Ensures x Q) (h : ∀ a, Q a → Ensures (f a) P) : Ensures (x >>= f) P := by
  intro l b hb
  obtain ⟨_, a, _, h1, h2, _⟩ := (Go.bind_eq_ret x f l b).1 hb
  exact h a (hx _ _ h1) _ _ h2

theorem Ensures.pure {α : Type} {a : α} {P : α → Prop} (h : P a) : Ensures (Pure.pure a) P := by
  intro l b hb
  cases hb
  exact h

theorem Ensures.ite {α : Type} {c : Prop} [Decidable c] {x y : Go α} {P : α → Prop} (hx : Ensures x P)
    (hy : Ensures y P) : Ensures (if c then x else y) P := by
  split <;> assumption

theorem AcceptSMCD.raw_parse (a : AcceptSMCD) (s : Slice) : Ensures (a.parse s) fun a' => a'.raw = s := by
  unfold AcceptSMCD.parse
  dsimp only
  refine Ensures.bind fun _ => Ensures.ite ?_ ?_ <;> repeat' refine Ensures.bind fun _ => ?_
  all_goals exact Ensures.pure rfl

theorem AcceptSMCDv2.raw_parseFCE (a : AcceptSMCDv2) (s : Slice) :
    Ensures (a.parseFCE s) fun r => r.1.raw = a.raw := by
  unfold AcceptSMCDv2.parseFCE
  dsimp only
  repeat' refine Ensures.bind fun _ => ?_
  all_goals exact Ensures.pure rfl

theorem AcceptSMCDv2.raw_parse (a : AcceptSMCDv2) (s : Slice) : Ensures (a.parse s) fun a' => a'.raw = s := by
  unfold AcceptSMCDv2.parse
  dsimp only
  refine Ensures.bind fun _ => Ensures.ite ?_ ?_
  · repeat' refine Ensures.bind fun _ => ?_
    exact Ensures.pure rfl
  · repeat' refine Ensures.bind fun _ => ?_
    refine Ensures.ite ?_ ?_
    · exact Ensures.bind_with (AcceptSMCDv2.raw_parseFCE _ _) fun _ k => Ensures.bind fun _ => Ensures.pure k
    · exact Ensures.bind_with (Ensures.pure (P := fun r => r.1.raw = s) rfl) fun _ k =>
        Ensures.bind fun _ => Ensures.pure k

theorem Decline.raw_parse (a : Decline) (s : Slice) : Ensures (a.parse s) fun a' => a'.raw = s := by
  unfold Decline.parse
  dsimp only
  refine Ensures.bind fun _ => Ensures.ite ?_ ?_ <;> repeat' refine Ensures.bind fun _ => ?_
  all_goals exact Ensures.pure rfl

theorem DeclineV2.raw_parse (a : DeclineV2) (s : Slice) : Ensures (a.parse s) fun a' => a'.raw = s := by
  unfold DeclineV2.parse
  dsimp only
  refine Ensures.bind fun _ => Ensures.ite ?_ ?_ <;> repeat' refine Ensures.bind fun _ => ?_
  all_goals exact Ensures.pure rfl

theorem raw_only {α : Type} (a : α) (parse : α → Slice → Go α) (setRaw : α → Slice → α) (c : α → Message)
    (hind : ∀ a x s, parse (setRaw a x) s = parse a s)
    (hraw : ∀ a s, Ensures (parse a s) fun a' => setRaw a' s = a')
    (hview : ∀ a h s, HMessage.view h ⟨c a, s⟩ = c (setRaw a (h.slice s.raw)))
    {n : Nat} {s : Refs} {h : Heap} (hs : s.Own n h) {buf : Ref} :
    Sim h (do pure (HMessage.mk (c (← HGo.read buf (parse a))) { s with raw := buf }))
      (do pure (c (← parse (setRaw a (h.slice s.raw)) (h.slice buf))))
      (fun h1 r v => v = r.view h1 ∧ r.s.Own n h1 ∧ r.s.raw = buf) := by
  rw [hind]
  have e : (do pure (HMessage.mk (c (← HGo.read buf (parse a))) { s with raw := buf }) : HGo HMessage) h
      = Go.bind (parse a (h.slice buf)) fun x => .ret [] (⟨c x, { s with raw := buf }⟩, h) := by
    rw [HGo.run_bind, HGo.run_read]
    cases parse a (h.slice buf) with
    | panic l => rfl
    | ret l a' => simp [Go.bind, Pure.pure, HGo.run]
  unfold Sim
  rw [e]
  cases hp : parse a (h.slice buf) with
  | panic l => rfl
  | ret l a' =>
    refine ⟨rfl, Heap.Ext.refl h, ?_, hs, rfl⟩
    rw [hview, hraw _ _ _ _ hp]

theorem HMessage.parse_sim {n : Nat} {h : Heap} {buf : Ref} (hb : buf.Valid h) (hn : n ≤ h.length)
    (m : HMessage) (hs : m.s.Own n h) :
    Sim h (m.parse buf) ((m.view h).parse (h.slice buf))
      (fun h1 r v => v = r.view h1 ∧ r.s.Own n h1 ∧ r.s.raw = buf) := by
  obtain ⟨v, s⟩ := m
  cases v with
  | proposal p =>
    exact Sim.bind (Proposal.parseH_sim hb hn p s hs) fun h1 r v _ ⟨k1, k2, k3⟩ => Sim.pure ⟨by rw [k1]; rfl, k2, k3⟩
  | proposalV2 p =>
    exact Sim.bind (ProposalV2.parseH_sim hb hn p s hs) fun h1 r v _ ⟨k1, k2, k3⟩ => Sim.pure ⟨by rw [k1]; rfl, k2, k3⟩
  | acceptSMCR p =>
    exact Sim.bind (AcceptSMCR.parseH_sim hb hn p s hs) fun h1 r v _ ⟨k1, k2, k3⟩ => Sim.pure ⟨by rw [k1]; rfl, k2, k3⟩
  | confirmSMCR p =>
    exact Sim.bind (AcceptSMCR.parseH_sim hb hn p s hs) fun h1 r v _ ⟨k1, k2, k3⟩ => Sim.pure ⟨by rw [k1]; rfl, k2, k3⟩
  | acceptSMCD a =>
    exact raw_only a AcceptSMCD.parse (fun a x => { a with raw := x }) .acceptSMCD (fun _ _ _ => rfl)
      (fun a s l a' k => by have := AcceptSMCD.raw_parse a s l a' k; subst this; rfl) (fun _ _ _ => rfl) hs
  | confirmSMCD a =>
    exact raw_only a AcceptSMCD.parse (fun a x => { a with raw := x }) .confirmSMCD (fun _ _ _ => rfl)
      (fun a s l a' k => by have := AcceptSMCD.raw_parse a s l a' k; subst this; rfl) (fun _ _ _ => rfl) hs
  | acceptSMCDv2 a =>
    exact raw_only a AcceptSMCDv2.parse (fun a x => { a with raw := x }) .acceptSMCDv2 (fun _ _ _ => rfl)
      (fun a s l a' k => by have := AcceptSMCDv2.raw_parse a s l a' k; subst this; rfl) (fun _ _ _ => rfl) hs
  | confirmSMCDv2 a =>
    exact raw_only a AcceptSMCDv2.parse (fun a x => { a with raw := x }) .confirmSMCDv2 (fun _ _ _ => rfl)
      (fun a s l a' k => by have := AcceptSMCDv2.raw_parse a s l a' k; subst this; rfl) (fun _ _ _ => rfl) hs
  | decline a =>
    exact raw_only a Decline.parse (fun a x => { a with raw := x }) .decline (fun _ _ _ => rfl)
      (fun a s l a' k => by have := Decline.raw_parse a s l a' k; subst this; rfl) (fun _ _ _ => rfl) hs
  | declineV2 a =>
    exact raw_only a DeclineV2.parse (fun a x => { a with raw := x }) .declineV2 (fun _ _ _ => rfl)
      (fun a s l a' k => by have := DeclineV2.raw_parse a s l a' k; subst this; rfl) (fun _ _ _ => rfl) hs

end SMC.CLC
