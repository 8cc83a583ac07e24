import Verif.Lemmas.CutProposal
/-!
# The values of the fields of Proposals of version 2 after a crash
-/

namespace SMC.Tail
open SGo Left CLC

/-- the fields but those that are read in loops -/
def proposalV2Others : View ProposalV2 Slice where
  fields p :=
    [.bytes p.hdr.Eyecatcher, .num p.hdr.Typ.toNat, .num p.hdr.Length.toNat, .num p.hdr.Version.toNat, .num p.hdr.Flag.toNat,
     .num p.hdr.rsv.toNat, .num p.hdr.Pathv2.toNat, .num p.hdr.Path.toNat, .bytes p.SenderPeerID, .bytes p.IBGID, .bytes p.IBMAC,
     .num p.IPAreaOffset.toNat, .num p.SMCDGID.toNat, .num p.ISMv2VCHID.toNat, .num p.SMCv2Offset.toNat, .bytes p.rsv,
     .bytes p.Prefix, .num p.PrefixLen.toNat, .bytes p.rsv2, .num p.IPv6PrefixesCnt.toNat, .num 0, .num p.EIDNumber.toNat,
     .num p.GIDNumber.toNat, .num p.rsv3.toNat, .num p.Release.toNat, .num p.rsv4.toNat, .num p.SEIDInd.toNat, .bytes p.rsv5,
     .num p.SMCDv2Off.toNat, .bytes p.rsv6, .num 0, .bytes p.SEID, .bytes p.rsv7, .num 0, .bytes p.trailer]
  raw m := m.raw
  put r m := { m with raw := r }
  fields_put _ _ := rfl
  raw_put _ _ := rfl
  put_put _ _ _ := rfl

theorem proposalV2Others_eq (p : ProposalV2) : proposalV2Others.fields p = (without proposalV2View [20, 30, 33]).fields p := rfl

def proposalV2Prefixes : Sight ProposalV2 Slice (List Bytes) where
  get p := p.IPv6Prefixes.map fun p => p.pfx ++ [p.prefixLen]
  put := proposalV2View.put
  get_put _ _ := rfl
  put_put _ _ _ := rfl

def proposalV2EIDs : Sight ProposalV2 Slice (Nat → Option Bytes) where
  get p := area (some (.areas p.EIDArea))
  put := proposalV2View.put
  get_put _ _ := rfl
  put_put _ _ _ := rfl

def proposalV2GIDs : Sight ProposalV2 Slice (Nat × Nat → Option Nat) where
  get p ij := entry (some (.nums (p.GIDArea.map fun g => [g.GID.toNat, g.VCHID.toNat]))) ij.1 ij.2
  put := proposalV2View.put
  get_put _ _ := rfl
  put_put _ _ _ := rfl

theorem area_modify {l : List Bytes} {f : Bytes → Bytes} {i n : Nat} (h : n ≠ i) :
    area (some (.areas (l.modify i f))) n = area (some (.areas l)) n := by
  show (l.modify i f)[n]? = l[n]?
  rw [List.getElem?_modify]
  cases l[n]? with
  | none => rfl
  | some x => exact congrArg some (if_neg (Ne.symm h))

theorem entry_modify {l : List GIDEntry} {f : GIDEntry → GIDEntry} {i n j : Nat}
    (h : n = i → ∀ g : GIDEntry, ([(f g).GID.toNat, (f g).VCHID.toNat])[j]? = ([g.GID.toNat, g.VCHID.toNat])[j]?) :
    entry (some (.nums ((l.modify i f).map fun g => [g.GID.toNat, g.VCHID.toNat]))) n j =
      entry (some (.nums (l.map fun g => [g.GID.toNat, g.VCHID.toNat]))) n j := by
  unfold entry
  dsimp only
  rw [List.getElem?_map, List.getElem?_map, List.getElem?_modify]
  cases l[n]? with
  | none => rfl
  | some g =>
    show ([(if i = n then f g else g).GID.toNat, (if i = n then f g else g).VCHID.toNat])[j]? = _
    by_cases hn : n = i
    · rw [if_pos hn.symm]
      exact h hn g
    · rw [if_neg (Ne.symm hn)]
      rfl

/-- a message about too few bytes -/
macro "cut_warn" h:ident : tactic => `(tactic| (
  refine Cut.logs (log_ret _) (log_ret _) ?_
  refine Cut.sto fun _ _ _ => ?_
  exact Cut.logs (errDump_ret _) (errDump_ret _) ($h _)))

macro "held_warn" h:ident : tactic => `(tactic| (
  refine Held.logs (log_ret _) (log_ret _) ?_
  refine Held.sto fun _ _ _ => ?_
  exact Held.logs (errDump_ret _) (errDump_ret _) ($h _)))

/-! ## The other fields -/

theorem cut_parsePrefixesV2S {W : Nat → Way → Prop} {f g : Nat → SGo ProposalV2 Unit} {len off : Nat} {a b : Slice}
    {length : UInt16} (h : ∀ skip, Cut proposalV2Others W 20 (Rest len off a b) (f skip) (g skip)) :
    ∀ n skip, Cut proposalV2Others W 20 (Rest len off a b) (parsePrefixesV2S length a n skip >>= f)
      (parsePrefixesV2S length b n skip >>= g) := by
  intro n
  induction n with
  | zero =>
    intro skip
    unfold parsePrefixesV2S
    rw [pure_bind', pure_bind']
    exact h _
  | succ n ih =>
    intro skip
    unfold parsePrefixesV2S
    simp only [bind_assoc', ite_bind, pure_bind']
    refine Cut.ite ?_ ?_
    · cut_warn h
    · refine Cut.sub fun _ _ _ => ?_
      refine Cut.idx fun _ => ?_
      cut_keep
      exact ih _

theorem cut_parseEIDsS {W : Nat → Way → Prop} {f g : Nat → SGo ProposalV2 Unit} {len off : Nat} {a b : Slice}
    {length : UInt16} (h : ∀ skip, Cut proposalV2Others W 30 (Rest len off a b) (f skip) (g skip)) :
    ∀ n i skip, Cut proposalV2Others W 30 (Rest len off a b) (parseEIDsS length a n i skip >>= f)
      (parseEIDsS length b n i skip >>= g) := by
  intro n
  induction n with
  | zero =>
    intro i skip
    unfold parseEIDsS
    rw [pure_bind', pure_bind']
    exact h _
  | succ n ih =>
    intro i skip
    unfold parseEIDsS
    simp only [bind_assoc', ite_bind, pure_bind']
    refine Cut.ite ?_ ?_
    · cut_warn h
    · cut_gets
      refine Cut.ite ?_ Cut.panics
      refine Cut.sub fun _ _ _ => ?_
      cut_keep
      exact ih _ _

theorem cut_parseGIDsS {W : Nat → Way → Prop} {f g : Unit → SGo ProposalV2 Unit} {len off : Nat} {a b : Slice}
    {length : UInt16} (h : Cut proposalV2Others W 33 (Rest len off a b) (f ()) (g ())) :
    ∀ n i skip, Cut proposalV2Others W 33 (Rest len off a b) (parseGIDsS length a n i skip >>= f)
      (parseGIDsS length b n i skip >>= g) := by
  intro n
  induction n with
  | zero =>
    intro i skip
    unfold parseGIDsS
    rw [pure_bind', pure_bind']
    exact h
  | succ n ih =>
    intro i skip
    unfold parseGIDsS
    simp only [bind_assoc', ite_bind]
    refine Cut.ite ?_ ?_
    · refine Cut.logs (log_ret _) (log_ret _) ?_
      refine Cut.sto fun _ _ _ => ?_
      exact Cut.logs (errDump_ret _) (errDump_ret _) h
    · cut_gets
      refine Cut.ite ?_ Cut.panics
      refine Cut.number64 fun _ => ?_
      cut_keep
      refine Cut.number16 fun _ => ?_
      cut_keep
      exact ih _ _

/-- the fields that are read in two steps -/
abbrev proposalV2Fresh (n : Nat) (w : Way) : Prop := (n, w) ∈ [(9, Way.fresh 16), (10, .fresh 6), (16, .fresh 4)]

theorem cut_parseFixedS {len : Nat} {a b : Slice} {f g : Nat → SGo ProposalV2 Unit}
    (h : ∀ skip, Cut proposalV2Others proposalV2Fresh 16 (Rest len 0 a b) (f skip) (g skip)) :
    Cut proposalV2Others proposalV2Fresh 8 (Rest len 0 a b) (ProposalV2.parseFixedS a >>= f)
      (ProposalV2.parseFixedS b >>= g) := by
  unfold ProposalV2.parseFixedS
  simp only [bind_assoc', pure_bind']
  repeat cut_step
  exact h _

theorem cut_parseIPAreaS {len off : Nat} {a b : Slice} {f g : Option Nat → SGo ProposalV2 Unit}
    (h : ∀ o, Cut proposalV2Others proposalV2Fresh 20 (Rest len off a b) (f o) (g o)) (skip : Nat) :
    Cut proposalV2Others proposalV2Fresh 16 (Rest len off a b) (ProposalV2.parseIPAreaS a skip >>= f)
      (ProposalV2.parseIPAreaS b skip >>= g) := by
  rw [parseIPAreaS_bind, parseIPAreaS_bind]
  cut_gets
  cut_gets
  refine Cut.ite (Cut.ite ?_ ?_) (Cut.weaken (by decide) id (h _))
  · refine Cut.weaken (j := 20) (by decide) id ?_
    cut_warn h
  · repeat cut_step
    exact cut_parsePrefixesV2S (fun _ => h _) _ _

theorem cut_parseV2ExtS {len off : Nat} {a b : Slice} {f g : Option Nat → SGo ProposalV2 Unit}
    (h : ∀ o, Cut proposalV2Others proposalV2Fresh 30 (Rest len off a b) (f o) (g o)) (skip : Nat) :
    Cut proposalV2Others proposalV2Fresh 21 (Rest len off a b) (ProposalV2.parseV2ExtS a skip >>= f)
      (ProposalV2.parseV2ExtS b skip >>= g) := by
  rw [parseV2ExtS_bind, parseV2ExtS_bind]
  cut_gets
  cut_gets
  refine Cut.ite (Cut.ite ?_ ?_) (Cut.weaken (by decide) id (h _))
  · refine Cut.weaken (j := 30) (by decide) id ?_
    cut_warn h
  · repeat cut_step
    exact cut_parseEIDsS (fun _ => h _) _ _ _

theorem cut_parseSMCDExtS {len off : Nat} {a b : Slice} {f g : Option Nat → SGo ProposalV2 Unit}
    (h : ∀ o, Cut proposalV2Others proposalV2Fresh 33 (Rest len off a b) (f o) (g o)) (skip : Nat) :
    Cut proposalV2Others proposalV2Fresh 31 (Rest len off a b) (ProposalV2.parseSMCDExtS a skip >>= f)
      (ProposalV2.parseSMCDExtS b skip >>= g) := by
  rw [parseSMCDExtS_bind, parseSMCDExtS_bind]
  cut_gets
  cut_gets
  refine Cut.ite (Cut.ite ?_ ?_) (Cut.weaken (by decide) id (h _))
  · refine Cut.weaken (j := 33) (by decide) id ?_
    cut_warn h
  · repeat cut_step
    exact cut_parseGIDsS (h _) _ _ _

/-! ## The prefixes -/

theorem heldPrefixes_parsePrefixesV2S {f g : Nat → SGo ProposalV2 Unit} {len off : Nat} {a b : Slice}
    {length : UInt16} (h : ∀ skip, Held proposalV2Prefixes appends (Rest len off a b) (f skip) (g skip)) :
    ∀ n skip, Held proposalV2Prefixes appends (Rest len off a b) (parsePrefixesV2S length a n skip >>= f)
      (parsePrefixesV2S length b n skip >>= g) := by
  intro n
  induction n with
  | zero =>
    intro skip
    unfold parsePrefixesV2S
    rw [pure_bind', pure_bind']
    exact h _
  | succ n ih =>
    intro skip
    unfold parsePrefixesV2S
    simp only [bind_assoc', ite_bind, pure_bind']
    refine Held.ite ?_ ?_
    · held_warn h
    · refine Held.sub fun _ _ _ => ?_
      refine Held.idx fun _ => ?_
      refine Held.append (fun _ _ => rfl) (fun s => ?_) (ih _)
      show s.IPv6Prefixes.map _ <+: (s.IPv6Prefixes ++ [_]).map _
      rw [List.map_append]
      exact List.prefix_append _ _

theorem heldPrefixes_parseEIDsS {f g : Nat → SGo ProposalV2 Unit} {len off : Nat} {a b : Slice}
    {length : UInt16} (h : ∀ skip, Held proposalV2Prefixes appends (Rest len off a b) (f skip) (g skip)) :
    ∀ n i skip, Held proposalV2Prefixes appends (Rest len off a b) (parseEIDsS length a n i skip >>= f)
      (parseEIDsS length b n i skip >>= g) := by
  intro n
  induction n with
  | zero =>
    intro i skip
    unfold parseEIDsS
    rw [pure_bind', pure_bind']
    exact h _
  | succ n ih =>
    intro i skip
    unfold parseEIDsS
    simp only [bind_assoc', ite_bind, pure_bind']
    refine Held.ite ?_ ?_
    · held_warn h
    · held_gets
      refine Held.ite ?_ Held.panics
      refine Held.sub fun _ _ _ => ?_
      held_keep
      exact ih _ _

theorem heldPrefixes_parseGIDsS {f g : Unit → SGo ProposalV2 Unit} {len off : Nat} {a b : Slice}
    {length : UInt16} (h : Held proposalV2Prefixes appends (Rest len off a b) (f ()) (g ())) :
    ∀ n i skip, Held proposalV2Prefixes appends (Rest len off a b) (parseGIDsS length a n i skip >>= f)
      (parseGIDsS length b n i skip >>= g) := by
  intro n
  induction n with
  | zero =>
    intro i skip
    unfold parseGIDsS
    rw [pure_bind', pure_bind']
    exact h
  | succ n ih =>
    intro i skip
    unfold parseGIDsS
    simp only [bind_assoc', ite_bind]
    refine Held.ite ?_ ?_
    · refine Held.logs (log_ret _) (log_ret _) ?_
      refine Held.sto fun _ _ _ => ?_
      exact Held.logs (errDump_ret _) (errDump_ret _) h
    · held_gets
      refine Held.ite ?_ Held.panics
      refine Held.number64 fun _ => ?_
      held_keep
      refine Held.number16 fun _ => ?_
      held_keep
      exact ih _ _

theorem heldPrefixes_parseFixedS {len off : Nat} {a b : Slice} {f g : Nat → SGo ProposalV2 Unit}
    (h : ∀ skip, Held proposalV2Prefixes appends (Rest len off a b) (f skip) (g skip)) :
    Held proposalV2Prefixes appends (Rest len off a b) (ProposalV2.parseFixedS a >>= f) (ProposalV2.parseFixedS b >>= g) := by
  unfold ProposalV2.parseFixedS
  simp only [bind_assoc', pure_bind']
  repeat held_step
  exact h _

theorem heldPrefixes_parseIPAreaS {len off : Nat} {a b : Slice} {f g : Option Nat → SGo ProposalV2 Unit}
    (h : ∀ o, Held proposalV2Prefixes appends (Rest len off a b) (f o) (g o)) (skip : Nat) :
    Held proposalV2Prefixes appends (Rest len off a b) (ProposalV2.parseIPAreaS a skip >>= f) (ProposalV2.parseIPAreaS b skip >>= g) := by
  rw [parseIPAreaS_bind, parseIPAreaS_bind]
  held_gets
  held_gets
  refine Held.ite (Held.ite ?_ ?_) (h _)
  · held_warn h
  · repeat held_step
    exact heldPrefixes_parsePrefixesV2S (fun _ => h _) _ _

theorem heldPrefixes_parseV2ExtS {len off : Nat} {a b : Slice} {f g : Option Nat → SGo ProposalV2 Unit}
    (h : ∀ o, Held proposalV2Prefixes appends (Rest len off a b) (f o) (g o)) (skip : Nat) :
    Held proposalV2Prefixes appends (Rest len off a b) (ProposalV2.parseV2ExtS a skip >>= f) (ProposalV2.parseV2ExtS b skip >>= g) := by
  rw [parseV2ExtS_bind, parseV2ExtS_bind]
  held_gets
  held_gets
  refine Held.ite (Held.ite ?_ ?_) (h _)
  · held_warn h
  · repeat held_step
    exact heldPrefixes_parseEIDsS (fun _ => h _) _ _ _

theorem heldPrefixes_parseSMCDExtS {len off : Nat} {a b : Slice} {f g : Option Nat → SGo ProposalV2 Unit}
    (h : ∀ o, Held proposalV2Prefixes appends (Rest len off a b) (f o) (g o)) (skip : Nat) :
    Held proposalV2Prefixes appends (Rest len off a b) (ProposalV2.parseSMCDExtS a skip >>= f) (ProposalV2.parseSMCDExtS b skip >>= g) := by
  rw [parseSMCDExtS_bind, parseSMCDExtS_bind]
  held_gets
  held_gets
  refine Held.ite (Held.ite ?_ ?_) (h _)
  · held_warn h
  · repeat held_step
    exact heldPrefixes_parseGIDsS (h _) _ _ _

/-! ## The EIDs -/

theorem heldEIDs_parsePrefixesV2S {k : Kit (Nat → Option Bytes)} {f g : Nat → SGo ProposalV2 Unit} {len off : Nat} {a b : Slice}
    {length : UInt16} (h : ∀ skip, Held proposalV2EIDs k (Rest len off a b) (f skip) (g skip)) :
    ∀ n skip, Held proposalV2EIDs k (Rest len off a b) (parsePrefixesV2S length a n skip >>= f)
      (parsePrefixesV2S length b n skip >>= g) := by
  intro n
  induction n with
  | zero =>
    intro skip
    unfold parsePrefixesV2S
    rw [pure_bind', pure_bind']
    exact h _
  | succ n ih =>
    intro skip
    unfold parsePrefixesV2S
    simp only [bind_assoc', ite_bind, pure_bind']
    refine Held.ite ?_ ?_
    · held_warn h
    · refine Held.sub fun _ _ _ => ?_
      refine Held.idx fun _ => ?_
      held_keep
      exact ih _

theorem heldEIDs_parseEIDsS {f g : Nat → SGo ProposalV2 Unit} {len off : Nat} {a b : Slice}
    {length : UInt16} (h : ∀ m skip, Held proposalV2EIDs (entries before m) (Rest len off a b) (f skip) (g skip)) :
    ∀ n i skip, Held proposalV2EIDs (entries before i) (Rest len off a b) (parseEIDsS length a n i skip >>= f)
      (parseEIDsS length b n i skip >>= g) := by
  intro n
  induction n with
  | zero =>
    intro i skip
    unfold parseEIDsS
    rw [pure_bind', pure_bind']
    exact h _ _
  | succ n ih =>
    intro i skip
    unfold parseEIDsS
    simp only [bind_assoc', ite_bind, pure_bind']
    refine Held.ite ?_ ?_
    · refine Held.logs (log_ret _) (log_ret _) ?_
      refine Held.sto fun _ _ _ => ?_
      exact Held.logs (errDump_ret _) (errDump_ret _) (h _ _)
    · held_gets
      refine Held.ite ?_ Held.panics
      refine Held.sub fun _ _ _ => ?_
      refine Held.fill_assign (i + 1) (Q := fun j => j = i) (fun _ _ => rfl) ?_ ?_ (fun s j hj => area_modify hj) (ih _ _)
      · intro j h1 h2
        unfold before at h1
        omega
      · intro j
        unfold before
        omega

theorem heldEIDs_parseGIDsS {k : Kit (Nat → Option Bytes)} {f g : Unit → SGo ProposalV2 Unit} {len off : Nat} {a b : Slice}
    {length : UInt16} (h : Held proposalV2EIDs k (Rest len off a b) (f ()) (g ())) :
    ∀ n i skip, Held proposalV2EIDs k (Rest len off a b) (parseGIDsS length a n i skip >>= f)
      (parseGIDsS length b n i skip >>= g) := by
  intro n
  induction n with
  | zero =>
    intro i skip
    unfold parseGIDsS
    rw [pure_bind', pure_bind']
    exact h
  | succ n ih =>
    intro i skip
    unfold parseGIDsS
    simp only [bind_assoc', ite_bind]
    refine Held.ite ?_ ?_
    · refine Held.logs (log_ret _) (log_ret _) ?_
      refine Held.sto fun _ _ _ => ?_
      exact Held.logs (errDump_ret _) (errDump_ret _) h
    · held_gets
      refine Held.ite ?_ Held.panics
      refine Held.number64 fun _ => ?_
      held_keep
      refine Held.number16 fun _ => ?_
      held_keep
      exact ih _ _

theorem heldEIDs_parseFixedS {k : Kit (Nat → Option Bytes)} {len off : Nat} {a b : Slice} {f g : Nat → SGo ProposalV2 Unit}
    (h : ∀ skip, Held proposalV2EIDs k (Rest len off a b) (f skip) (g skip)) :
    Held proposalV2EIDs k (Rest len off a b) (ProposalV2.parseFixedS a >>= f) (ProposalV2.parseFixedS b >>= g) := by
  unfold ProposalV2.parseFixedS
  simp only [bind_assoc', pure_bind']
  repeat held_step
  exact h _

theorem heldEIDs_parseIPAreaS {k : Kit (Nat → Option Bytes)} {len off : Nat} {a b : Slice} {f g : Option Nat → SGo ProposalV2 Unit}
    (h : ∀ o, Held proposalV2EIDs k (Rest len off a b) (f o) (g o)) (skip : Nat) :
    Held proposalV2EIDs k (Rest len off a b) (ProposalV2.parseIPAreaS a skip >>= f) (ProposalV2.parseIPAreaS b skip >>= g) := by
  rw [parseIPAreaS_bind, parseIPAreaS_bind]
  held_gets
  held_gets
  refine Held.ite (Held.ite ?_ ?_) (h _)
  · held_warn h
  · repeat held_step
    exact heldEIDs_parsePrefixesV2S (fun _ => h _) _ _

theorem heldEIDs_parseV2ExtS {len off : Nat} {a b : Slice} {f g : Option Nat → SGo ProposalV2 Unit}
    (h : ∀ m o, Held proposalV2EIDs (entries before m) (Rest len off a b) (f o) (g o)) (skip : Nat) :
    Held proposalV2EIDs (entries before 0) (Rest len off a b) (ProposalV2.parseV2ExtS a skip >>= f) (ProposalV2.parseV2ExtS b skip >>= g) := by
  rw [parseV2ExtS_bind, parseV2ExtS_bind]
  held_gets
  held_gets
  refine Held.ite (Held.ite ?_ ?_) (h _ _)
  · refine Held.logs (log_ret _) (log_ret _) ?_
    refine Held.sto fun _ _ _ => ?_
    exact Held.logs (errDump_ret _) (errDump_ret _) (h _ _)
  · repeat held_step
    exact heldEIDs_parseEIDsS (fun _ _ => h _ _) _ _ _

theorem heldEIDs_parseSMCDExtS {k : Kit (Nat → Option Bytes)} {len off : Nat} {a b : Slice} {f g : Option Nat → SGo ProposalV2 Unit}
    (h : ∀ o, Held proposalV2EIDs k (Rest len off a b) (f o) (g o)) (skip : Nat) :
    Held proposalV2EIDs k (Rest len off a b) (ProposalV2.parseSMCDExtS a skip >>= f) (ProposalV2.parseSMCDExtS b skip >>= g) := by
  rw [parseSMCDExtS_bind, parseSMCDExtS_bind]
  held_gets
  held_gets
  refine Held.ite (Held.ite ?_ ?_) (h _)
  · held_warn h
  · repeat held_step
    exact heldEIDs_parseGIDsS (h _) _ _ _

/-! ## The GIDs -/

theorem heldGIDs_parsePrefixesV2S {k : Kit (Nat × Nat → Option Nat)} {f g : Nat → SGo ProposalV2 Unit} {len off : Nat} {a b : Slice}
    {length : UInt16} (h : ∀ skip, Held proposalV2GIDs k (Rest len off a b) (f skip) (g skip)) :
    ∀ n skip, Held proposalV2GIDs k (Rest len off a b) (parsePrefixesV2S length a n skip >>= f)
      (parsePrefixesV2S length b n skip >>= g) := by
  intro n
  induction n with
  | zero =>
    intro skip
    unfold parsePrefixesV2S
    rw [pure_bind', pure_bind']
    exact h _
  | succ n ih =>
    intro skip
    unfold parsePrefixesV2S
    simp only [bind_assoc', ite_bind, pure_bind']
    refine Held.ite ?_ ?_
    · held_warn h
    · refine Held.sub fun _ _ _ => ?_
      refine Held.idx fun _ => ?_
      held_keep
      exact ih _

theorem heldGIDs_parseEIDsS {k : Kit (Nat × Nat → Option Nat)} {f g : Nat → SGo ProposalV2 Unit} {len off : Nat} {a b : Slice}
    {length : UInt16} (h : ∀ skip, Held proposalV2GIDs k (Rest len off a b) (f skip) (g skip)) :
    ∀ n i skip, Held proposalV2GIDs k (Rest len off a b) (parseEIDsS length a n i skip >>= f)
      (parseEIDsS length b n i skip >>= g) := by
  intro n
  induction n with
  | zero =>
    intro i skip
    unfold parseEIDsS
    rw [pure_bind', pure_bind']
    exact h _
  | succ n ih =>
    intro i skip
    unfold parseEIDsS
    simp only [bind_assoc', ite_bind, pure_bind']
    refine Held.ite ?_ ?_
    · held_warn h
    · held_gets
      refine Held.ite ?_ Held.panics
      refine Held.sub fun _ _ _ => ?_
      held_keep
      exact ih _ _

theorem heldGIDs_parseGIDsS {f g : Unit → SGo ProposalV2 Unit} {len off : Nat} {a b : Slice}
    {length : UInt16} (h : ∀ m, Held proposalV2GIDs (entries before2 m) (Rest len off a b) (f ()) (g ())) :
    ∀ n i skip, Held proposalV2GIDs (entries before2 (i, 0)) (Rest len off a b) (parseGIDsS length a n i skip >>= f)
      (parseGIDsS length b n i skip >>= g) := by
  intro n
  induction n with
  | zero =>
    intro i skip
    unfold parseGIDsS
    rw [pure_bind', pure_bind']
    exact h _
  | succ n ih =>
    intro i skip
    unfold parseGIDsS
    simp only [bind_assoc', ite_bind]
    refine Held.ite ?_ ?_
    · refine Held.logs (log_ret _) (log_ret _) ?_
      refine Held.sto fun _ _ _ => ?_
      exact Held.logs (errDump_ret _) (errDump_ret _) (h _)
    · held_gets
      refine Held.ite ?_ Held.panics
      refine Held.number64 fun _ => ?_
      refine Held.fill_assign (i, 1) (Q := fun ij => ij.1 = i ∧ ij.2 = 0) (fun _ _ => rfl) ?_ ?_ ?_ ?_
      · intro ij h1 h2
        unfold before2 at h1
        omega
      · intro ij
        unfold before2
        omega
      · rintro s ⟨n, j⟩ hj
        refine entry_modify fun hn _ => ?_
        rcases j with _ | j
        · exact absurd ⟨hn, rfl⟩ hj
        · rfl
      refine Held.number16 fun _ => ?_
      refine Held.fill_assign (i + 1, 0) (Q := fun ij => ij.1 = i ∧ 0 < ij.2) (fun _ _ => rfl) ?_ ?_ ?_ (ih _ _)
      · intro ij h1 h2
        unfold before2 at h1
        omega
      · intro ij
        unfold before2
        omega
      · rintro s ⟨n, j⟩ hj
        refine entry_modify fun hn _ => ?_
        rcases j with _ | j
        · rfl
        · exact absurd ⟨hn, Nat.succ_pos _⟩ hj

theorem heldGIDs_parseFixedS {k : Kit (Nat × Nat → Option Nat)} {len off : Nat} {a b : Slice} {f g : Nat → SGo ProposalV2 Unit}
    (h : ∀ skip, Held proposalV2GIDs k (Rest len off a b) (f skip) (g skip)) :
    Held proposalV2GIDs k (Rest len off a b) (ProposalV2.parseFixedS a >>= f) (ProposalV2.parseFixedS b >>= g) := by
  unfold ProposalV2.parseFixedS
  simp only [bind_assoc', pure_bind']
  repeat held_step
  exact h _

theorem heldGIDs_parseIPAreaS {k : Kit (Nat × Nat → Option Nat)} {len off : Nat} {a b : Slice} {f g : Option Nat → SGo ProposalV2 Unit}
    (h : ∀ o, Held proposalV2GIDs k (Rest len off a b) (f o) (g o)) (skip : Nat) :
    Held proposalV2GIDs k (Rest len off a b) (ProposalV2.parseIPAreaS a skip >>= f) (ProposalV2.parseIPAreaS b skip >>= g) := by
  rw [parseIPAreaS_bind, parseIPAreaS_bind]
  held_gets
  held_gets
  refine Held.ite (Held.ite ?_ ?_) (h _)
  · held_warn h
  · repeat held_step
    exact heldGIDs_parsePrefixesV2S (fun _ => h _) _ _

theorem heldGIDs_parseV2ExtS {k : Kit (Nat × Nat → Option Nat)} {len off : Nat} {a b : Slice} {f g : Option Nat → SGo ProposalV2 Unit}
    (h : ∀ o, Held proposalV2GIDs k (Rest len off a b) (f o) (g o)) (skip : Nat) :
    Held proposalV2GIDs k (Rest len off a b) (ProposalV2.parseV2ExtS a skip >>= f) (ProposalV2.parseV2ExtS b skip >>= g) := by
  rw [parseV2ExtS_bind, parseV2ExtS_bind]
  held_gets
  held_gets
  refine Held.ite (Held.ite ?_ ?_) (h _)
  · held_warn h
  · repeat held_step
    exact heldGIDs_parseEIDsS (fun _ => h _) _ _ _

theorem heldGIDs_parseSMCDExtS {len off : Nat} {a b : Slice} {f g : Option Nat → SGo ProposalV2 Unit}
    (h : ∀ m o, Held proposalV2GIDs (entries before2 m) (Rest len off a b) (f o) (g o)) (skip : Nat) :
    Held proposalV2GIDs (entries before2 (0, 0)) (Rest len off a b) (ProposalV2.parseSMCDExtS a skip >>= f) (ProposalV2.parseSMCDExtS b skip >>= g) := by
  rw [parseSMCDExtS_bind, parseSMCDExtS_bind]
  held_gets
  held_gets
  refine Held.ite (Held.ite ?_ ?_) (h _ _)
  · refine Held.logs (log_ret _) (log_ret _) ?_
    refine Held.sto fun _ _ _ => ?_
    exact Held.logs (errDump_ret _) (errDump_ret _) (h _ _)
  · repeat held_step
    exact heldGIDs_parseGIDsS (fun _ => h _ _) _ _ _

/-! ## The whole message -/

theorem proposalV2_between {m s' m' : ProposalV2} {short long : Slice} {l l' : List Bytes} (h : Part short long)
    (hs : ProposalV2.parseS short m = (.panic l, s')) (hl : m.parse long = .ret l' m') :
    Between proposalV2Ways (proposalV2 m) (proposalV2 m') (proposalV2 s') := by
  rw [← ProposalV2.final_parseS] at hl
  unfold ProposalV2.parseS at hs hl
  rw [within_headerS] at hs hl
  · refine between_without (V := proposalV2View) (ks := [20, 30, 33]) (ways := [(9, .fresh 16), (10, .fresh 6), (16, .fresh 4)]) ?_
      (by decide) ?_
    · simp only [← proposalV2Others_eq]
      refine cut_whole (V := proposalV2Others) h ?_ hs hl
      repeat cut_step
      refine Cut.ite ?_ ?_
      · cut_reject
      refine cut_parseFixedS fun _ => ?_
      refine cut_parseIPAreaS (fun o => ?_) _
      rcases o with _ | skip
      · exact Cut.done (fun _ _ h => by cases h) fun _ _ _ => rfl
      dsimp only
      refine Cut.weaken (j := 21) (by decide) id ?_
      refine cut_parseV2ExtS (fun o => ?_) _
      rcases o with _ | skip
      · exact Cut.done (fun _ _ h => by cases h) fun _ _ _ => rfl
      dsimp only
      refine Cut.weaken (j := 31) (by decide) id ?_
      refine cut_parseSMCDExtS (fun o => ?_) _
      rcases o with _ | skip
      · exact Cut.done (fun _ _ h => by cases h) fun _ _ _ => rfl
      cut_trail 34
    have k1 : appends.after (proposalV2Prefixes.get m) (proposalV2Prefixes.get m') (proposalV2Prefixes.get s') := by
      refine held_whole (S := proposalV2Prefixes) (k := appends) h ?_ hs hl
      repeat held_step
      refine Held.ite ?_ ?_
      · held_reject
      refine heldPrefixes_parseFixedS fun _ => ?_
      refine heldPrefixes_parseIPAreaS (fun o => ?_) _
      rcases o with _ | skip
      · held_trail
      dsimp only
      refine heldPrefixes_parseV2ExtS (fun o => ?_) _
      rcases o with _ | skip
      · held_trail
      dsimp only
      refine heldPrefixes_parseSMCDExtS (fun o => ?_) _
      rcases o with _ | skip
      · held_trail
      held_trail
    have k2 : (entries before 0).after (proposalV2EIDs.get m) (proposalV2EIDs.get m') (proposalV2EIDs.get s') := by
      refine held_whole (S := proposalV2EIDs) (k := (entries before 0)) h ?_ hs hl
      repeat held_step
      refine Held.ite ?_ ?_
      · held_reject
      refine heldEIDs_parseFixedS fun _ => ?_
      refine heldEIDs_parseIPAreaS (fun o => ?_) _
      rcases o with _ | skip
      · held_trail
      dsimp only
      refine heldEIDs_parseV2ExtS (fun P o => ?_) _
      rcases o with _ | skip
      · held_trail
      dsimp only
      refine heldEIDs_parseSMCDExtS (fun o => ?_) _
      rcases o with _ | skip
      · held_trail
      held_trail
    have k3 : (entries before2 (0, 0)).after (proposalV2GIDs.get m) (proposalV2GIDs.get m') (proposalV2GIDs.get s') := by
      refine held_whole (S := proposalV2GIDs) (k := (entries before2 (0, 0))) h ?_ hs hl
      repeat held_step
      refine Held.ite ?_ ?_
      · held_reject
      refine heldGIDs_parseFixedS fun _ => ?_
      refine heldGIDs_parseIPAreaS (fun o => ?_) _
      rcases o with _ | skip
      · held_trail
      dsimp only
      refine heldGIDs_parseV2ExtS (fun o => ?_) _
      rcases o with _ | skip
      · held_trail
      dsimp only
      refine heldGIDs_parseSMCDExtS (fun P o => ?_) _
      rcases o with _ | skip
      · held_trail
      held_trail
    intro k hk
    simp only [List.mem_cons, List.not_mem_nil, or_false] at hk
    rcases hk with rfl | rfl | rfl
    · exact ⟨.appended, by decide, _, _, _, rfl, rfl, rfl, k1.1, k1.2⟩
    · exact ⟨.each, by decide, each_after k2⟩
    · exact ⟨.numbers, by decide, numbers_after k3⟩
  all_goals (intros; rfl)

end SMC.Tail
