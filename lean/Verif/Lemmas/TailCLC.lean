import Verif.Lemmas.TailLLC
import Verif.Lemmas.CrashCLC
import Verif.Lemmas.LogSize
/-!
# The CLC messages read their fields one after another
-/

namespace SMC.Tail
open SGo Left CLC

theorem within_headerS {σ : Type} {part : σ → Header} {put : Header → σ → σ} (h1 : ∀ t s, part (put t s) = t)
    (h2 : ∀ t t' s, put t (put t' s) = put t s) (h3 : ∀ s, put (part s) s = s) (buf : Slice) (f : Unit → SGo σ Unit) :
    (within part put (Header.parseS buf) >>= f) = (do
      let x ← liftM (buf.sto EyecatcherLen)
      assign fun s => put { part s with Eyecatcher := copyInto (part s).Eyecatcher x.vis } s
      let x ← liftM (buf.idx 4)
      assign fun s => put { part s with Typ := x } s
      let x ← liftM (buf.sub 5 7)
      let x ← liftM (be16 x)
      assign fun s => put { part s with Length := x } s
      let bitfield ← liftM (buf.idx 7)
      assign fun s => put { part s with Version := (bitfield &&& 0b11110000) >>> 4 } s
      assign fun s => put { part s with Flag := (bitfield &&& 0b00001000) >>> 3 } s
      assign fun s => put { part s with rsv := (bitfield &&& 0b00000100) >>> 2 } s
      assign fun s => put { part s with Pathv2 := (bitfield &&& 0b00001100) >>> 2 } s
      assign fun s => put { part s with Path := bitfield &&& 0b00000011 } s
      f ()) := by
  unfold Header.parseS
  simp only [within_bind h1 h2, within_lift h3, within_assign, bind_assoc']

theorem errDump_ret (s : Slice) : ∃ l, errDump s = .ret l () := ⟨_, errDump_eq s⟩

theorem log_ret (b : Bytes) : ∃ l, Go.log b = .ret l () := ⟨_, rfl⟩

/-- the end of a method that rejects the message -/
macro "tail_reject" : tactic => `(tactic| (
  refine Tail.weaken (j := 100) (by decide) id ?_
  repeat tail_gets
  refine Tail.logs (log_ret _) (log_ret _) ?_
  refine Tail.sto (by tail_lost) fun _ _ _ => ?_
  exact Tail.logs_last (errDump_ret _)))

/-- the trailer is the last field -/
theorem tail_trailer {σ ρ : Type} {V : View σ ρ} {lost : Nat → Prop} {i k : Nat} {r : Prop} {part : σ → Bytes} {put : Bytes → σ → σ}
    {a b : Slice} (hi : i ≤ k) (hF : ∀ t s, ∃ a, V.fields (put t s) = (V.fields s).set k a)
    (hraw : ∀ t s, V.raw (put t s) = V.raw s) (hl : lost k) :
    Tail V lost i r (within part put (trailerParseS a)) (within part put (trailerParseS b)) := by
  have only : ∀ x : SGo Bytes Unit, Only V k (within part put x) := by
    intro x s n hn
    obtain ⟨a, ha⟩ := hF (x (part s)).2 s
    show (V.fields (put (x (part s)).2 s))[n]? = _
    rw [ha, List.getElem?_set_ne (Ne.symm hn)]
  exact Tail.last hi (only _) (only _) (fun s => hraw _ _) hl

macro "tail_trail" k:num : tactic => `(tactic| (
  refine tail_trailer (k := $k) (by decide) ?_ ?_ ?_
  · exact fun _ _ => ⟨_, rfl⟩
  · exact fun _ _ => rfl
  · exact fun e he => by cases he))

def declineView : View Decline Slice where
  fields := decline
  raw m := m.raw
  put r m := { m with raw := r }
  fields_put _ _ := rfl
  raw_put _ _ := rfl
  put_put _ _ _ := rfl

theorem decline_left {m s' m' : Decline} {short long : Slice} {l l' : List Bytes} (h : Part short long)
    (hs : Decline.parseS short m = (.panic l, s')) (hl : m.parse long = .ret l' m') :
    Left.Left declineEnds short.len (decline m) (decline m') (decline s') ∧ s'.raw = short := by
  rw [← Decline.final_parseS] at hl
  unfold Decline.parseS at hs hl
  rw [within_headerS] at hs hl
  · refine whole (V := declineView) (by decide) h ?_ hs hl
    repeat tail_step
    refine Tail.ite ?_ ?_
    · tail_reject
    repeat tail_step
    tail_trail 11
  all_goals (intros; rfl)

def declineV2View : View DeclineV2 Slice where
  fields := declineV2
  raw m := m.raw
  put r m := { m with raw := r }
  fields_put _ _ := rfl
  raw_put _ _ := rfl
  put_put _ _ _ := rfl

theorem declineV2_left {m s' m' : DeclineV2} {short long : Slice} {l l' : List Bytes} (h : Part short long)
    (hs : DeclineV2.parseS short m = (.panic l, s')) (hl : m.parse long = .ret l' m') :
    Left.Left declineEnds short.len (declineV2 m) (declineV2 m') (declineV2 s') ∧ s'.raw = short := by
  rw [← DeclineV2.final_parseS] at hl
  unfold DeclineV2.parseS at hs hl
  rw [within_headerS] at hs hl
  · refine whole (V := declineV2View) (by decide) h ?_ hs hl
    repeat tail_step
    refine Tail.ite ?_ ?_
    · tail_reject
    repeat tail_step
    tail_trail 11
  all_goals (intros; rfl)

def acceptSMCRView : View AcceptSMCR Slice where
  fields := acceptSMCR
  raw m := m.raw
  put r m := { m with raw := r }
  fields_put _ _ := rfl
  raw_put _ _ := rfl
  put_put _ _ _ := rfl

theorem acceptSMCR_left {m s' m' : AcceptSMCR} {short long : Slice} {l l' : List Bytes} (h : Part short long)
    (hs : AcceptSMCR.parseS short m = (.panic l, s')) (hl : m.parse long = .ret l' m') :
    Left.Left acceptSMCREnds short.len (acceptSMCR m) (acceptSMCR m') (acceptSMCR s') ∧ s'.raw = short := by
  rw [← AcceptSMCR.final_parseS] at hl
  unfold AcceptSMCR.parseS at hs hl
  rw [within_headerS] at hs hl
  · refine whole (V := acceptSMCRView) (by decide) h ?_ hs hl
    repeat tail_step
    refine Tail.ite ?_ ?_
    · tail_reject
    repeat tail_step
    tail_trail 21
  all_goals (intros; rfl)

def acceptSMCDView : View AcceptSMCD Slice where
  fields := acceptSMCD
  raw m := m.raw
  put r m := { m with raw := r }
  fields_put _ _ := rfl
  raw_put _ _ := rfl
  put_put _ _ _ := rfl

theorem acceptSMCD_left {m s' m' : AcceptSMCD} {short long : Slice} {l l' : List Bytes} (h : Part short long)
    (hs : AcceptSMCD.parseS short m = (.panic l, s')) (hl : m.parse long = .ret l' m') :
    Left.Left acceptSMCDEnds short.len (acceptSMCD m) (acceptSMCD m') (acceptSMCD s') ∧ s'.raw = short := by
  rw [← AcceptSMCD.final_parseS] at hl
  unfold AcceptSMCD.parseS at hs hl
  rw [within_headerS] at hs hl
  · refine whole (V := acceptSMCDView) (by decide) h ?_ hs hl
    repeat tail_step
    refine Tail.ite ?_ ?_
    · tail_reject
    repeat tail_step
    tail_trail 16
  all_goals (intros; rfl)

/-! ## Later fields -/

theorem ite_bind {σ α β : Type} {c : Prop} [Decidable c] (x y : SGo σ α) (f : α → SGo σ β) :
    (if c then x else y) >>= f = if c then x >>= f else y >>= f := by
  split <;> rfl

/-- `x` rejects the message only if `y` does or if the buffer is too short. -/
theorem Tail.short {σ ρ α β : Type} {V : View σ ρ} {lost : Nat → Prop} {i : Nat} {r A B C : Prop} [Decidable (A ∨ B)]
    [Decidable (A ∨ C)] {x x' : SGo σ α} {y y' : SGo σ β} (hx : ∀ s, (x s).2 = s) (hl : lost i) (hBC : r → C → B)
    (h : Tail V lost i r x y) (h' : Tail V lost i r x' y') :
    Tail V lost i r (if A ∨ B then x else x') (if A ∨ C then y else y') := by
  by_cases h1 : A ∨ B <;> by_cases h2 : A ∨ C
  · rw [if_pos h1, if_pos h2]
    exact h
  · rw [if_pos h1, if_neg h2]
    exact Tail.stop hx h'.1 hl
  · rw [if_neg h1, if_pos h2]
    exact ⟨h.1, fun hr => absurd (h2.imp_right (hBC hr)) h1⟩
  · rw [if_neg h1, if_neg h2]
    exact h'

def acceptSMCDv2View : View AcceptSMCDv2 Slice where
  fields := acceptSMCDv2
  raw m := m.raw
  put r m := { m with raw := r }
  fields_put _ _ := rfl
  raw_put _ _ := rfl
  put_put _ _ _ := rfl


theorem rejects {σ : Type} (typ : σ → UInt8) (msg : UInt8 → Bytes) (p : Go Slice) (s : σ) :
    ((do
      let typ ← SGo.gets typ
      Go.log (msg typ)
      errDump (← p) : SGo σ Unit) s).2 = s := by
  rcases p with ⟨l, x⟩ | l <;> rfl

theorem acceptSMCDv2_left {m s' m' : AcceptSMCDv2} {short long : Slice} {l l' : List Bytes} (h : Part short long)
    (hs : AcceptSMCDv2.parseS short m = (.panic l, s')) (hl : m.parse long = .ret l' m') :
    Left.Left headerEnds short.len (acceptSMCDv2 m) (acceptSMCDv2 m') (acceptSMCDv2 s') ∧ s'.raw = short := by
  rw [← AcceptSMCDv2.final_parseS] at hl
  unfold AcceptSMCDv2.parseS at hs hl
  rw [within_headerS] at hs hl
  · refine whole (V := acceptSMCDv2View) (by decide) h ?_ hs hl
    repeat tail_step
    refine Tail.weaken (j := 8) (by decide) id ?_
    refine Tail.short ?_ (fun e he => by cases he) ?_ ?_ ?_
    · exact fun s => rejects _ _ _ s
    · intro hr hc
      have := hr.1.1.length_le
      unfold Slice.len at hc ⊢
      omega
    · tail_reject
    repeat tail_step
    dsimp only
    refine Tail.ite ?_ ?_
    · unfold AcceptSMCDv2.parseFCES
      simp only [bind_assoc']
      repeat tail_step
      tail_trail 23
    · rw [pure_bind', pure_bind']
      tail_trail 23
  all_goals (intros; rfl)

def proposalView : View Proposal Slice where
  fields := proposal
  raw m := m.raw
  put r m := { m with raw := r }
  fields_put _ _ := rfl
  raw_put _ _ := rfl
  put_put _ _ _ := rfl

theorem tail_parsePrefixesS {lost : Nat → Prop} (hk : lost 18) {f g : Unit → SGo Proposal Unit} {len off : Nat} {a b : Slice}
    {length : UInt16} (h : Tail proposalView lost 18 (Rest len off a b) (f ()) (g ())) :
    ∀ n skip, Tail proposalView lost 18 (Rest len off a b) (parsePrefixesS length a n skip >>= f)
      (parsePrefixesS length b n skip >>= g) := by
  intro n
  induction n with
  | zero =>
    intro skip
    unfold parsePrefixesS
    rw [pure_bind', pure_bind']
    exact h
  | succ n ih =>
    intro skip
    unfold parsePrefixesS
    simp only [bind_assoc', ite_bind]
    refine Tail.ite ?_ ?_
    · refine Tail.logs (log_ret _) (log_ret _) ?_
      refine Tail.sto (fun _ => hk) fun _ _ _ => ?_
      exact Tail.logs (errDump_ret _) (errDump_ret _) h
    · refine Tail.sub (Nat.le_add_right _ _) (fun _ => hk) fun _ _ _ => ?_
      refine Tail.idx (fun _ => hk) fun _ => ?_
      tail_assign
      exact ih _

theorem tail_parseSMCDS {len off : Nat} {a b : Slice} {f g : Nat → SGo Proposal Unit} {ends : List Nat}
    (h12 : ends[12]? = none) (h13 : ends[13]? = none)
    (h : ∀ skip, Tail proposalView (fun k => ∀ e, ends[k]? = some e → len < e) 13 (Rest len off a b) (f skip) (g skip)) :
    ∀ skip, Tail proposalView (fun k => ∀ e, ends[k]? = some e → len < e) 12 (Rest len off a b)
      (Proposal.parseSMCDS a skip >>= f) (Proposal.parseSMCDS b skip >>= g) := by
  intro skip
  unfold Proposal.parseSMCDS
  simp only [bind_assoc', ite_bind, pure_bind']
  tail_gets
  refine Tail.ite ?_ ?_
  · refine Tail.number64 (fun _ e he => ?_) fun _ => ?_
    · rw [h12] at he
      cases he
    tail_assign
    tail_next
    refine Tail.sub (Nat.le_add_right _ _) (fun _ e he => ?_) fun _ _ _ => ?_
    · rw [h13] at he
      cases he
    tail_assign
    exact h _
  · tail_next
    exact h _

theorem proposal_left {m s' m' : Proposal} {short long : Slice} {l l' : List Bytes} (h : Part short long)
    (hs : Proposal.parseS short m = (.panic l, s')) (hl : m.parse long = .ret l' m') :
    Left.Left proposalEnds short.len (proposal m) (proposal m') (proposal s') ∧ s'.raw = short := by
  rw [← Proposal.final_parseS] at hl
  unfold Proposal.parseS at hs hl
  rw [within_headerS] at hs hl
  · refine whole (V := proposalView) (by decide) h ?_ hs hl
    repeat tail_step
    refine Tail.ite ?_ ?_
    · tail_reject
    dsimp only
    repeat tail_step
    tail_next
    refine tail_parseSMCDS (ends := proposalEnds) rfl rfl (fun skip => ?_) _
    tail_gets
    refine Tail.ite ?_ ?_
    · tail_reject
    repeat tail_step
    tail_next
    refine tail_parsePrefixesS (fun e he => by cases he) ?_ _ _
    tail_trail 19
  all_goals (intros; rfl)

def proposalV2View : View ProposalV2 Slice where
  fields := proposalV2
  raw m := m.raw
  put r m := { m with raw := r }
  fields_put _ _ := rfl
  raw_put _ _ := rfl
  put_put _ _ _ := rfl

theorem tail_parsePrefixesV2S {lost : Nat → Prop} (hk : lost 20) {f g : Nat → SGo ProposalV2 Unit} {len off : Nat} {a b : Slice}
    {length : UInt16} (h : ∀ skip, Tail proposalV2View lost 20 (Rest len off a b) (f skip) (g skip)) :
    ∀ n skip, Tail proposalV2View lost 20 (Rest len off a b) (parsePrefixesV2S length a n skip >>= f)
      (parsePrefixesV2S length b n skip >>= g) := by
  intro n
  induction n with
  | zero =>
    intro skip
    unfold parsePrefixesV2S
    rw [pure_bind', pure_bind']
    exact h _
  | succ n ih =>
    intro skip
    unfold parsePrefixesV2S
    simp only [bind_assoc', ite_bind, pure_bind']
    refine Tail.ite ?_ ?_
    · refine Tail.logs (log_ret _) (log_ret _) ?_
      refine Tail.sto (fun _ => hk) fun _ _ _ => ?_
      exact Tail.logs (errDump_ret _) (errDump_ret _) (h _)
    · refine Tail.sub (Nat.le_add_right _ _) (fun _ => hk) fun _ _ _ => ?_
      refine Tail.idx (fun _ => hk) fun _ => ?_
      tail_assign
      exact ih _

theorem tail_parseEIDsS {lost : Nat → Prop} (hk : lost 30) {f g : Nat → SGo ProposalV2 Unit} {len off : Nat} {a b : Slice}
    {length : UInt16} (h : ∀ skip, Tail proposalV2View lost 30 (Rest len off a b) (f skip) (g skip)) :
    ∀ n i skip, Tail proposalV2View lost 30 (Rest len off a b) (parseEIDsS length a n i skip >>= f)
      (parseEIDsS length b n i skip >>= g) := by
  intro n
  induction n with
  | zero =>
    intro i skip
    unfold parseEIDsS
    rw [pure_bind', pure_bind']
    exact h _
  | succ n ih =>
    intro i skip
    unfold parseEIDsS
    simp only [bind_assoc', ite_bind, pure_bind']
    refine Tail.ite ?_ ?_
    · refine Tail.logs (log_ret _) (log_ret _) ?_
      refine Tail.sto (fun _ => hk) fun _ _ _ => ?_
      exact Tail.logs (errDump_ret _) (errDump_ret _) (h _)
    · tail_gets
      refine Tail.ite ?_ Tail.panics
      refine Tail.sub (Nat.le_add_right _ _) (fun _ => hk) fun _ _ _ => ?_
      tail_assign
      exact ih _ _

theorem tail_parseGIDsS {lost : Nat → Prop} (hk : lost 33) {f g : Unit → SGo ProposalV2 Unit} {len off : Nat} {a b : Slice}
    {length : UInt16} (h : Tail proposalV2View lost 33 (Rest len off a b) (f ()) (g ())) :
    ∀ n i skip, Tail proposalV2View lost 33 (Rest len off a b) (parseGIDsS length a n i skip >>= f)
      (parseGIDsS length b n i skip >>= g) := by
  intro n
  induction n with
  | zero =>
    intro i skip
    unfold parseGIDsS
    rw [pure_bind', pure_bind']
    exact h
  | succ n ih =>
    intro i skip
    unfold parseGIDsS
    simp only [bind_assoc', ite_bind]
    refine Tail.ite ?_ ?_
    · refine Tail.logs (log_ret _) (log_ret _) ?_
      refine Tail.sto (fun _ => hk) fun _ _ _ => ?_
      exact Tail.logs (errDump_ret _) (errDump_ret _) h
    · tail_gets
      refine Tail.ite ?_ Tail.panics
      refine Tail.number64 (fun _ => hk) fun _ => ?_
      tail_assign
      refine Tail.number16 (fun _ => hk) fun _ => ?_
      tail_assign
      exact ih _ _

/-- the fields with places in the first 80 bytes -/
abbrev Lost (len k : Nat) : Prop := ∀ e, proposalV2Ends[k]? = some e → len < e

/-- a message about too few bytes -/
macro "tail_warn" h:ident : tactic => `(tactic| (
  refine Tail.logs (log_ret _) (log_ret _) ?_
  refine Tail.sto (by tail_lost) fun _ _ _ => ?_
  exact Tail.logs (errDump_ret _) (errDump_ret _) ($h _)))

/-! The parts of a Proposal of version 2, followed by the rest of the method -/

theorem parseIPAreaS_bind (buf : Slice) (skip : Nat) (f : Option Nat → SGo ProposalV2 Unit) :
    (ProposalV2.parseIPAreaS buf skip >>= f) = (do
      let path ← gets (·.hdr.Path)
      let length ← gets (·.hdr.Length)
      if path ≠ SMCTypeN then
        if (length.toNat : Int) - skip < 4 + 1 + 2 + 1 + TrailerLen then
          Go.log (go! "Error parsing CLC Proposal v2: IP Area Offset too big")
          errDump (← buf.sto length.toNat)
          f none
        else
          assign ({ · with Prefix := zeros 4 })
          let b ← buf.sub skip (skip + 4)
          assign fun p => { p with Prefix := copyInto p.Prefix b.vis }
          let skip := skip + 4
          let x ← buf.idx skip
          assign ({ · with PrefixLen := x })
          let skip := skip + 1
          let x ← buf.sub skip (skip + 2)
          assign fun p => { p with rsv2 := copyInto p.rsv2 x.vis }
          let skip := skip + 2
          let x ← buf.idx skip
          assign ({ · with IPv6PrefixesCnt := x })
          let skip := skip + 1
          let length ← gets (·.hdr.Length)
          let n ← gets (·.IPv6PrefixesCnt)
          let skip ← parsePrefixesV2S length buf n.toNat skip
          f (some skip)
      else
        f (some skip)) := by
  unfold ProposalV2.parseIPAreaS
  simp only [bind_assoc', ite_bind, pure_bind']

theorem parseV2ExtS_bind (buf : Slice) (skip : Nat) (f : Option Nat → SGo ProposalV2 Unit) :
    (ProposalV2.parseV2ExtS buf skip >>= f) = (do
      let pathv2 ← gets (·.hdr.Pathv2)
      let length ← gets (·.hdr.Length)
      if pathv2 ≠ SMCTypeN then
        if (length.toNat : Int) - skip < ProposalV2ExtLen + TrailerLen then
          Go.log (go! "Error parsing CLC Proposal v2: Not enough space for Proposal v2 Extension")
          errDump (← buf.sto length.toNat)
          f none
        else
          let x ← buf.idx skip
          assign ({ · with EIDNumber := x })
          let skip := skip + 1
          let x ← buf.idx skip
          assign ({ · with GIDNumber := x })
          let skip := skip + 1
          let x ← buf.idx skip
          assign ({ · with rsv3 := x })
          let skip := skip + 1
          let x ← buf.idx skip
          assign ({ · with Release := x >>> 4 })
          let x ← buf.idx skip
          assign ({ · with rsv4 := (x &&& 0b00001110) >>> 1 })
          let x ← buf.idx skip
          assign ({ · with SEIDInd := x &&& 0b00000001 })
          let skip := skip + 1
          let x ← buf.sub skip (skip + 2)
          assign fun p => { p with rsv5 := copyInto p.rsv5 x.vis }
          let skip := skip + 2
          let x ← be16 (← buf.sub skip (skip + 2))
          assign ({ · with SMCDv2Off := x })
          let skip := skip + 2
          let x ← buf.sub skip (skip + 32)
          assign fun p => { p with rsv6 := copyInto p.rsv6 x.vis }
          let skip := skip + 32
          let length ← gets (·.hdr.Length)
          let n ← gets (·.EIDNumber)
          let skip ← parseEIDsS length buf n.toNat 0 skip
          f (some skip)
      else
        f (some skip)) := by
  unfold ProposalV2.parseV2ExtS
  simp only [bind_assoc', ite_bind, pure_bind']

theorem parseSMCDExtS_bind (buf : Slice) (skip : Nat) (f : Option Nat → SGo ProposalV2 Unit) :
    (ProposalV2.parseSMCDExtS buf skip >>= f) = (do
      let pathv2 ← gets (·.hdr.Pathv2)
      let length ← gets (·.hdr.Length)
      if pathv2 = SMCTypeD ∨ pathv2 = SMCTypeB then
        if (length.toNat : Int) - skip < SMCDv2ExtLen + TrailerLen then
          Go.log (go! "Error parsing CLC Proposal v2: Not enough space for SMC-D v2 Extension")
          errDump (← buf.sto length.toNat)
          f none
        else
          let x ← buf.sub skip (skip + 32)
          assign fun p => { p with SEID := copyInto p.SEID x.vis }
          let skip := skip + 32
          let x ← buf.sub skip (skip + 16)
          assign fun p => { p with rsv7 := copyInto p.rsv7 x.vis }
          let skip := skip + 16
          let length ← gets (·.hdr.Length)
          let n ← gets (·.GIDNumber)
          parseGIDsS length buf n.toNat 0 skip
          f (some skip)
      else
        f (some skip)) := by
  unfold ProposalV2.parseSMCDExtS
  simp only [bind_assoc', ite_bind, pure_bind']

theorem tail_parseFixedS {len : Nat} {a b : Slice} {f g : Nat → SGo ProposalV2 Unit}
    (h : ∀ skip, Tail proposalV2View (Lost len) 15 (Rest len 0 a b) (f skip) (g skip)) :
    Tail proposalV2View (Lost len) 8 (Rest len 0 a b) (ProposalV2.parseFixedS a >>= f)
      (ProposalV2.parseFixedS b >>= g) := by
  unfold ProposalV2.parseFixedS
  simp only [bind_assoc', pure_bind']
  repeat tail_step
  exact h _

theorem tail_parseIPAreaS {len off : Nat} {a b : Slice} {f g : Option Nat → SGo ProposalV2 Unit}
    (h : ∀ o, Tail proposalV2View (Lost len) 20 (Rest len off a b) (f o) (g o)) (skip : Nat) :
    Tail proposalV2View (Lost len) 16 (Rest len off a b) (ProposalV2.parseIPAreaS a skip >>= f)
      (ProposalV2.parseIPAreaS b skip >>= g) := by
  rw [parseIPAreaS_bind, parseIPAreaS_bind]
  tail_gets
  tail_gets
  refine Tail.ite (Tail.ite ?_ ?_) (Tail.weaken (by decide) id (h _))
  · refine Tail.weaken (j := 20) (by decide) id ?_
    tail_warn h
  · repeat tail_step
    tail_next
    exact tail_parsePrefixesV2S (fun e he => by cases he) (fun _ => h _) _ _

theorem tail_parseV2ExtS {len off : Nat} {a b : Slice} {f g : Option Nat → SGo ProposalV2 Unit}
    (h : ∀ o, Tail proposalV2View (Lost len) 30 (Rest len off a b) (f o) (g o)) (skip : Nat) :
    Tail proposalV2View (Lost len) 21 (Rest len off a b) (ProposalV2.parseV2ExtS a skip >>= f)
      (ProposalV2.parseV2ExtS b skip >>= g) := by
  rw [parseV2ExtS_bind, parseV2ExtS_bind]
  tail_gets
  tail_gets
  refine Tail.ite (Tail.ite ?_ ?_) (Tail.weaken (by decide) id (h _))
  · refine Tail.weaken (j := 30) (by decide) id ?_
    tail_warn h
  · repeat tail_step
    tail_next
    exact tail_parseEIDsS (fun e he => by cases he) (fun _ => h _) _ _ _

theorem tail_parseSMCDExtS {len off : Nat} {a b : Slice} {f g : Option Nat → SGo ProposalV2 Unit}
    (h : ∀ o, Tail proposalV2View (Lost len) 33 (Rest len off a b) (f o) (g o)) (skip : Nat) :
    Tail proposalV2View (Lost len) 31 (Rest len off a b) (ProposalV2.parseSMCDExtS a skip >>= f)
      (ProposalV2.parseSMCDExtS b skip >>= g) := by
  rw [parseSMCDExtS_bind, parseSMCDExtS_bind]
  tail_gets
  tail_gets
  refine Tail.ite (Tail.ite ?_ ?_) (Tail.weaken (by decide) id (h _))
  · refine Tail.weaken (j := 33) (by decide) id ?_
    tail_warn h
  · repeat tail_step
    tail_next
    exact tail_parseGIDsS (fun e he => by cases he) (h _) _ _ _

theorem proposalV2_left {m s' m' : ProposalV2} {short long : Slice} {l l' : List Bytes} (h : Part short long)
    (hs : ProposalV2.parseS short m = (.panic l, s')) (hl : m.parse long = .ret l' m') :
    Left.Left proposalV2Ends short.len (proposalV2 m) (proposalV2 m') (proposalV2 s') ∧ s'.raw = short := by
  rw [← ProposalV2.final_parseS] at hl
  unfold ProposalV2.parseS at hs hl
  rw [within_headerS] at hs hl
  · refine whole (V := proposalV2View) (by decide) h ?_ hs hl
    repeat tail_step
    refine Tail.ite ?_ ?_
    · tail_reject
    tail_next
    refine tail_parseFixedS fun _ => ?_
    tail_next
    refine tail_parseIPAreaS (fun o => ?_) _
    rcases o with _ | skip
    · exact Tail.done (fun _ _ h => by cases h) fun _ _ _ => rfl
    dsimp only
    tail_next
    refine tail_parseV2ExtS (fun o => ?_) _
    rcases o with _ | skip
    · exact Tail.done (fun _ _ h => by cases h) fun _ _ _ => rfl
    dsimp only
    tail_next
    refine tail_parseSMCDExtS (fun o => ?_) _
    rcases o with _ | skip
    · exact Tail.done (fun _ _ h => by cases h) fun _ _ _ => rfl
    tail_trail 34
  all_goals (intros; rfl)

end SMC.Tail
