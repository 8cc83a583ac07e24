import Verif.Lemmas.Tail
import Verif.Lemmas.CrashSteps
/-!
# The LLC messages and BTH read their fields one after another
-/

namespace SMC.Tail
open SGo Left LLC

theorem pure_bind' {σ α β : Type} (a : α) (f : α → SGo σ β) : (pure a >>= f) = f a := by
  funext s
  show SGo.instMonad.toBind.bind (SGo.instMonad.toApplicative.toPure.pure a) f s = f a s
  simp only [Bind.bind, Pure.pure]
  rcases f a s with ⟨⟨l, b⟩ | l, t⟩ <;> rfl

theorem within_setBaseMsgS {σ : Type} {part : σ → BaseMsg} {put : BaseMsg → σ → σ} (h1 : ∀ t s, part (put t s) = t)
    (h2 : ∀ t t' s, put t (put t' s) = put t s) (h3 : ∀ s, put (part s) s = s) (buffer : Slice) (f : Unit → SGo σ Unit) :
    (within part put (BaseMsg.setBaseMsgS buffer) >>= f) = (do
      assign fun s => put ((part s).setRaw buffer) s
      let x ← liftM (buffer.idx 0)
      assign fun s => put { part s with Typ := x.toNat } s
      let buffer ← liftM (buffer.sfrom 1)
      let x ← liftM (buffer.idx 0)
      assign fun s => put { part s with Length := x.toNat } s
      f ()) := by
  unfold BaseMsg.setBaseMsgS
  simp only [within_bind h1 h2, within_lift h3, within_assign, bind_assoc']


def confirmLinkView : View ConfirmLink Bytes where
  fields := confirmLink
  raw m := m.base.Raw
  put r m := { m with base := { m.base with Raw := r } }
  fields_put _ _ := rfl
  raw_put _ _ := rfl
  put_put _ _ _ := rfl

theorem confirmLink_left {m s' m' : ConfirmLink} {short long : Slice} {l l' : List Bytes} (h : Part short long)
    (hs : ConfirmLink.parseS short m = (.panic l, s')) (hl : m.parse long = .ret l' m') :
    Left.Left confirmLinkEnds short.len (confirmLink m) (confirmLink m') (confirmLink s') ∧
      s'.base.Raw = copyInto (zeros short.len) short.vis := by
  rw [← ConfirmLink.final_parseS] at hl
  unfold ConfirmLink.parseS at hs hl
  rw [within_setBaseMsgS] at hs hl
  · refine whole (V := confirmLinkView) (by decide) h ?_ hs hl
    repeat tail_step
    tail_root h
    repeat tail_step
    tail_end
  all_goals (intros; rfl)

def addLinkView : View AddLink Bytes where
  fields := addLink
  raw m := m.base.Raw
  put r m := { m with base := { m.base with Raw := r } }
  fields_put _ _ := rfl
  raw_put _ _ := rfl
  put_put _ _ _ := rfl

theorem addLink_left {m s' m' : AddLink} {short long : Slice} {l l' : List Bytes} (h : Part short long)
    (hs : AddLink.parseS short m = (.panic l, s')) (hl : m.parse long = .ret l' m') :
    Left.Left addLinkEnds short.len (addLink m) (addLink m') (addLink s') ∧
      s'.base.Raw = copyInto (zeros short.len) short.vis := by
  rw [← AddLink.final_parseS] at hl
  unfold AddLink.parseS at hs hl
  rw [within_setBaseMsgS] at hs hl
  · refine whole (V := addLinkView) (by decide) h ?_ hs hl
    repeat tail_step
    tail_root h
    repeat tail_step
    tail_end
  all_goals (intros; rfl)

def deleteLinkView : View DeleteLink Bytes where
  fields := deleteLink
  raw m := m.base.Raw
  put r m := { m with base := { m.base with Raw := r } }
  fields_put _ _ := rfl
  raw_put _ _ := rfl
  put_put _ _ _ := rfl

theorem deleteLink_left {m s' m' : DeleteLink} {short long : Slice} {l l' : List Bytes} (h : Part short long)
    (hs : DeleteLink.parseS short m = (.panic l, s')) (hl : m.parse long = .ret l' m') :
    Left.Left deleteLinkEnds short.len (deleteLink m) (deleteLink m') (deleteLink s') ∧
      s'.base.Raw = copyInto (zeros short.len) short.vis := by
  rw [← DeleteLink.final_parseS] at hl
  unfold DeleteLink.parseS at hs hl
  rw [within_setBaseMsgS] at hs hl
  · refine whole (V := deleteLinkView) (by decide) h ?_ hs hl
    repeat tail_step
    tail_root h
    repeat tail_step
    tail_end
  all_goals (intros; rfl)

def testLinkView : View TestLink Bytes where
  fields := testLink
  raw m := m.base.Raw
  put r m := { m with base := { m.base with Raw := r } }
  fields_put _ _ := rfl
  raw_put _ _ := rfl
  put_put _ _ _ := rfl

theorem testLink_left {m s' m' : TestLink} {short long : Slice} {l l' : List Bytes} (h : Part short long)
    (hs : TestLink.parseS short m = (.panic l, s')) (hl : m.parse long = .ret l' m') :
    Left.Left testLinkEnds short.len (testLink m) (testLink m') (testLink s') ∧
      s'.base.Raw = copyInto (zeros short.len) short.vis := by
  rw [← TestLink.final_parseS] at hl
  unfold TestLink.parseS at hs hl
  rw [within_setBaseMsgS] at hs hl
  · refine whole (V := testLinkView) (by decide) h ?_ hs hl
    repeat tail_step
    tail_root h
    repeat tail_step
    tail_end
  all_goals (intros; rfl)

def cdcView : View CDC Bytes where
  fields := cdc
  raw m := m.base.Raw
  put r m := { m with base := { m.base with Raw := r } }
  fields_put _ _ := rfl
  raw_put _ _ := rfl
  put_put _ _ _ := rfl

theorem cdc_left {m s' m' : CDC} {short long : Slice} {l l' : List Bytes} (h : Part short long)
    (hs : CDC.parseS short m = (.panic l, s')) (hl : m.parse long = .ret l' m') :
    Left.Left cdcEnds short.len (cdc m) (cdc m') (cdc s') ∧
      s'.base.Raw = copyInto (zeros short.len) short.vis := by
  rw [← CDC.final_parseS] at hl
  unfold CDC.parseS at hs hl
  refine whole (V := cdcView) (by decide) h ?_ hs hl
  repeat tail_step
  tail_end

theorem _root_.SMC.LLC.RKeyPair.same_parseS {len : Nat} (off : Nat) {a b : Slice} :
    Same (Rest len off a b) (RKeyPair.parseS a) (RKeyPair.parseS b) := by
  unfold RKeyPair.parseS
  refine Same.number be32_ok fun _ => Same.bind (Same.refl _) fun _ => ?_
  refine Same.number be32_ok fun _ => Same.bind (Same.refl _) fun _ => ?_
  exact Same.number be64_ok fun _ => Same.refl _

theorem _root_.SMC.LLC.RMBSpec.same_parseS {len : Nat} (off : Nat) {a b : Slice} :
    Same (Rest len off a b) (RMBSpec.parseS a) (RMBSpec.parseS b) := by
  unfold RMBSpec.parseS
  refine Same.bind Same.idx fun _ => Same.bind (Same.refl _) fun _ => ?_
  refine Same.number be32_ok fun _ => Same.bind (Same.refl _) fun _ => ?_
  exact Same.number be64_ok fun _ => Same.refl _

def addLinkContView : View AddLinkCont Bytes where
  fields := addLinkCont
  raw m := m.base.Raw
  put r m := { m with base := { m.base with Raw := r } }
  fields_put _ _ := rfl
  raw_put _ _ := rfl
  put_put _ _ _ := rfl

theorem tail_parsePairsS {lost : Nat → Prop} (hk : lost 8) {f g : Slice → SGo AddLinkCont Unit} {len : Nat} :
    ∀ (n i off : Nat) (a b : Slice), (∀ a b, Tail addLinkContView lost 8 (Rest len (off + 16 * n) a b) (f a) (g b)) →
    Tail addLinkContView lost 8 (Rest len off a b) (parsePairsS n i a >>= f) (parsePairsS n i b >>= g) := by
  intro n
  induction n with
  | zero =>
    intro i off a b h
    unfold parsePairsS
    rw [pure_bind', pure_bind']
    exact h a b
  | succ n ih =>
    intro i off a b h
    unfold parsePairsS
    simp only [bind_assoc']
    refine Tail.piece (V := addLinkContView) ?_ ?_ ?_ ?_ ?_ (RKeyPair.same_parseS off) ?_
    · exact fun _ _ => ⟨_, rfl⟩
    · exact fun _ _ => rfl
    · exact fun _ _ => rfl
    · exact fun _ _ _ => rfl
    · exact hk
    refine Tail.sfrom (fun _ => hk) fun a' b' => ?_
    refine ih _ _ _ _ fun a b => ?_
    have := h a b
    rwa [show off + 16 * (n + 1) = off + 16 + 16 * n by omega] at this

theorem addLinkCont_left {m s' m' : AddLinkCont} {short long : Slice} {l l' : List Bytes} (h : Part short long)
    (hs : AddLinkCont.parseS short m = (.panic l, s')) (hl : m.parse long = .ret l' m') :
    Left.Left addLinkContEnds short.len (addLinkCont m) (addLinkCont m') (addLinkCont s') ∧
      s'.base.Raw = copyInto (zeros short.len) short.vis := by
  rw [← AddLinkCont.final_parseS] at hl
  unfold AddLinkCont.parseS at hs hl
  rw [within_setBaseMsgS] at hs hl
  · refine whole (V := addLinkContView) (by decide) h ?_ hs hl
    repeat tail_step
    tail_root h
    repeat tail_step
    tail_next
    refine tail_parsePairsS (by intro e he; cases he) _ 0 _ _ _ fun a b => ?_
    tail_end
  all_goals (intros; rfl)

def confirmRKeyView : View ConfirmRKey Bytes where
  fields := confirmRKey
  raw m := m.base.Raw
  put r m := { m with base := { m.base with Raw := r } }
  fields_put _ _ := rfl
  raw_put _ _ := rfl
  put_put _ _ _ := rfl

theorem tail_parseRMBsS {lost : Nat → Prop} (hk : lost 11) {f g : Slice → SGo ConfirmRKey Unit} {len : Nat} :
    ∀ (n i off : Nat) (a b : Slice), (∀ a b, Tail confirmRKeyView lost 11 (Rest len (off + 13 * n) a b) (f a) (g b)) →
    Tail confirmRKeyView lost 11 (Rest len off a b) (parseRMBsS n i a >>= f) (parseRMBsS n i b >>= g) := by
  intro n
  induction n with
  | zero =>
    intro i off a b h
    unfold parseRMBsS
    rw [pure_bind', pure_bind']
    exact h a b
  | succ n ih =>
    intro i off a b h
    unfold parseRMBsS
    simp only [bind_assoc']
    refine Tail.piece (V := confirmRKeyView) ?_ ?_ ?_ ?_ ?_ (RMBSpec.same_parseS off) ?_
    · exact fun _ _ => ⟨_, rfl⟩
    · exact fun _ _ => rfl
    · exact fun _ _ => rfl
    · exact fun _ _ _ => rfl
    · exact hk
    refine Tail.sfrom (fun _ => hk) fun a' b' => ?_
    refine ih _ _ _ _ fun a b => ?_
    have := h a b
    rwa [show off + 13 * (n + 1) = off + 13 + 13 * n by omega] at this

theorem confirmRKey_left {m s' m' : ConfirmRKey} {short long : Slice} {l l' : List Bytes} (h : Part short long)
    (hs : ConfirmRKey.parseS short m = (.panic l, s')) (hl : m.parse long = .ret l' m') :
    Left.Left confirmRKeyEnds short.len (confirmRKey m) (confirmRKey m') (confirmRKey s') ∧
      s'.base.Raw = copyInto (zeros short.len) short.vis := by
  rw [← ConfirmRKey.final_parseS] at hl
  unfold ConfirmRKey.parseS at hs hl
  rw [within_setBaseMsgS] at hs hl
  · refine whole (V := confirmRKeyView) (by decide) h ?_ hs hl
    repeat tail_step
    tail_root h
    repeat tail_step
    tail_next
    refine tail_parseRMBsS (by intro e he; cases he) _ 0 _ _ _ fun a b => ?_
    tail_step
    tail_end
  all_goals (intros; rfl)

def confirmRKeyContView : View ConfirmRKeyCont Bytes where
  fields := confirmRKeyCont
  raw m := m.base.Raw
  put r m := { m with base := { m.base with Raw := r } }
  fields_put _ _ := rfl
  raw_put _ _ := rfl
  put_put _ _ _ := rfl

theorem tail_parseRMBsContS {lost : Nat → Prop} (hk : lost 8) {f g : Slice → SGo ConfirmRKeyCont Unit} {len : Nat} :
    ∀ (n i off : Nat) (a b : Slice), (∀ a b, Tail confirmRKeyContView lost 8 (Rest len (off + 13 * n) a b) (f a) (g b)) →
    Tail confirmRKeyContView lost 8 (Rest len off a b) (parseRMBsContS n i a >>= f) (parseRMBsContS n i b >>= g) := by
  intro n
  induction n with
  | zero =>
    intro i off a b h
    unfold parseRMBsContS
    rw [pure_bind', pure_bind']
    exact h a b
  | succ n ih =>
    intro i off a b h
    unfold parseRMBsContS
    simp only [bind_assoc']
    refine Tail.piece (V := confirmRKeyContView) ?_ ?_ ?_ ?_ ?_ (RMBSpec.same_parseS off) ?_
    · exact fun _ _ => ⟨_, rfl⟩
    · exact fun _ _ => rfl
    · exact fun _ _ => rfl
    · exact fun _ _ _ => rfl
    · exact hk
    refine Tail.sfrom (fun _ => hk) fun a' b' => ?_
    refine ih _ _ _ _ fun a b => ?_
    have := h a b
    rwa [show off + 13 * (n + 1) = off + 13 + 13 * n by omega] at this

theorem confirmRKeyCont_left {m s' m' : ConfirmRKeyCont} {short long : Slice} {l l' : List Bytes} (h : Part short long)
    (hs : ConfirmRKeyCont.parseS short m = (.panic l, s')) (hl : m.parse long = .ret l' m') :
    Left.Left confirmRKeyContEnds short.len (confirmRKeyCont m) (confirmRKeyCont m') (confirmRKeyCont s') ∧
      s'.base.Raw = copyInto (zeros short.len) short.vis := by
  rw [← ConfirmRKeyCont.final_parseS] at hl
  unfold ConfirmRKeyCont.parseS at hs hl
  rw [within_setBaseMsgS] at hs hl
  · refine whole (V := confirmRKeyContView) (by decide) h ?_ hs hl
    repeat tail_step
    tail_root h
    repeat tail_step
    tail_next
    refine tail_parseRMBsContS (by intro e he; cases he) _ 0 _ _ _ fun a b => ?_
    tail_step
    tail_end
  all_goals (intros; rfl)

def deleteRKeyView : View DeleteRKey Bytes where
  fields := deleteRKey
  raw m := m.base.Raw
  put r m := { m with base := { m.base with Raw := r } }
  fields_put _ _ := rfl
  raw_put _ _ := rfl
  put_put _ _ _ := rfl

theorem tail_parseRKeysS {lost : Nat → Prop} (hk : lost 10) {f g : Slice → SGo DeleteRKey Unit} {len : Nat} :
    ∀ (n i off : Nat) (a b : Slice), (∀ a b, Tail deleteRKeyView lost 10 (Rest len (off + 4 * n) a b) (f a) (g b)) →
    Tail deleteRKeyView lost 10 (Rest len off a b) (parseRKeysS n i a >>= f) (parseRKeysS n i b >>= g) := by
  intro n
  induction n with
  | zero =>
    intro i off a b h
    unfold parseRKeysS
    rw [pure_bind', pure_bind']
    exact h a b
  | succ n ih =>
    intro i off a b h
    unfold parseRKeysS
    simp only [bind_assoc']
    refine Tail.number (by decide) be32_ok (fun _ => hk) fun _ => ?_
    tail_assign
    refine Tail.sfrom (fun _ => hk) fun a' b' => ?_
    refine ih _ _ _ _ fun a b => ?_
    have := h a b
    rwa [show off + 4 * (n + 1) = off + 4 + 4 * n by omega] at this

theorem deleteRKey_left {m s' m' : DeleteRKey} {short long : Slice} {l l' : List Bytes} (h : Part short long)
    (hs : DeleteRKey.parseS short m = (.panic l, s')) (hl : m.parse long = .ret l' m') :
    Left.Left deleteRKeyEnds short.len (deleteRKey m) (deleteRKey m') (deleteRKey s') ∧
      s'.base.Raw = copyInto (zeros short.len) short.vis := by
  rw [← DeleteRKey.final_parseS] at hl
  unfold DeleteRKey.parseS at hs hl
  rw [within_setBaseMsgS] at hs hl
  · refine whole (V := deleteRKeyView) (by decide) h ?_ hs hl
    repeat tail_step
    tail_root h
    repeat tail_step
    tail_next
    refine tail_parseRKeysS (by intro e he; cases he) _ 0 _ _ _ fun a b => ?_
    tail_end
  all_goals (intros; rfl)

open RoCE in
def bthView : View BTH Bytes where
  fields := bth
  raw m := m.Raw
  put r m := { m with Raw := r }
  fields_put _ _ := rfl
  raw_put _ _ := rfl
  put_put _ _ _ := rfl

open RoCE in
theorem bth_left {m s' m' : BTH} {short long : Slice} {l l' : List Bytes} (h : Part short long)
    (hs : BTH.parseS short m = (.panic l, s')) (hl : m.parse long = .ret l' m') :
    Left.Left bthEnds short.len (bth m) (bth m') (bth s') ∧
      s'.Raw = copyInto (zeros short.len) short.vis := by
  rw [← BTH.final_parseS] at hl
  unfold BTH.parseS at hs hl
  refine whole (V := bthView) (by decide) h ?_ hs hl
  repeat tail_step
  tail_end

end SMC.Tail
