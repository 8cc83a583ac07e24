import Verif.Crash.LLC
import Verif.Crash.CLC
import Lean.Elab.Tactic
/-!
# Code that changes its receiver: equations

`final` forgets what a panic leaves behind. The methods of `Verif/Crash` are then those of the first
model.
-/

namespace SMC.SGo

variable {σ τ α β : Type}

/-- what code returns, together with the changed value -/
def run (x : SGo σ α) (s : σ) : Go (σ × α) :=
  match x s with
  | (.ret l a, s) => .ret l (s, a)
  | (.panic l, _) => .panic l

theorem liftM_eq (x : Go α) : (liftM x : SGo σ α) = lift x := rfl

theorem final_bind (x : SGo σ α) (f : α → SGo σ β) (s : σ) :
    final (x >>= f) s = run x s >>= fun r => final (f r.2) r.1 := by
  show final (fun s => _) s = Go.bind _ _
  unfold final run
  dsimp only [bind]
  rcases x s with ⟨⟨l, a⟩ | l, s⟩
  · dsimp only [Go.bind]
    rcases f a s with ⟨⟨l', b⟩ | l', s⟩ <;> rfl
  · rfl

theorem final_eq (x : SGo σ α) (s : σ) : final x s = run x s >>= fun r => pure r.1 := by
  unfold final run
  rcases x s with ⟨⟨l, a⟩ | l, s⟩
  · show _ = Go.bind _ _
    simp only [Go.bind, pure, List.append_nil]
  · rfl

theorem go_bind_pure {x : Go α} : (x >>= fun a => pure a) = x := by
  show Go.bind _ _ = _
  rcases x with ⟨l, a⟩ | l
  · simp only [Go.bind, pure, List.append_nil]
  · rfl

theorem go_bind_assoc (x : Go α) (f : α → Go β) (g : β → Go τ) :
    (x >>= f) >>= g = x >>= fun a => f a >>= g := by
  show Go.bind (Go.bind x f) g = Go.bind x fun a => Go.bind (f a) g
  rcases x with ⟨l, a⟩ | l
  · dsimp only [Go.bind]
    rcases f a with ⟨l', b⟩ | l'
    · dsimp only
      rcases g b with ⟨l'', c⟩ | l'' <;> simp only [List.append_assoc]
    · rfl
  · rfl

theorem go_pure_bind (a : α) (f : α → Go β) : (pure a >>= f) = f a := by
  show Go.bind (.ret [] a) f = f a
  dsimp only [Go.bind]
  rcases f a with ⟨l, b⟩ | l <;> rfl

theorem bind_assoc' (x : SGo σ α) (f : α → SGo σ β) (g : β → SGo σ τ) :
    (x >>= f) >>= g = x >>= fun a => f a >>= g := by
  funext s
  simp only [bind]
  rcases x s with ⟨⟨l, a⟩ | l, s⟩
  · dsimp only
    rcases f a s with ⟨⟨l', b⟩ | l', s⟩
    · dsimp only
      rcases g b s with ⟨⟨l'', c⟩ | l'', s⟩ <;> simp only [List.append_assoc]
    · rfl
  · rfl

theorem final_lift (p : Go α) (f : α → SGo σ β) (s : σ) :
    final (lift p >>= f) s = p >>= fun a => final (f a) s := by
  rw [final_bind]
  rcases p with ⟨l, a⟩ | l <;> rfl

theorem final_liftM (p : Go α) (f : α → SGo σ β) (s : σ) :
    final ((liftM p : SGo σ α) >>= f) s = p >>= fun a => final (f a) s := final_lift p f s

theorem final_assign (u : σ → σ) (f : Unit → SGo σ β) (s : σ) :
    final (assign u >>= f) s = final (f ()) (u s) := by
  rw [final_bind]
  exact go_pure_bind (u s, ()) fun r => final (f r.2) r.1

theorem final_gets (q : σ → α) (f : α → SGo σ β) (s : σ) :
    final (gets q >>= f) s = final (f (q s)) s := by
  rw [final_bind]
  exact go_pure_bind (s, q s) fun r => final (f r.2) r.1

theorem run_within (part : σ → τ) (put : τ → σ → σ) (x : SGo τ α) (s : σ) :
    run (within part put x) s = run x (part s) >>= fun r => pure (put r.1 s, r.2) := by
  unfold run within
  rcases x (part s) with ⟨⟨l, a⟩ | l, t⟩
  · show _ = Go.bind _ _
    simp only [Go.bind, pure, List.append_nil]
  · rfl

theorem run_unit (x : SGo σ Unit) (s : σ) : run x s = final x s >>= fun t => pure (t, ()) := by
  unfold final run
  rcases x s with ⟨⟨l, a⟩ | l, s⟩
  · show _ = Go.bind _ _
    simp only [Go.bind, pure, List.append_nil]
  · rfl

theorem final_within (part : σ → τ) (put : τ → σ → σ) (x : SGo τ Unit) (f : Unit → SGo σ β) (s : σ) :
    final (within part put x >>= f) s = final x (part s) >>= fun t => final (f ()) (put t s) := by
  rw [final_bind, run_within, run_unit]
  simp only [go_bind_assoc, go_pure_bind]

theorem final_within_end (part : σ → τ) (put : τ → σ → σ) (x : SGo τ Unit) (s : σ) :
    final (within part put x) s = final x (part s) >>= fun t => pure (put t s) := by
  rw [final_eq, run_within, run_unit]
  simp only [go_bind_assoc, go_pure_bind]

theorem final_assign_end (u : σ → σ) (s : σ) : final (assign u) s = pure (u s) := rfl

theorem final_pure (a : α) (s : σ) : final (pure a : SGo σ α) s = pure s := rfl

theorem final_lift_end (p : Go α) (s : σ) : final (lift p) s = p >>= fun _ => pure s := by
  rcases p with ⟨l, a⟩ | l
  · show _ = Go.bind _ _
    simp only [final, lift, Go.bind, pure, List.append_nil]
  · rfl

theorem run_bind (x : SGo σ α) (f : α → SGo σ β) (s : σ) :
    run (x >>= f) s = run x s >>= fun r => run (f r.2) r.1 := by
  show run (fun s => _) s = Go.bind _ _
  unfold run
  dsimp only [bind]
  rcases x s with ⟨⟨l, a⟩ | l, s⟩
  · dsimp only [Go.bind]
    rcases f a s with ⟨⟨l', b⟩ | l', s⟩ <;> rfl
  · rfl

theorem run_lift (p : Go α) (s : σ) : run (lift p) s = p >>= fun a => pure (s, a) := by
  rcases p with ⟨l, a⟩ | l
  · show _ = Go.bind _ _
    simp only [run, lift, Go.bind, pure, List.append_nil]
  · rfl

theorem run_ite (c : Prop) [Decidable c] (x y : SGo σ α) (s : σ) :
    run (if c then x else y) s = if c then run x s else run y s := by
  split <;> rfl

theorem final_ite (c : Prop) [Decidable c] (x y : SGo σ α) (s : σ) :
    final (if c then x else y) s = if c then final x s else final y s := by
  split <;> rfl

end SMC.SGo

namespace SMC.LLC
open SGo

theorem BaseMsg.final_setBaseMsgS (buffer : Slice) (b : BaseMsg) :
    final (setBaseMsgS buffer) b = b.setBaseMsg buffer := by
  unfold setBaseMsgS setBaseMsg
  simp only [liftM_eq, final_lift, final_assign, final_assign_end]

/-- equations for `final` -/
macro "finals" "[" ls:Lean.Parser.Tactic.simpLemma,* "]" : tactic =>
  `(tactic| simp only [liftM_eq, final_lift, final_assign, final_assign_end, final_gets, final_within,
    final_within_end, final_ite, final_lift_end, final_pure, go_pure_bind, go_bind_assoc, $ls,*])

section steps

variable {σ α β τ : Type}

theorem step_lift_final (p : Go α) (f : α → SGo σ β) (s : σ) (g : α → Go σ) (h : ∀ a, final (f a) s = g a) :
    final (lift p >>= f) s = p >>= g :=
  (final_lift p f s).trans (congrArg (Bind.bind p) (funext h))

theorem step_lift_run (p : Go α) (f : α → SGo σ β) (s : σ) (g : α → Go (σ × β)) (h : ∀ a, run (f a) s = g a) :
    run (lift p >>= f) s = p >>= g := by
  rw [run_bind, run_lift, go_bind_assoc]
  refine congrArg (Bind.bind p) (funext fun a => ?_)
  rw [go_pure_bind]
  exact h a

theorem step_assign_final (u : σ → σ) (f : Unit → SGo σ β) (s : σ) (y : Go σ) (h : final (f ()) (u s) = y) :
    final (assign u >>= f) s = y := (final_assign u f s).trans h

theorem step_assign_run (u : σ → σ) (f : Unit → SGo σ β) (s : σ) (y : Go (σ × β)) (h : run (f ()) (u s) = y) :
    run (assign u >>= f) s = y := by
  rw [run_bind, ← h]
  exact go_pure_bind (u s, ()) fun r => run (f r.2) r.1

theorem step_gets_final (q : σ → α) (f : α → SGo σ β) (s : σ) (y : Go σ) (h : final (f (q s)) s = y) :
    final (gets q >>= f) s = y := (final_gets q f s).trans h

theorem step_gets_run (q : σ → α) (f : α → SGo σ β) (s : σ) (y : Go (σ × β)) (h : run (f (q s)) s = y) :
    run (gets q >>= f) s = y := by
  rw [run_bind, ← h]
  exact go_pure_bind (s, q s) fun r => run (f r.2) r.1

theorem step_have_final (x : SGo σ β) (s t : σ) (g : σ → Go σ) (e : s = t) (h : ∀ t, final x t = g t) :
    final x s = g t := by
  subst e
  exact h s

theorem step_have_run (x : SGo σ β) (s t : σ) (g : σ → Go (σ × β)) (e : s = t) (h : ∀ t, run x t = g t) :
    run x s = g t := by
  subst e
  exact h s

theorem step_part_final (part : σ → τ) (put : τ → σ → σ) (x : SGo τ Unit) (f : Unit → SGo σ β) (s : σ) (p : Go τ)
    (g : τ → Go σ) (hp : final x (part s) = p) (h : ∀ b, final (f ()) (put b s) = g b) :
    final (within part put x >>= f) s = p >>= g := by
  rw [final_within, hp]
  exact congrArg _ (funext h)

theorem step_call_final (x : SGo σ α) (f : α → SGo σ β) (s : σ) (p : Go (σ × α)) (g : σ × α → Go σ) (hp : run x s = p)
    (h : ∀ t a, final (f a) t = g (t, a)) : final (x >>= f) s = p >>= g := by
  rw [final_bind, hp]
  exact congrArg _ (funext fun r => h r.1 r.2)

theorem step_call_run (x : SGo σ α) (f : α → SGo σ β) (s : σ) (p : Go (σ × α)) (g : σ × α → Go (σ × β)) (hp : run x s = p)
    (h : ∀ t a, run (f a) t = g (t, a)) : run (x >>= f) s = p >>= g := by
  rw [run_bind, hp]
  exact congrArg _ (funext fun r => h r.1 r.2)

theorem step_ite_final (c : Prop) (i : Decidable c) (x y : SGo σ β) (s : σ) (v w : Go σ) (h : final x s = v)
    (k : final y s = w) : final (if c then x else y) s = if c then v else w := by
  rw [← h, ← k]
  split <;> rfl

theorem step_ite_run (c : Prop) (i : Decidable c) (x y : SGo σ β) (s : σ) (v w : Go (σ × β)) (h : run x s = v)
    (k : run y s = w) : run (if c then x else y) s = if c then v else w := by
  rw [← h, ← k]
  split <;> rfl

end steps

open Lean Elab Tactic Meta in
/-- One statement in both models. The local variable of the first model that has the new value of the message
gets the name of the receiver in the second one. -/
elab "same_step" : tactic => withMainContext do
  let goal ← getMainGoal
  let ty ← instantiateMVars (← goal.getType)
  let some (_, lhs, rhs) := ty.consumeMData.eq? | throwError "not an equation"
  let lhs := lhs.consumeMData
  let head ← match lhs.getAppFn.constName? with
    | some ``SGo.final => pure ``SGo.final
    | some ``SGo.run => pure ``SGo.run
    | _ => throwError "not a receiver"
  let suf := if head == ``SGo.final then "final" else "run"
  let lem (n : String) := mkConst (`SMC.LLC ++ Name.mkSimple s!"step_{n}_{suf}")
  let (σ, β, x, s) := (lhs.getArg! 0, lhs.getArg! 1, (lhs.getArg! 2).consumeMData.headBeta, lhs.getArg! 3)
  let fin (x s : Expr) := mkApp4 (mkConst head) σ β x s
  let rhs := rhs.consumeMData.headBeta
  let rhs ← match ← reduceMatcher? rhs with
    | .reduced e => pure e.headBeta
    | _ => pure rhs
  let x ← match ← reduceMatcher? x with
    | .reduced e => pure e.headBeta
    | _ => pure x
  let unit := mkConst ``Unit.unit
  let next (new : Expr) (close : Expr → Expr) : TacticM Unit := do
    let m ← mkFreshExprSyntheticOpaqueMVar new
    goal.assign (close m)
    let (_, m) ← m.mvarId!.intros
    replaceMainGoal [m]
  -- names for numbers are replaced by their values
  if let .letE _ _ v b _ := x then
    next (← mkEq (fin (b.instantiate1 v) s) rhs) fun m => m
    return
  if let .letE n t v b _ := rhs then
    if t == σ then
      -- the new value of the message
      let assigns := x.isAppOf ``SGo.assign ||
        x.isAppOfArity ``Bind.bind 6 && (x.getArg! 4).consumeMData.headBeta.isAppOf ``SGo.assign
      if !assigns || !s.isFVar && (← withReducible (isDefEq s v)) then
        let new ← withLocalDeclD n t fun w => do mkForallFVars #[w] (← mkEq (fin x w) (b.instantiate1 w))
        next new fun m => mkAppN (lem "have") #[σ, β, x, s, v, Expr.lam n t b .default, mkApp2 (mkConst ``Eq.refl [Level.one]) σ v, m]
        return
    else
      next (← mkEq (fin x s) (b.instantiate1 v)) fun m => m
      return
  if x.isAppOfArity ``ite 5 then
    unless rhs.isAppOfArity ``ite 5 do throwError "no case distinction in the first model"
    let (v, w) := (rhs.getArg! 3, rhs.getArg! 4)
    let (y, z) := (x.getArg! 3, x.getArg! 4)
    let m ← mkFreshExprSyntheticOpaqueMVar (← mkEq (fin y s) v)
    let n ← mkFreshExprSyntheticOpaqueMVar (← mkEq (fin z s) w)
    goal.assign (mkAppN (lem "ite") #[σ, β, x.getArg! 1, x.getArg! 2, y, z, s, v, w, m, n])
    replaceMainGoal [m.mvarId!, n.mvarId!]
    return
  unless x.isAppOfArity ``Bind.bind 6 do throwError "not a sequence"
  let c := (x.getArg! 4).consumeMData.headBeta
  let f := x.getArg! 5
  if c.isAppOf ``SGo.assign then
    let u := c.getArg! 1
    next (← mkEq (fin (mkApp f unit).headBeta (mkApp u s).headBeta) rhs) fun m =>
      mkAppN (lem "assign") #[σ, β, u, f, s, rhs, m]
    return
  if c.isAppOf ``SGo.gets then
    let (α, q) := (c.getArg! 1, c.getArg! 2)
    next (← mkEq (fin (mkApp f (mkApp q s).headBeta).headBeta s) rhs) fun m =>
      mkAppN (lem "gets") #[σ, α, β, q, f, s, rhs, m]
    return
  unless rhs.isAppOfArity ``Bind.bind 6 do throwError "not a sequence in the first model"
  let α := x.getArg! 2
  let (p, g) := (rhs.getArg! 4, rhs.getArg! 5)
  let aName := if f.isLambda then f.bindingName! else `a
  if c.isAppOf ``liftM || c.isAppOf ``MonadLiftT.monadLift || c.isAppOf ``SGo.lift then
    let new ← withLocalDeclD aName α fun a => do
      mkForallFVars #[a] (← mkEq (fin (mkApp f a).headBeta s) (mkApp g a).headBeta)
    next new fun m => mkAppN (lem "lift") #[σ, α, β, c.appArg!, f, s, g, m]
    return
  if c.isAppOf ``SGo.within then
    let #[σ, τ, _, part, put, y] := c.getAppArgs | throwError "within"
    let hp ← mkFreshExprSyntheticOpaqueMVar
      (← mkEq (mkApp4 (mkConst ``SGo.final) τ (mkConst ``Unit) y (mkApp part s).headBeta) p)
    let new ← withLocalDeclD `b τ fun b => do
      mkForallFVars #[b] (← mkEq (fin (mkApp f unit).headBeta (mkApp2 put b s).headBeta) (mkApp g b).headBeta)
    let m ← mkFreshExprSyntheticOpaqueMVar new
    goal.assign (mkAppN (lem "part") #[σ, β, τ, part, put, y, f, s, p, g, hp, m])
    let (_, m) ← m.mvarId!.intros
    replaceMainGoal [hp.mvarId!, m]
    return
  unless rhs.getArg! 2 == (← mkAppM ``Prod #[σ, α]) do throwError "something else is called in the first model"
  let hp ← mkFreshExprSyntheticOpaqueMVar (← mkEq (mkApp4 (mkConst ``SGo.run) σ α c s) p)
  let new ← withLocalDeclD `t σ fun t => withLocalDeclD aName α fun a => do
    mkForallFVars #[t, a] (← mkEq (fin (mkApp f a).headBeta t) (mkApp g (← mkAppM ``Prod.mk #[t, a])).headBeta)
  let m ← mkFreshExprSyntheticOpaqueMVar new
  goal.assign (mkAppN (lem "call") #[σ, α, β, c, f, s, p, g, hp, m])
  let (_, m) ← m.mvarId!.intros
  replaceMainGoal [hp.mvarId!, m]

theorem Other.final_parseS (buffer : Slice) (o : Other) : final (parseS buffer) o = o.parse buffer := rfl

theorem ConfirmLink.final_parseS (buffer : Slice) (c : ConfirmLink) : final (parseS buffer) c = c.parse buffer := by
  unfold parseS parse
  same_step
  · exact BaseMsg.final_setBaseMsgS _ _
  repeat same_step
  rfl

theorem AddLink.final_parseS (buffer : Slice) (a : AddLink) : final (parseS buffer) a = a.parse buffer := by
  unfold parseS parse
  same_step
  · exact BaseMsg.final_setBaseMsgS _ _
  repeat same_step
  rfl

theorem DeleteLink.final_parseS (buffer : Slice) (d : DeleteLink) : final (parseS buffer) d = d.parse buffer := by
  unfold parseS parse
  same_step
  · exact BaseMsg.final_setBaseMsgS _ _
  repeat same_step
  rfl

theorem TestLink.final_parseS (buffer : Slice) (t : TestLink) : final (parseS buffer) t = t.parse buffer := by
  unfold parseS parse
  same_step
  · exact BaseMsg.final_setBaseMsgS _ _
  repeat same_step
  rfl

theorem CDC.final_parseS (buffer : Slice) (c : CDC) : final (parseS buffer) c = c.parse buffer := by
  unfold parseS parse
  repeat same_step
  rfl

theorem RKeyPair.final_parseS (buffer : Slice) (r : RKeyPair) : final (parseS buffer) r = r.parse buffer := by
  unfold parseS parse
  repeat same_step
  rfl

theorem RMBSpec.final_parseS (buffer : Slice) (r : RMBSpec) : final (parseS buffer) r = r.parse buffer := by
  unfold parseS parse
  repeat same_step
  rfl

theorem final_parsePairsS (n : Nat) (f : Slice → SGo AddLinkCont Unit) : ∀ (done todo : List RKeyPair) (buffer : Slice)
    (a : AddLinkCont), todo.length = n →
    final (parsePairsS n done.length buffer >>= f) { a with RKeyPairs := done ++ todo } =
      parsePairs todo buffer >>= fun r => final (f r.2) { a with RKeyPairs := done ++ r.1 } := by
  induction n with
  | zero =>
    intro done todo buffer a h
    obtain rfl := List.length_eq_zero_iff.1 h
    unfold parsePairsS parsePairs
    rw [go_pure_bind, final_bind]
    exact go_pure_bind (_, buffer) fun r => final (f r.2) r.1
  | succ n ih =>
    intro done todo buffer a h
    rcases todo with _ | ⟨t, ts⟩
    · cases h
    unfold parsePairsS parsePairs
    simp only [bind_assoc']
    finals [RKeyPair.final_parseS]
    refine congrArg _ (funext fun r => congrArg _ (funext fun b => ?_))
    have := ih (done ++ [r]) ts b a (Nat.succ.inj h)
    simp only [List.length_append, List.length_cons, List.length_nil, List.append_assoc, List.cons_append,
      List.nil_append] at this
    simpa using this

theorem final_parseRMBsS (n : Nat) (f : Slice → SGo ConfirmRKey Unit) : ∀ (done todo : List RMBSpec) (buffer : Slice)
    (c : ConfirmRKey), todo.length = n →
    final (parseRMBsS n done.length buffer >>= f) { c with OtherRMBs := done ++ todo } =
      parseRMBs todo buffer >>= fun r => final (f r.2) { c with OtherRMBs := done ++ r.1 } := by
  induction n with
  | zero =>
    intro done todo buffer c h
    obtain rfl := List.length_eq_zero_iff.1 h
    unfold parseRMBsS parseRMBs
    rw [go_pure_bind, final_bind]
    exact go_pure_bind (_, buffer) fun r => final (f r.2) r.1
  | succ n ih =>
    intro done todo buffer c h
    rcases todo with _ | ⟨t, ts⟩
    · cases h
    unfold parseRMBsS parseRMBs
    simp only [bind_assoc']
    finals [RMBSpec.final_parseS]
    refine congrArg _ (funext fun r => congrArg _ (funext fun b => ?_))
    have := ih (done ++ [r]) ts b c (Nat.succ.inj h)
    simp only [List.length_append, List.length_cons, List.length_nil, List.append_assoc, List.cons_append,
      List.nil_append] at this
    simpa using this

theorem final_parseRMBsContS (n : Nat) (f : Slice → SGo ConfirmRKeyCont Unit) : ∀ (done todo : List RMBSpec) (buffer : Slice)
    (c : ConfirmRKeyCont), todo.length = n →
    final (parseRMBsContS n done.length buffer >>= f) { c with OtherRMBs := done ++ todo } =
      parseRMBs todo buffer >>= fun r => final (f r.2) { c with OtherRMBs := done ++ r.1 } := by
  induction n with
  | zero =>
    intro done todo buffer c h
    obtain rfl := List.length_eq_zero_iff.1 h
    unfold parseRMBsContS parseRMBs
    rw [go_pure_bind, final_bind]
    exact go_pure_bind (_, buffer) fun r => final (f r.2) r.1
  | succ n ih =>
    intro done todo buffer c h
    rcases todo with _ | ⟨t, ts⟩
    · cases h
    unfold parseRMBsContS parseRMBs
    simp only [bind_assoc']
    finals [RMBSpec.final_parseS]
    refine congrArg _ (funext fun r => congrArg _ (funext fun b => ?_))
    have := ih (done ++ [r]) ts b c (Nat.succ.inj h)
    simp only [List.length_append, List.length_cons, List.length_nil, List.append_assoc, List.cons_append,
      List.nil_append] at this
    simpa using this

theorem final_parseRKeysS (n : Nat) (f : Slice → SGo DeleteRKey Unit) : ∀ (done todo : List UInt32) (buffer : Slice)
    (d : DeleteRKey), todo.length = n →
    final (parseRKeysS n done.length buffer >>= f) { d with rkeys := done ++ todo } =
      parseRKeys todo buffer >>= fun r => final (f r.2) { d with rkeys := done ++ r.1 } := by
  induction n with
  | zero =>
    intro done todo buffer d h
    obtain rfl := List.length_eq_zero_iff.1 h
    unfold parseRKeysS parseRKeys
    rw [go_pure_bind, final_bind]
    exact go_pure_bind (_, buffer) fun r => final (f r.2) r.1
  | succ n ih =>
    intro done todo buffer d h
    rcases todo with _ | ⟨t, ts⟩
    · cases h
    unfold parseRKeysS parseRKeys
    simp only [bind_assoc', go_bind_assoc]
    refine (final_liftM _ _ _).trans (congrArg _ (funext fun x => ?_))
    refine (final_liftM _ _ _).trans (congrArg _ (funext fun r => ?_))
    refine (final_assign _ _ _).trans ?_
    refine (final_liftM _ _ _).trans (congrArg _ (funext fun b => ?_))
    have := ih (done ++ [r]) ts b d (Nat.succ.inj h)
    simp only [List.length_append, List.length_cons, List.length_nil, List.append_assoc, List.cons_append,
      List.nil_append] at this
    simp only [go_pure_bind, List.set_append_right, Nat.le_refl, Nat.sub_self, List.set_cons_zero]
    exact this

theorem AddLinkCont.final_parseS (buffer : Slice) (a : AddLinkCont) : final (parseS buffer) a = a.parse buffer := by
  have h := fun f (b : Slice) (a : AddLinkCont) => final_parsePairsS a.RKeyPairs.length f [] a.RKeyPairs b a rfl
  simp only [List.nil_append, List.length_nil] at h
  unfold parseS parse
  same_step
  · exact BaseMsg.final_setBaseMsgS _ _
  repeat same_step
  refine (h _ _ _).trans (congrArg (Bind.bind _) (funext fun _ => ?_))
  rfl

theorem ConfirmRKey.final_parseS (buffer : Slice) (c : ConfirmRKey) : final (parseS buffer) c = c.parse buffer := by
  have h := fun f (b : Slice) (c : ConfirmRKey) => final_parseRMBsS c.OtherRMBs.length f [] c.OtherRMBs b c rfl
  simp only [List.nil_append, List.length_nil] at h
  unfold parseS parse
  same_step
  · exact BaseMsg.final_setBaseMsgS _ _
  repeat same_step
  refine (h _ _ _).trans (congrArg (Bind.bind _) (funext fun _ => ?_))
  exact final_liftM _ _ _

theorem ConfirmRKeyCont.final_parseS (buffer : Slice) (c : ConfirmRKeyCont) : final (parseS buffer) c = c.parse buffer := by
  have h := fun f (b : Slice) (c : ConfirmRKeyCont) => final_parseRMBsContS c.OtherRMBs.length f [] c.OtherRMBs b c rfl
  simp only [List.nil_append, List.length_nil] at h
  unfold parseS parse
  same_step
  · exact BaseMsg.final_setBaseMsgS _ _
  repeat same_step
  refine (h _ _ _).trans (congrArg (Bind.bind _) (funext fun _ => ?_))
  exact final_liftM _ _ _

theorem DeleteRKey.final_parseS (buffer : Slice) (d : DeleteRKey) : final (parseS buffer) d = d.parse buffer := by
  have h := fun f (b : Slice) (d : DeleteRKey) => final_parseRKeysS d.rkeys.length f [] d.rkeys b d rfl
  simp only [List.nil_append, List.length_nil] at h
  unfold parseS parse
  same_step
  · exact BaseMsg.final_setBaseMsgS _ _
  repeat same_step
  refine (h _ _ _).trans (congrArg (Bind.bind _) (funext fun _ => ?_))
  rfl

end SMC.LLC

namespace SMC.RoCE
open SGo

theorem BTH.final_parseS (buffer : Slice) (b : BTH) : final (parseS buffer) b = b.parse buffer := by
  unfold parseS parse
  repeat same_step
  rfl

end SMC.RoCE
