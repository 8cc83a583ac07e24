import Verif.Lemmas.CutLLC
/-!
# A single field that is read in a loop

Like `Cut` (`Verif/Lemmas/Cut.lean`), for one part of the message and any claim about it.
-/

namespace SMC.Tail
open SGo Left

/-- a part of a message; `put` changes the raw message -/
structure Sight (σ ρ X : Type) where
  get : σ → X
  put : ρ → σ → σ
  get_put : ∀ r s, get (put r s) = get s
  put_put : ∀ r r' s, put r (put r' s) = put r s

/-- What the rest of the code keeps, and what it leaves after a panic: `after old new got`. -/
structure Kit (X : Type) where
  keeps : X → X → Prop
  after : X → X → X → Prop
  refl : ∀ x, keeps x x
  start : ∀ x y, keeps x y → after x y x

variable {σ ρ X α β γ : Type} (S : Sight σ ρ X) (k : Kit X)

/-- `y` keeps what is to be kept; where `x` ends with a panic and `y` returns, the claim holds. -/
def Held (r : Prop) (x : SGo σ α) (y : SGo σ β) : Prop :=
  (∀ s, k.keeps (S.get s) (S.get (y s).2)) ∧ (r → ∀ s q l l' b, (x s).1 = .panic l → (y (S.put q s)).1 = .ret l' b →
    k.after (S.get s) (S.get (y (S.put q s)).2) (S.get (x s).2))

variable {S k}

theorem Held.weaken {r r' : Prop} {x : SGo σ α} {y : SGo σ β} (hr : r → r') (h : Held S k r' x y) : Held S k r x y :=
  ⟨h.1, fun hr' => h.2 (hr hr')⟩

theorem Held.block {k' : Kit X} {r : Prop} {x y : SGo σ α} {f : α → SGo σ β} {g : α → SGo σ γ} (R : α → α → Prop)
    (hm : r → ∀ s q l a, (x s).1 = .ret l a → ∃ l' b, y (S.put q s) = (.ret l' b, S.put q (x s).2) ∧ R a b)
    (hy : ∀ s v, k'.keeps (S.get (y s).2) v → k.keeps (S.get s) v)
    (hx : r → ∀ s v w, k'.keeps (S.get (x s).2) v → k'.after (S.get (x s).2) v w → k.after (S.get s) v w)
    (hp : r → ∀ s q l l' b v, (x s).1 = .panic l → (y (S.put q s)).1 = .ret l' b →
      k'.keeps (S.get (y (S.put q s)).2) v → k.after (S.get s) v (S.get (x s).2))
    (next : ∀ a b, Held S k' (R a b) (f a) (g b)) : Held S k r (x >>= f) (y >>= g) := by
  refine ⟨fun s => ?_, fun hr s q l l' b hxp hyr => ?_⟩
  · rcases hys : y s with ⟨⟨l, b⟩ | l, t⟩
    · rw [(bind_ret hys).1]
      refine hy s _ ?_
      rw [hys]
      exact (next b b).1 t
    · rw [bind_panic hys]
      refine hy s _ ?_
      rw [hys]
      exact k'.refl _
  rcases hxs : x s with ⟨⟨l1, a⟩ | l1, s1⟩
  · obtain ⟨l2, b2, hy2, hR⟩ := hm hr s q l1 a (by rw [hxs])
    rw [hxs] at hy2
    obtain ⟨l3, hfa⟩ := (bind_ret hxs).2.1 _ hxp
    obtain ⟨l4, hgb⟩ := (bind_ret hy2).2.2 _ _ hyr
    rw [(bind_ret hxs).1, (bind_ret hy2).1]
    refine hx hr s _ _ ?_ ?_
    · rw [hxs, ← S.get_put q]
      exact (next a b2).1 _
    · rw [hxs]
      exact (next a b2).2 hR s1 q _ _ _ hfa hgb
  · rcases hys : y (S.put q s) with ⟨⟨l2, b2⟩ | l2, t⟩
    · rw [bind_panic hxs, (bind_ret hys).1]
      have := hp hr s q l1 l2 b2 (S.get (g b2 t).2) (by rw [hxs]) (by rw [hys]) (by rw [hys]; exact (next b2 b2).1 t)
      rwa [hxs] at this
    · rw [bind_panic hys] at hyr
      cases hyr

/-- an assignment -/
theorem Held.assign {k' : Kit X} {r : Prop} {u : σ → σ} {f : Unit → SGo σ β} {g : Unit → SGo σ γ}
    (hput : ∀ q s, u (S.put q s) = S.put q (u s))
    (hy : ∀ s v, k'.keeps (S.get (u s)) v → k.keeps (S.get s) v)
    (hx : ∀ s v w, k'.keeps (S.get (u s)) v → k'.after (S.get (u s)) v w → k.after (S.get s) v w)
    (next : Held S k' r (f ()) (g ())) : Held S k r (SGo.assign u >>= f) (SGo.assign u >>= g) := by
  refine Held.block (fun _ _ => r) ?_ hy (fun _ => hx) (fun _ s q l l' b v h => by cases h) (fun _ _ => next)
  intro hr s q l a _
  exact ⟨[], (), congrArg (Prod.mk _) (hput q s), hr⟩

/-- an assignment to another field -/
theorem Held.keep {r : Prop} {u v : σ → σ} {f : Unit → SGo σ β} {g : Unit → SGo σ γ} (hu : ∀ s, S.get (u s) = S.get s)
    (hv : ∀ s, S.get (v s) = S.get s) (hput : r → ∀ q s, v (S.put q s) = S.put q (u s)) (next : Held S k r (f ()) (g ())) :
    Held S k r (SGo.assign u >>= f) (SGo.assign v >>= g) := by
  refine Held.block (k' := k) (fun _ _ => r) ?_ ?_ ?_ (fun _ s q l l' b v h => by cases h) (fun _ _ => next)
  · intro hr s q l a _
    exact ⟨[], (), congrArg (Prod.mk _) (hput hr q s), hr⟩
  · intro s w h
    rwa [show S.get (SGo.assign v s).2 = S.get s from hv s] at h
  · intro _ s w w' _ h
    rwa [show S.get (SGo.assign u s).2 = S.get s from hu s] at h

/-- nothing is left that changes the field -/
theorem Held.rest {r : Prop} {x : SGo σ α} {y : SGo σ β} (hx : ∀ s, S.get (x s).2 = S.get s) (hy : ∀ s, S.get (y s).2 = S.get s) :
    Held S k r x y := by
  refine ⟨fun s => by rw [hy]; exact k.refl _, fun _ s q l l' b _ _ => ?_⟩
  rw [hx, hy, S.get_put]
  exact k.start _ _ (k.refl _)

theorem Held.done {r : Prop} {x : SGo σ α} {y : SGo σ β} (hx : ∀ s l, (x s).1 ≠ .panic l) (hy : ∀ s, S.get (y s).2 = S.get s) :
    Held S k r x y :=
  ⟨fun s => by rw [hy]; exact k.refl _, fun _ s _ l _ _ h _ => absurd h (hx s l)⟩

theorem Held.lift {r : Prop} {p q : Go α} {f : α → SGo σ β} {g : α → SGo σ γ} (R : α → α → Prop)
    (hm : r → ∀ l a, p = .ret l a → ∃ l' b, q = .ret l' b ∧ R a b)
    (next : ∀ a b, Held S k (R a b) (f a) (g b)) :
    Held S k r ((liftM p : SGo σ α) >>= f) ((liftM q : SGo σ α) >>= g) := by
  refine Held.block (k' := k) R ?_ (fun _ _ h => h) (fun _ _ _ _ _ h => h) ?_ next
  · intro hr s t l a h
    obtain ⟨l', b, h1, h2⟩ := hm hr l a h
    exact ⟨l', b, congrArg (·, S.put t s) h1, h2⟩
  · intro hr s t l l' b v _ _ h
    refine k.start _ _ ?_
    rwa [show S.get (((liftM q : SGo σ α)) (S.put t s)).2 = S.get s from S.get_put t s] at h

theorem Held.gets {r : Prop} {p : σ → α} {f : α → SGo σ β} {g : α → SGo σ γ} (hp : ∀ q s, p (S.put q s) = p s)
    (next : ∀ a, Held S k r (f a) (g a)) : Held S k r (SGo.gets p >>= f) (SGo.gets p >>= g) := by
  refine Held.block (k' := k) (fun a b => a = b ∧ r) ?_ (fun _ _ h => h) (fun _ _ _ _ _ h => h) ?_ ?_
  · intro hr s t l a h
    exact ⟨l, a, by
      show (Go.ret [] (p (S.put t s)), S.put t s) = _
      rw [hp]
      exact congrArg (·, S.put t s) h, rfl, hr⟩
  · intro _ s t l l' b v h
    cases h
  · intro a b
    refine ⟨(next b).1, fun h => ?_⟩
    obtain ⟨rfl, h⟩ := h
    exact (next a).2 h

theorem Held.ite {r : Prop} {c : Prop} [Decidable c] {x y : SGo σ α} {v w : SGo σ β} (h : Held S k r x v)
    (h' : Held S k r y w) : Held S k r (if c then x else y) (if c then v else w) := by
  split <;> assumption

/-- code that only logs -/
theorem Held.logs {r : Prop} {p q : Go Unit} {f : Unit → SGo σ β} {g : Unit → SGo σ γ} (hp : ∃ l, p = .ret l ())
    (hq : ∃ l, q = .ret l ()) (next : Held S k r (f ()) (g ())) :
    Held S k r ((liftM p : SGo σ Unit) >>= f) ((liftM q : SGo σ Unit) >>= g) := by
  obtain ⟨l, rfl⟩ := hp
  obtain ⟨l', rfl⟩ := hq
  exact Held.lift (fun _ _ => r) (fun hr _ _ _ => ⟨_, _, rfl, hr⟩) fun _ _ => next

theorem Held.logs_last {r : Prop} {p q : Go Unit} : Held S k r (liftM p : SGo σ Unit) (liftM q : SGo σ Unit) :=
  Held.rest (fun _ => rfl) fun _ => rfl

/-- code that panics in both cases -/
theorem Held.panics {r : Prop} {x : SGo σ β} {l : List Bytes} {g : α → SGo σ γ} :
    Held S k r x ((liftM (.panic l : Go α) : SGo σ α) >>= g) := by
  have e : ∀ s, ((liftM (.panic l : Go α) : SGo σ α) >>= g) s = (.panic l, s) := fun s => bind_panic rfl
  refine ⟨fun s => by rw [e]; exact k.refl _, fun _ s q l' l'' b _ hy => ?_⟩
  rw [e] at hy
  cases hy

/-! ## The buffers -/

variable {len off : Nat} {a b : Slice} {f : UInt8 → SGo σ β} {g : UInt8 → SGo σ γ}

theorem Held.idx {n : Nat} (next : ∀ x, Held S k (Rest len off a b) (f x) (g x)) :
    Held S k (Rest len off a b) ((liftM (a.idx n) : SGo σ UInt8) >>= f) ((liftM (b.idx n) : SGo σ UInt8) >>= g) := by
  refine Held.lift (fun x y => x = y ∧ Rest len off a b) (fun hr l x h => ⟨l, x, hr.idx h, rfl, hr⟩) fun x y => ?_
  refine ⟨(next y).1, fun h => ?_⟩
  obtain ⟨rfl, h⟩ := h
  exact (next x).2 h

theorem Held.sfrom {n : Nat} {f : Slice → SGo σ β} {g : Slice → SGo σ γ}
    (next : ∀ a b, Held S k (Rest len (off + n) a b) (f a) (g b)) :
    Held S k (Rest len off a b) ((liftM (a.sfrom n) : SGo σ Slice) >>= f) ((liftM (b.sfrom n) : SGo σ Slice) >>= g) :=
  Held.lift (fun a b => Rest len (off + n) a b) (fun hr _ _ h => hr.sfrom h) next

theorem Held.sub {lo hi : Nat} {f : Slice → SGo σ β} {g : Slice → SGo σ γ}
    (next : ∀ v e e', Held S k (Rest len off a b) (f ⟨v, e⟩) (g ⟨v, e'⟩)) :
    Held S k (Rest len off a b) ((liftM (a.sub lo hi) : SGo σ Slice) >>= f)
      ((liftM (b.sub lo hi) : SGo σ Slice) >>= g) := by
  refine Held.lift (fun x y => x.vis = y.vis ∧ Rest len off a b) (fun hr l x h => ?_) fun x y => ?_
  · obtain ⟨l', b', h1, h2, _⟩ := hr.sub h
    exact ⟨l', b', h1, h2.symm, hr⟩
  · refine ⟨(next y.vis y.extra y.extra).1, fun h => ?_⟩
    obtain ⟨h, hr⟩ := h
    obtain ⟨v, e⟩ := x
    obtain ⟨w, e'⟩ := y
    obtain rfl : v = w := h
    exact (next v e e').2 hr

/-- a number of `hi - lo` bytes -/
theorem Held.number {lo hi : Nat} {p : Slice → Go α} {f : α → SGo σ β} {g : α → SGo σ γ}
    (hp : ∀ v : Bytes, v.length = hi - lo → ∃ x, ∀ e, p ⟨v, e⟩ = .ret [] x)
    (next : ∀ x, Held S k (Rest len off a b) (f x) (g x)) :
    Held S k (Rest len off a b) ((liftM (a.sub lo hi) : SGo σ Slice) >>= fun v => (liftM (p v) : SGo σ α) >>= f)
      ((liftM (b.sub lo hi) : SGo σ Slice) >>= fun v => (liftM (p v) : SGo σ α) >>= g) := by
  refine Held.lift (fun x y => x.vis = y.vis ∧ x.vis.length = hi - lo ∧ Rest len off a b) (fun hr l x h => ?_) fun x y => ?_
  · obtain ⟨l', b', h1, h2, h3⟩ := hr.sub h
    exact ⟨l', b', h1, h2.symm, h3, hr⟩
  · refine Held.lift (fun v w => v = w ∧ Rest len off a b) ?_ ?_
    · intro h l v hv
      obtain ⟨h, h', hr⟩ := h
      obtain ⟨z, hz⟩ := hp _ h'
      have h1 := hz x.extra
      have h2 := hz y.extra
      rw [show (⟨x.vis, x.extra⟩ : Slice) = x from rfl, hv] at h1
      rw [h, show (⟨y.vis, y.extra⟩ : Slice) = y from rfl] at h2
      cases h1
      exact ⟨_, _, h2, rfl, hr⟩
    · intro v w
      refine ⟨(next w).1, fun h => ?_⟩
      obtain ⟨rfl, h⟩ := h
      exact (next v).2 h

theorem Held.sto {hi : Nat} {f : Slice → SGo σ β} {g : Slice → SGo σ γ}
    (next : ∀ v e e', Held S k (Rest len off a b) (f ⟨v, e⟩) (g ⟨v, e'⟩)) :
    Held S k (Rest len off a b) ((liftM (a.sto hi) : SGo σ Slice) >>= f)
      ((liftM (b.sto hi) : SGo σ Slice) >>= g) := Held.sub next

theorem Held.number_sto {hi : Nat} {p : Slice → Go α} {f : α → SGo σ β} {g : α → SGo σ γ}
    (hp : ∀ v : Bytes, v.length = hi → ∃ x, ∀ e, p ⟨v, e⟩ = .ret [] x)
    (next : ∀ x, Held S k (Rest len off a b) (f x) (g x)) :
    Held S k (Rest len off a b) ((liftM (a.sto hi) : SGo σ Slice) >>= fun v => (liftM (p v) : SGo σ α) >>= f)
      ((liftM (b.sto hi) : SGo σ Slice) >>= fun v => (liftM (p v) : SGo σ α) >>= g) :=
  Held.number hp next

/-- a number of 2 bytes from byte `skip` on -/
theorem Held.number16 {skip : Nat} {f : UInt16 → SGo σ β} {g : UInt16 → SGo σ γ}
    (next : ∀ x, Held S k (Rest len off a b) (f x) (g x)) :
    Held S k (Rest len off a b) ((liftM (a.sub skip (skip + 2)) : SGo σ Slice) >>= fun v => (liftM (be16 v) : SGo σ UInt16) >>= f)
      ((liftM (b.sub skip (skip + 2)) : SGo σ Slice) >>= fun v => (liftM (be16 v) : SGo σ UInt16) >>= g) :=
  Held.number (fun v h => be16_ok v (by omega)) next

/-- a number of 8 bytes from byte `skip` on -/
theorem Held.number64 {skip : Nat} {f : UInt64 → SGo σ β} {g : UInt64 → SGo σ γ}
    (next : ∀ x, Held S k (Rest len off a b) (f x) (g x)) :
    Held S k (Rest len off a b) ((liftM (a.sub skip (skip + 8)) : SGo σ Slice) >>= fun v => (liftM (be64 v) : SGo σ UInt64) >>= f)
      ((liftM (b.sub skip (skip + 8)) : SGo σ Slice) >>= fun v => (liftM (be64 v) : SGo σ UInt64) >>= g) :=
  Held.number (fun v h => be64_ok v (by omega)) next

/-! ## The whole method -/

/-- `Parse` keeps the buffer as raw message before it reads the fields. -/
theorem held_whole {short long : Slice} {X Y : SGo σ Unit} {rs rl : ρ} {m s' m' : σ} {l l' : List Bytes} (h : Part short long)
    (hT : Held S k (Rest short.len 0 short long) X Y)
    (hs : (SGo.assign (S.put rs) >>= fun _ => X) m = (.panic l, s'))
    (hl : final (SGo.assign (S.put rl) >>= fun _ => Y) m = .ret l' m') :
    k.after (S.get m) (S.get m') (S.get s') := by
  rw [bind_assign] at hs
  unfold final at hl
  rw [bind_assign] at hl
  rcases hc : Y (S.put rl m) with ⟨⟨lc, c⟩ | lc, sc⟩
  · rw [hc] at hl
    cases hl
    have key := hT.2 ⟨h, Nat.add_zero _⟩ (S.put rs m) rl l l' c (by rw [hs]) (by rw [S.put_put, hc])
    rwa [S.put_put, hc, hs, S.get_put] at key
  · rw [hc] at hl
    cases hl

/-- reading a part of the buffer -/
macro "held_read" : tactic => `(tactic| first
  | (with_reducible refine Held.idx fun _ => ?_)
  | (with_reducible refine Held.sfrom fun _ _ => ?_)
  | (with_reducible refine Held.number16 fun _ => ?_)
  | (with_reducible refine Held.number64 fun _ => ?_)
  | (with_reducible refine Held.number be16_ok fun _ => ?_)
  | (with_reducible refine Held.number be32_ok fun _ => ?_)
  | (with_reducible refine Held.number be64_ok fun _ => ?_)
  | (with_reducible refine Held.sub fun _ _ _ => ?_)
  | (with_reducible refine Held.number_sto be16_ok fun _ => ?_)
  | (with_reducible refine Held.number_sto be32_ok fun _ => ?_)
  | (with_reducible refine Held.number_sto be64_ok fun _ => ?_)
  | (with_reducible refine Held.sto fun _ _ _ => ?_))

/-- an assignment to another field -/
macro "held_keep" : tactic => `(tactic|
  ((with_reducible refine Held.keep ?_ ?_ ?_ ?_)
   · exact fun _ => rfl
   · exact fun _ => rfl
   · exact fun _ _ _ => rfl))

/-- reading a field of the message -/
macro "held_gets" : tactic => `(tactic|
  ((with_reducible refine Held.gets ?_ fun _ => ?_); · exact fun _ _ => rfl))

/-- one statement -/
macro "held_step" : tactic => `(tactic| first
  | held_read
  | held_keep
  | held_gets)

/-- the whole buffer again -/
macro "held_root" h:ident : tactic => `(tactic| refine Held.weaken (fun _ => Rest.root $h) ?_)

/-! ## Entries -/

variable {ι ξ : Type}

/-- The entries with `C m` have been read: the code keeps them. After a panic those with some `C m'` are new, the others are
old. -/
def entries {M : Type} (C : M → ι → Prop) (m : M) : Kit (ι → ξ) where
  keeps x y := ∀ i, C m i → y i = x i
  after x y z := ∃ m', (∀ i, C m i → C m' i) ∧ ∀ i, (C m' i → z i = y i) ∧ (¬ C m' i → z i = x i)
  refl _ _ _ := rfl
  start _ _ h := ⟨m, fun _ h => h, fun i => ⟨fun hi => (h i hi).symm, fun _ => rfl⟩⟩

/-- assignments to the entries with `Q` -/
theorem Held.fill {M : Type} {C : M → ι → Prop} {m m' : M} {S : Sight σ ρ (ι → ξ)} {Q : ι → Prop} {r : Prop} {x y : SGo σ α}
    {f : α → SGo σ β} {g : α → SGo σ γ} (R : α → α → Prop)
    (hm : r → ∀ s q l a, (x s).1 = .ret l a → ∃ l' b, y (S.put q s) = (.ret l' b, S.put q (x s).2) ∧ R a b)
    (hQ : ∀ i, C m i → ¬ Q i) (hC : ∀ i, C m' i ↔ C m i ∨ Q i)
    (hx : ∀ s i, ¬ Q i → S.get (x s).2 i = S.get s i)
    (hy : ∀ s i, ¬ Q i → S.get (y s).2 i = S.get s i)
    (hp : r → ∀ s q l l' b, (x s).1 = .panic l → (y (S.put q s)).1 = .ret l' b →
      ∃ k, (∀ i, C m i → C k i) ∧ (∀ i, C k i → C m' i) ∧ ∀ i, Q i →
        (C k i → S.get (x s).2 i = S.get (y (S.put q s)).2 i) ∧ (¬ C k i → S.get (x s).2 i = S.get s i))
    (next : ∀ a b, Held S (entries C m') (R a b) (f a) (g b)) : Held S (entries C m) r (x >>= f) (y >>= g) := by
  refine Held.block R hm ?_ ?_ ?_ next
  · intro s v h i hi
    rw [h i ((hC i).2 (.inl hi)), hy s i (hQ i hi)]
  · rintro _ s v w hk ⟨k, h1, h2⟩
    refine ⟨k, fun i hi => h1 i ((hC i).2 (.inl hi)), fun i => ⟨(h2 i).1, fun hi => ?_⟩⟩
    rw [(h2 i).2 hi]
    exact hx s i fun hi' => hi (h1 i ((hC i).2 (.inr hi')))
  · intro hr s q l l' b v h1 h2 hk
    obtain ⟨k, h3, h4, h5⟩ := hp hr s q l l' b h1 h2
    refine ⟨k, h3, fun i => ⟨fun hi => ?_, fun hi => ?_⟩⟩
    · rw [hk i (h4 i hi)]
      by_cases hi' : Q i
      · exact (h5 i hi').1 hi
      · rw [hx s i hi', hy _ i hi', S.get_put]
    · by_cases hi' : Q i
      · exact (h5 i hi').2 hi
      · exact hx s i hi'

theorem Held.fill_assign {M : Type} {C : M → ι → Prop} {m : M} (m' : M) {S : Sight σ ρ (ι → ξ)} {Q : ι → Prop} {r : Prop}
    {u : σ → σ} {f : Unit → SGo σ β} {g : Unit → SGo σ γ}
    (hput : ∀ q s, u (S.put q s) = S.put q (u s)) (hQ : ∀ i, C m i → ¬ Q i) (hC : ∀ i, C m' i ↔ C m i ∨ Q i)
    (hu : ∀ s i, ¬ Q i → S.get (u s) i = S.get s i)
    (next : Held S (entries C m') r (f ()) (g ())) : Held S (entries C m) r (SGo.assign u >>= f) (SGo.assign u >>= g) :=
  Held.fill (m' := m') (fun _ _ => r) (fun hr s q _ _ _ => ⟨[], (), congrArg (Prod.mk _) (hput q s), hr⟩) hQ hC hu hu
    (fun _ _ _ _ _ _ h => by cases h) fun _ _ => next

/-- the entries before number `b` -/
def before (b i : Nat) : Prop := i < b

/-- the entries before number `ab.2` of list `ab.1` -/
def before2 (ab ij : Nat × Nat) : Prop := ij.1 < ab.1 ∨ ij.1 = ab.1 ∧ ij.2 < ab.2

theorem each_after {X : Type} {x y z : Nat → X} {m : Nat} (h : (entries before m).after x y z) :
    ∃ a, ∀ i, z i = if i < a then y i else x i := by
  obtain ⟨a, _, h⟩ := h
  refine ⟨a, fun i => ?_⟩
  split
  · exact (h i).1 ‹_›
  · exact (h i).2 ‹_›

theorem numbers_after {X : Type} {x y z : Nat × Nat → X} {m : Nat × Nat} (h : (entries before2 m).after x y z) :
    ∃ a b, ∀ i j, z (i, j) = if i < a ∨ i = a ∧ j < b then y (i, j) else x (i, j) := by
  obtain ⟨⟨a, b⟩, _, h⟩ := h
  refine ⟨a, b, fun i j => ?_⟩
  split
  · exact (h (i, j)).1 ‹_›
  · exact (h (i, j)).2 ‹_›

/-! ## Areas that are appended -/

def appends : Kit (List ξ) where
  keeps x y := x <+: y
  after x y z := x <+: z ∧ z <+: y
  refl _ := List.prefix_refl _
  start _ _ h := ⟨List.prefix_refl _, h⟩

theorem Held.append {S : Sight σ ρ (List ξ)} {r : Prop} {u : σ → σ} {f : Unit → SGo σ β} {g : Unit → SGo σ γ}
    (hput : ∀ q s, u (S.put q s) = S.put q (u s)) (hu : ∀ s, S.get s <+: S.get (u s))
    (next : Held S appends r (f ()) (g ())) : Held S appends r (SGo.assign u >>= f) (SGo.assign u >>= g) :=
  Held.assign (k' := appends) hput (fun s _ h => (hu s).trans h) (fun s _ _ _ h => ⟨(hu s).trans h.1, h.2⟩) next

/-! ## The other fields -/

/-- the fields without those with the numbers in `ks` -/
def without (V : View σ ρ) (ks : List Nat) : View σ ρ where
  fields s := ks.foldl (fun l k => l.set k (.num 0)) (V.fields s)
  raw := V.raw
  put := V.put
  fields_put r s := by rw [V.fields_put]
  raw_put := V.raw_put
  put_put := V.put_put

theorem getElem_without {V : View σ ρ} {ks : List Nat} {n : Nat} (h : n ∉ ks) (s : σ) :
    ((without V ks).fields s)[n]? = (V.fields s)[n]? := by
  show (ks.foldl (fun l k => l.set k (.num 0)) (V.fields s))[n]? = _
  generalize V.fields s = l
  induction ks generalizing l with
  | nil => rfl
  | cons k ks ih =>
    rw [List.foldl_cons, ih (fun h' => h (List.mem_cons_of_mem _ h')), List.getElem?_set_ne]
    rintro rfl
    exact h List.mem_cons_self

theorem between_without {V : View σ ρ} {ks : List Nat} {ways ways' : List (Nat × Way)} {m m' s' : σ}
    (h : Between ways ((without V ks).fields m) ((without V ks).fields m') ((without V ks).fields s'))
    (hw : ∀ w ∈ ways, w ∈ ways')
    (hk : ∀ k ∈ ks, ∃ w, (k, w) ∈ ways' ∧ w.between (V.fields m)[k]? (V.fields m')[k]? (V.fields s')[k]?) :
    Between ways' (V.fields m) (V.fields m') (V.fields s') := by
  intro n
  by_cases hn : n ∈ ks
  · exact .inr (.inr (hk n hn))
  · have := h n
    rw [getElem_without hn, getElem_without hn, getElem_without hn] at this
    rcases this with h | h | ⟨w, h, h'⟩
    · exact .inl h
    · exact .inr (.inl h)
    · exact .inr (.inr ⟨w, hw _ h, h'⟩)

/-- code that changes no field -/
theorem Cut.silent {V : View σ ρ} {W : Nat → Way → Prop} {i : Nat} {r : Prop} {x y : SGo σ α} {f : α → SGo σ β} {g : α → SGo σ γ}
    (R : α → α → Prop) (hx : ∀ s, V.fields (x s).2 = V.fields s) (hy : ∀ s, V.fields (y s).2 = V.fields s)
    (hm : r → ∀ s q l a, (x s).1 = .ret l a → ∃ l' b, y (V.put q s) = (.ret l' b, V.put q (x s).2) ∧ R a b)
    (next : ∀ a b, Cut V W i (R a b) (f a) (g b)) : Cut V W i r (x >>= f) (y >>= g) := by
  refine ⟨fun s n hn => ?_, fun hr s q l l' b hxp hyr n => ?_⟩
  · rcases hys : y s with ⟨⟨l, b⟩ | l, t⟩
    · rw [(bind_ret hys).1, (next b b).1 t n hn, ← hy s, hys]
    · rw [bind_panic hys, ← hy s, hys]
  rcases hxs : x s with ⟨⟨l1, a⟩ | l1, s1⟩
  · obtain ⟨l2, b2, hy2, hR⟩ := hm hr s q l1 a (by rw [hxs])
    rw [hxs] at hy2
    obtain ⟨l3, hfa⟩ := (bind_ret hxs).2.1 _ hxp
    obtain ⟨l4, hgb⟩ := (bind_ret hy2).2.2 _ _ hyr
    have key := (next a b2).2 hR s1 q _ _ _ hfa hgb n
    have e := hx s
    rw [hxs] at e
    rw [(bind_ret hxs).1, (bind_ret hy2).1, ← e]
    exact key
  · rw [bind_panic hxs]
    have e := hx s
    rw [hxs] at e
    rw [← e]
    exact Ok.old

theorem Cut.keep {V : View σ ρ} {W : Nat → Way → Prop} {i : Nat} {r : Prop} {u : σ → σ} {f : Unit → SGo σ β} {g : Unit → SGo σ γ}
    (hu : ∀ s, V.fields (u s) = V.fields s) (hput : ∀ q s, u (V.put q s) = V.put q (u s))
    (next : Cut V W i r (f ()) (g ())) : Cut V W i r (SGo.assign u >>= f) (SGo.assign u >>= g) :=
  Cut.silent (fun _ _ => r) hu hu (fun hr s q _ _ _ => ⟨[], (), congrArg (Prod.mk _) (hput q s), hr⟩) fun _ _ => next

/-- an assignment to a field that is left out -/
macro "cut_keep" : tactic => `(tactic|
  ((with_reducible refine Cut.keep ?_ ?_ ?_)
   · exact fun _ => rfl
   · exact fun _ _ => rfl))

end SMC.Tail
