import Verif.Lemmas.TailCLC
import Verif.Spec.LeftValue
/-!
# The values of the fields after a crash

Like `Tail` (`Verif/Lemmas/Tail.lean`), for the value of each field.
-/

namespace SMC.Tail
open SGo Left

variable {σ ρ α β γ δ : Type} (V : View σ ρ) (W : Nat → Way → Prop)

/-- the value of one field -/
def Ok (n : Nat) (old new got : Option Item) : Prop :=
  got = old ∨ got = new ∨ ∃ w, W n w ∧ w.between old new got

/-- Where `x` ends with a panic and `y` returns, all fields are as before, as in the end, or in between. `y` changes
only fields from number `i` on. -/
def Cut (i : Nat) (r : Prop) (x : SGo σ α) (y : SGo σ β) : Prop :=
  Above V i y ∧ (r → ∀ s q l l' b, (x s).1 = .panic l → (y (V.put q s)).1 = .ret l' b →
    ∀ n, Ok W n (V.fields s)[n]? (V.fields (y (V.put q s)).2)[n]? (V.fields (x s).2)[n]?)

variable {V W}

theorem Ok.old {n : Nat} {o w : Option Item} : Ok W n o w o := .inl rfl

theorem entry_end (x : Option Item) : ∃ k, ∀ i, k ≤ i → ∀ j, entry x i j = none := by
  rcases x with _ | (_ | _ | _ | _ | l) <;> try exact ⟨0, fun _ _ _ => rfl⟩
  refine ⟨l.length, fun i hi j => ?_⟩
  show (l[i]?).bind (·[j]?) = none
  rw [List.getElem?_eq_none hi]
  rfl

theorem area_end (x : Option Item) : ∃ k, ∀ i, k ≤ i → area x i = none := by
  rcases x with _ | (_ | _ | _ | l | _) <;> try exact ⟨0, fun _ _ => rfl⟩
  exact ⟨l.length, fun i hi => List.getElem?_eq_none hi⟩

theorem Ok.absorb {n : Nat} {o w g : Option Item} (h : Ok W n w w g) : Ok W n o w g := by
  rcases h with h | h | ⟨v, hv, h⟩
  · exact .inr (.inl h)
  · exact .inr (.inl h)
  cases v with
  | three => exact .inr (.inr ⟨_, hv, h⟩)
  | fresh n => exact .inr (.inr ⟨_, hv, h⟩)
  | nibble =>
    obtain ⟨p, x, y, z, h1, h2, h3⟩ := h
    refine .inr (.inr ⟨_, hv, p, x, y, z, h1, h2, .inl ?_⟩)
    rcases h3 with h3 | ⟨t, h3⟩
    · exact h3
    · rw [h1] at h3
      cases h3
      rfl
  | numbers =>
    obtain ⟨a, b, h⟩ := h
    obtain ⟨k, hk⟩ := entry_end o
    obtain ⟨k', hk'⟩ := entry_end w
    refine .inr (.inr ⟨_, hv, max k k', 0, fun i j => ?_⟩)
    have h := h i j
    rw [ite_self] at h
    rw [h]
    split
    · rfl
    · rw [hk i (by omega), hk' i (by omega)]
  | each =>
    obtain ⟨a, h⟩ := h
    obtain ⟨k, hk⟩ := area_end o
    obtain ⟨k', hk'⟩ := area_end w
    refine .inr (.inr ⟨_, hv, max k k', fun i => ?_⟩)
    have h := h i
    rw [ite_self] at h
    rw [h]
    split
    · rfl
    · rw [hk i (by omega), hk' i (by omega)]
  | appended =>
    obtain ⟨x, n, g, h1, h2, h3, h4, h5⟩ := h
    rw [h1] at h2
    cases h2
    refine .inr (.inl ?_)
    rw [h1, h3, h5.eq_of_length_le h4.length_le]

theorem Cut.weaken {i j : Nat} {r r' : Prop} {x : SGo σ α} {y : SGo σ β} (hij : i ≤ j) (hr : r → r')
    (h : Cut V W j r' x y) : Cut V W i r x y :=
  ⟨fun s n hn => h.1 s n (by omega), fun hr' => h.2 (hr hr')⟩

/-- a part of the code that changes only field `k`; the rest does not change it -/
theorem Cut.lump {i k : Nat} {r : Prop} {x y : SGo σ α} {f : α → SGo σ β} {g : α → SGo σ γ} (R : α → α → Prop)
    (hi : i ≤ k) (hx : Only V k x) (hy : Only V k y)
    (hm : r → ∀ s q l a, (x s).1 = .ret l a → ∃ l' b, y (V.put q s) = (.ret l' b, V.put q (x s).2) ∧ R a b)
    (hp : r → ∀ s q l l' b t, (x s).1 = .panic l → y (V.put q s) = (.ret l' b, t) →
      Ok W k (V.fields s)[k]? (V.fields t)[k]? (V.fields (x s).2)[k]?)
    (next : ∀ a b, Cut V W (k + 1) (R a b) (f a) (g b)) : Cut V W i r (x >>= f) (y >>= g) := by
  refine ⟨fun s n hn => ?_, fun hr s q l l' b hxp hyr n => ?_⟩
  · rcases hys : y s with ⟨⟨l, b⟩ | l, t⟩
    · rw [(bind_ret hys).1, (next b b).1 t n (by omega)]
      have := hy s n (by omega)
      rwa [hys] at this
    · rw [bind_panic hys]
      have := hy s n (by omega)
      rwa [hys] at this
  rcases hxs : x s with ⟨⟨l1, a⟩ | l1, s1⟩
  · obtain ⟨l2, b2, hy2, hR⟩ := hm hr s q l1 a (by rw [hxs])
    rw [hxs] at hy2
    obtain ⟨l3, hfa⟩ := (bind_ret hxs).2.1 _ hxp
    obtain ⟨l4, hgb⟩ := (bind_ret hy2).2.2 _ _ hyr
    have key := (next a b2).2 hR s1 q _ _ _ hfa hgb n
    rw [(bind_ret hxs).1, (bind_ret hy2).1]
    by_cases hn : n = k
    · subst hn
      have e := (next a b2).1 (V.put q s1) n (Nat.lt_succ_self _)
      rw [V.fields_put] at e
      rw [← e] at key
      exact key.absorb
    · have := hx s n hn
      rw [hxs] at this
      rwa [this] at key
  · rcases hys : y (V.put q s) with ⟨⟨l2, b2⟩ | l2, t⟩
    · rw [bind_panic hxs, (bind_ret hys).1]
      by_cases hn : n = k
      · subst hn
        have := hp hr s q l1 l2 b2 t (by rw [hxs]) hys
        rw [hxs] at this
        rwa [(next b2 b2).1 t n (Nat.lt_succ_self _)]
      · have := hx s n hn
        rw [hxs] at this
        rw [this]
        exact Ok.old
    · rw [bind_panic hys] at hyr
      cases hyr

/-- `x` changes nothing -/
theorem Cut.still {i : Nat} {r : Prop} {x : SGo σ α} {y : SGo σ β} (hx : ∀ s, (x s).2 = s) (hy : Above V i y) :
    Cut V W i r x y :=
  ⟨hy, fun _ s q l l' b _ _ n => by rw [hx]; exact Ok.old⟩

/-- where `x` panics, it has changed nothing -/
theorem Cut.last {i : Nat} {r : Prop} {x : SGo σ α} {y : SGo σ β}
    (hx : r → ∀ s q l l' b, (x s).1 = .panic l → (y (V.put q s)).1 = .ret l' b → (x s).2 = s) (hy : Above V i y) :
    Cut V W i r x y :=
  ⟨hy, fun hr s q l l' b hp hq n => by rw [hx hr s q l l' b hp hq]; exact Ok.old⟩

/-- the code ends -/
theorem Cut.done {i : Nat} {r : Prop} {x : SGo σ α} {y : SGo σ β} (hx : ∀ s l, (x s).1 ≠ .panic l)
    (hy : Above V i y) : Cut V W i r x y :=
  ⟨hy, fun _ s _ l _ _ h _ => absurd h (hx s l)⟩

theorem Cut.lift {i : Nat} {r : Prop} {p q : Go α} {f : α → SGo σ β} {g : α → SGo σ γ} (R : α → α → Prop)
    (hm : r → ∀ l a, p = .ret l a → ∃ l' b, q = .ret l' b ∧ R a b)
    (next : ∀ a b, Cut V W i (R a b) (f a) (g b)) :
    Cut V W i r ((liftM p : SGo σ α) >>= f) ((liftM q : SGo σ α) >>= g) := by
  refine ⟨fun s n hn => ?_, fun hr s t l l' b hxp hyr n => ?_⟩
  · rcases hq : q with ⟨l, b⟩ | l
    · rw [(bind_ret (x := (liftM (Go.ret l b) : SGo σ α)) (s := s) rfl).1]
      exact (next b b).1 s n hn
    · rw [bind_panic (x := (liftM (Go.panic l : Go α) : SGo σ α)) (s := s) rfl]
  · rcases hp : p with ⟨l1, a⟩ | l1
    · obtain ⟨l2, b2, rfl, hR⟩ := hm hr l1 a hp
      rw [hp] at hxp
      obtain ⟨l3, hfa⟩ := (bind_ret (x := (liftM (Go.ret l1 a) : SGo σ α)) (s := s) rfl).2.1 _ hxp
      obtain ⟨l4, hgb⟩ := (bind_ret (x := (liftM (Go.ret l2 b2) : SGo σ α)) (s := V.put t s) rfl).2.2 _ _ hyr
      rw [(bind_ret (x := (liftM (Go.ret l1 a) : SGo σ α)) (s := s) rfl).1,
        (bind_ret (x := (liftM (Go.ret l2 b2) : SGo σ α)) (s := V.put t s) rfl).1]
      exact (next a b2).2 hR s t _ _ _ hfa hgb n
    · rw [bind_panic (x := (liftM (Go.panic l1 : Go α) : SGo σ α)) (s := s) rfl]
      exact Ok.old

theorem only_assign {k : Nat} {u : σ → σ} (hu : ∀ s, ∃ a, V.fields (u s) = (V.fields s).set k a) :
    Only V k (SGo.assign u) := by
  intro s n hn
  obtain ⟨a, ha⟩ := hu s
  show (V.fields (u s))[n]? = _
  rw [ha, List.getElem?_set_ne (Ne.symm hn)]

/-- the assignment to field `k` -/
theorem Cut.assign {i k : Nat} {r : Prop} {u v : σ → σ} {f : Unit → SGo σ β} {g : Unit → SGo σ γ} (hi : i ≤ k)
    (hu : ∀ s, ∃ a, V.fields (u s) = (V.fields s).set k a) (hv : ∀ s, ∃ a, V.fields (v s) = (V.fields s).set k a)
    (hput : r → ∀ q s, v (V.put q s) = V.put q (u s))
    (next : Cut V W (k + 1) r (f ()) (g ())) : Cut V W i r (SGo.assign u >>= f) (SGo.assign v >>= g) := by
  refine Cut.lump (fun _ _ => r) hi (only_assign hu) (only_assign hv) ?_ (fun _ s q l l' b t h => by cases h) (fun _ _ => next)
  intro hr s q l a _
  exact ⟨[], (), congrArg (Prod.mk _) (hput hr q s), hr⟩

/-- the last assignment -/
theorem Cut.assign_last {i k : Nat} {r : Prop} {u v : σ → σ} (hi : i ≤ k)
    (hv : ∀ s, ∃ a, V.fields (v s) = (V.fields s).set k a) : Cut V W i r (SGo.assign u) (SGo.assign v) :=
  Cut.done (fun s l h => by cases h) fun s n hn => only_assign hv s n (by omega)

theorem Cut.gets {i : Nat} {r : Prop} {p : σ → α} {f : α → SGo σ β} {g : α → SGo σ γ} (hp : ∀ q s, p (V.put q s) = p s)
    (next : ∀ a, Cut V W i r (f a) (g a)) : Cut V W i r (SGo.gets p >>= f) (SGo.gets p >>= g) := by
  refine ⟨fun s n hn => ?_, fun hr s q l l' b hx hy => ?_⟩
  · rw [(bind_ret (x := SGo.gets p) (s := s) rfl).1]
    exact (next _).1 s n hn
  · obtain ⟨l1, hx'⟩ := (bind_ret (x := SGo.gets p) (s := s) rfl).2.1 _ hx
    obtain ⟨l2, hy'⟩ := (bind_ret (x := SGo.gets p) (s := V.put q s) rfl).2.2 _ _ hy
    rw [(bind_ret (x := SGo.gets p) (s := s) rfl).1, (bind_ret (x := SGo.gets p) (s := V.put q s) rfl).1]
    rw [hp] at hy' ⊢
    exact (next _).2 hr s q _ _ _ hx' hy'

theorem Cut.ite {i : Nat} {r : Prop} {c : Prop} [Decidable c] {x y : SGo σ α} {v w : SGo σ β} (h : Cut V W i r x v)
    (k : Cut V W i r y w) : Cut V W i r (if c then x else y) (if c then v else w) := by
  split <;> assumption

/-- code that only logs -/
theorem Cut.logs {i : Nat} {r : Prop} {p q : Go Unit} {f : Unit → SGo σ β} {g : Unit → SGo σ γ} (hp : ∃ l, p = .ret l ())
    (hq : ∃ l, q = .ret l ()) (next : Cut V W i r (f ()) (g ())) :
    Cut V W i r ((liftM p : SGo σ Unit) >>= f) ((liftM q : SGo σ Unit) >>= g) := by
  obtain ⟨l, rfl⟩ := hp
  obtain ⟨l', rfl⟩ := hq
  exact Cut.lift (fun _ _ => r) (fun hr _ _ _ => ⟨_, _, rfl, hr⟩) fun _ _ => next

theorem Cut.logs_last {i : Nat} {r : Prop} {p q : Go Unit} (hp : ∃ l, p = .ret l ()) :
    Cut V W i r (liftM p : SGo σ Unit) (liftM q : SGo σ Unit) := by
  obtain ⟨l, rfl⟩ := hp
  exact Cut.done (fun _ _ h => by cases h) fun _ _ _ => rfl

/-- code that panics in both cases -/
theorem Cut.panics {i : Nat} {r : Prop} {x : SGo σ β} {l : List Bytes} {g : α → SGo σ γ} :
    Cut V W i r x ((liftM (.panic l : Go α) : SGo σ α) >>= g) := by
  have e : ∀ s, ((liftM (.panic l : Go α) : SGo σ α) >>= g) s = (.panic l, s) := fun s => bind_panic rfl
  refine ⟨fun s n _ => by rw [e], fun _ s q l' l'' b _ hy => ?_⟩
  rw [e] at hy
  cases hy

/-! ## The buffers -/

variable {len off : Nat} {a b : Slice} {i : Nat} {f : UInt8 → SGo σ β} {g : UInt8 → SGo σ γ}

theorem Cut.idx {n : Nat} (next : ∀ x, Cut V W i (Rest len off a b) (f x) (g x)) :
    Cut V W i (Rest len off a b) ((liftM (a.idx n) : SGo σ UInt8) >>= f) ((liftM (b.idx n) : SGo σ UInt8) >>= g) := by
  refine Cut.lift (fun x y => x = y ∧ Rest len off a b) (fun hr l x h => ⟨l, x, hr.idx h, rfl, hr⟩) fun x y => ?_
  refine ⟨(next y).1, fun h => ?_⟩
  obtain ⟨rfl, h⟩ := h
  exact (next x).2 h

theorem Cut.sfrom {n : Nat} {f : Slice → SGo σ β} {g : Slice → SGo σ γ}
    (next : ∀ a b, Cut V W i (Rest len (off + n) a b) (f a) (g b)) :
    Cut V W i (Rest len off a b) ((liftM (a.sfrom n) : SGo σ Slice) >>= f) ((liftM (b.sfrom n) : SGo σ Slice) >>= g) :=
  Cut.lift (fun a b => Rest len (off + n) a b) (fun hr _ _ h => hr.sfrom h) next

theorem Cut.sub {lo hi : Nat} {f : Slice → SGo σ β} {g : Slice → SGo σ γ}
    (next : ∀ v e e', Cut V W i (Rest len off a b) (f ⟨v, e⟩) (g ⟨v, e'⟩)) :
    Cut V W i (Rest len off a b) ((liftM (a.sub lo hi) : SGo σ Slice) >>= f)
      ((liftM (b.sub lo hi) : SGo σ Slice) >>= g) := by
  refine Cut.lift (fun x y => x.vis = y.vis ∧ Rest len off a b) (fun hr l x h => ?_) fun x y => ?_
  · obtain ⟨l', b', h1, h2, _⟩ := hr.sub h
    exact ⟨l', b', h1, h2.symm, hr⟩
  · refine ⟨(next y.vis y.extra y.extra).1, fun h => ?_⟩
    obtain ⟨h, hr⟩ := h
    obtain ⟨v, e⟩ := x
    obtain ⟨w, e'⟩ := y
    obtain rfl : v = w := h
    exact (next v e e').2 hr

/-- a number of `hi - lo` bytes -/
theorem Cut.number {lo hi : Nat} {p : Slice → Go α} {f : α → SGo σ β} {g : α → SGo σ γ}
    (hp : ∀ v : Bytes, v.length = hi - lo → ∃ x, ∀ e, p ⟨v, e⟩ = .ret [] x)
    (next : ∀ x, Cut V W i (Rest len off a b) (f x) (g x)) :
    Cut V W i (Rest len off a b) ((liftM (a.sub lo hi) : SGo σ Slice) >>= fun v => (liftM (p v) : SGo σ α) >>= f)
      ((liftM (b.sub lo hi) : SGo σ Slice) >>= fun v => (liftM (p v) : SGo σ α) >>= g) := by
  refine Cut.lift (fun x y => x.vis = y.vis ∧ x.vis.length = hi - lo ∧ Rest len off a b) (fun hr l x h => ?_) fun x y => ?_
  · obtain ⟨l', b', h1, h2, h3⟩ := hr.sub h
    exact ⟨l', b', h1, h2.symm, h3, hr⟩
  · refine Cut.lift (fun v w => v = w ∧ Rest len off a b) ?_ ?_
    · intro h l v hv
      obtain ⟨h, h', hr⟩ := h
      obtain ⟨z, hz⟩ := hp _ h'
      have h1 := hz x.extra
      have h2 := hz y.extra
      rw [show (⟨x.vis, x.extra⟩ : Slice) = x from rfl, hv] at h1
      rw [h, show (⟨y.vis, y.extra⟩ : Slice) = y from rfl] at h2
      cases h1
      exact ⟨_, _, h2, rfl, hr⟩
    · intro v w
      refine ⟨(next w).1, fun h => ?_⟩
      obtain ⟨rfl, h⟩ := h
      exact (next v).2 h

theorem Cut.sto {hi : Nat} {f : Slice → SGo σ β} {g : Slice → SGo σ γ}
    (next : ∀ v e e', Cut V W i (Rest len off a b) (f ⟨v, e⟩) (g ⟨v, e'⟩)) :
    Cut V W i (Rest len off a b) ((liftM (a.sto hi) : SGo σ Slice) >>= f)
      ((liftM (b.sto hi) : SGo σ Slice) >>= g) := Cut.sub next

theorem Cut.number_sto {hi : Nat} {p : Slice → Go α} {f : α → SGo σ β} {g : α → SGo σ γ}
    (hp : ∀ v : Bytes, v.length = hi → ∃ x, ∀ e, p ⟨v, e⟩ = .ret [] x)
    (next : ∀ x, Cut V W i (Rest len off a b) (f x) (g x)) :
    Cut V W i (Rest len off a b) ((liftM (a.sto hi) : SGo σ Slice) >>= fun v => (liftM (p v) : SGo σ α) >>= f)
      ((liftM (b.sto hi) : SGo σ Slice) >>= fun v => (liftM (p v) : SGo σ α) >>= g) :=
  Cut.number hp next

/-- a number of 2 bytes from byte `skip` on -/
theorem Cut.number16 {skip : Nat} {f : UInt16 → SGo σ β} {g : UInt16 → SGo σ γ}
    (next : ∀ x, Cut V W i (Rest len off a b) (f x) (g x)) :
    Cut V W i (Rest len off a b) ((liftM (a.sub skip (skip + 2)) : SGo σ Slice) >>= fun v => (liftM (be16 v) : SGo σ UInt16) >>= f)
      ((liftM (b.sub skip (skip + 2)) : SGo σ Slice) >>= fun v => (liftM (be16 v) : SGo σ UInt16) >>= g) :=
  Cut.number (fun v h => be16_ok v (by omega)) next

/-- a number of 8 bytes from byte `skip` on -/
theorem Cut.number64 {skip : Nat} {f : UInt64 → SGo σ β} {g : UInt64 → SGo σ γ}
    (next : ∀ x, Cut V W i (Rest len off a b) (f x) (g x)) :
    Cut V W i (Rest len off a b) ((liftM (a.sub skip (skip + 8)) : SGo σ Slice) >>= fun v => (liftM (be64 v) : SGo σ UInt64) >>= f)
      ((liftM (b.sub skip (skip + 8)) : SGo σ Slice) >>= fun v => (liftM (be64 v) : SGo σ UInt64) >>= g) :=
  Cut.number (fun v h => be64_ok v (by omega)) next

/-! ## Fields that are read in several steps -/

theorem bind_assign {u : σ → σ} {f : Unit → SGo σ β} {s : σ} : (SGo.assign u >>= f) s = f () (u s) := by
  show SGo.instMonad.toBind.bind (SGo.assign u) f s = _
  simp only [Bind.bind, SGo.assign]
  rcases f () (u s) with ⟨⟨l, b⟩ | l, t⟩ <;> rfl

theorem bind_lift_panic {p : Go α} {f : α → SGo σ β} {s : σ} {l : List Bytes} (h : p = .panic l) :
    ((liftM p : SGo σ α) >>= f) s = (.panic l, s) := by
  rw [h]
  exact bind_panic rfl

theorem idx_nil {a : Slice} {n : Nat} {l : List Bytes} {x : UInt8} (h : a.idx n = .ret l x) : l = [] := by
  unfold Slice.idx at h
  split at h <;> cases h
  rfl

theorem sub_nil {a v : Slice} {lo hi : Nat} {l : List Bytes} (h : a.sub lo hi = .ret l v) : l = [] := by
  unfold Slice.sub at h
  split at h <;> cases h
  rfl

theorem bind_lift_ret {p : Go α} {f : α → SGo σ β} {s : σ} {x : α} (h : p = .ret [] x) :
    ((liftM p : SGo σ α) >>= f) s = f x s := by
  rw [h]
  show SGo.instMonad.toBind.bind _ f s = _
  simp only [Bind.bind, liftM, monadLift, MonadLift.monadLift, SGo.lift]
  rcases f x s with ⟨⟨l, b⟩ | l, t⟩ <;> rfl

/-- bytes that are copied to `n` new ones -/
theorem Cut.fresh {lo hi k n : Nat} {z : σ → σ} {u : Slice → σ → σ} {f g : Unit → SGo σ β} (hi' : i ≤ k)
    (hk : W k (Way.fresh n))
    (hz : ∀ s, V.fields (z s) = (V.fields s).set k (.bytes (zeros n))) (hlen : ∀ s, k < (V.fields s).length)
    (hu : ∀ v s, ∃ x, V.fields (u v s) = (V.fields s).set k x)
    (hv : ∀ v e e', u ⟨v, e⟩ = u ⟨v, e'⟩)
    (hzp : ∀ q s, z (V.put q s) = V.put q (z s)) (hup : ∀ v q s, u v (V.put q s) = V.put q (u v s))
    (next : Cut V W (k + 1) (Rest len off a b) (f ()) (g ())) :
    Cut V W i (Rest len off a b)
      (SGo.assign z >>= fun _ => (liftM (a.sub lo hi) : SGo σ Slice) >>= fun v => SGo.assign (u v) >>= f)
      (SGo.assign z >>= fun _ => (liftM (b.sub lo hi) : SGo σ Slice) >>= fun v => SGo.assign (u v) >>= g) := by
  have assoc : ∀ (c : Slice) (f : Unit → SGo σ β),
      (SGo.assign z >>= fun _ => (liftM (c.sub lo hi) : SGo σ Slice) >>= fun v => SGo.assign (u v) >>= f) =
      (SGo.assign z >>= fun _ => (liftM (c.sub lo hi) : SGo σ Slice) >>= fun v => SGo.assign (u v)) >>= f := by
    intro c f
    simp only [bind_assoc']
  have eval : ∀ (c : Slice) (s : σ),
      (∀ l, c.sub lo hi = .panic l → (SGo.assign z >>= fun _ => (liftM (c.sub lo hi) : SGo σ Slice) >>= fun v =>
        SGo.assign (u v)) s = (.panic l, z s)) ∧
      (∀ l v, c.sub lo hi = .ret l v → (SGo.assign z >>= fun _ => (liftM (c.sub lo hi) : SGo σ Slice) >>= fun v =>
        SGo.assign (u v)) s = (.ret [] (), u v (z s))) := by
    refine fun c s => ⟨fun l h => ?_, fun l v h => ?_⟩
    · rw [bind_assign, bind_lift_panic h]
    · obtain rfl := sub_nil h
      rw [bind_assign, bind_lift_ret h]
      rfl
  have only : ∀ c : Slice, Only V k (SGo.assign z >>= fun _ => (liftM (c.sub lo hi) : SGo σ Slice) >>= fun v =>
      SGo.assign (u v)) := by
    intro c s m hm
    rcases h : c.sub lo hi with ⟨l, v⟩ | l
    · rw [← h, ((eval c s).2 _ _ h)]
      obtain ⟨x, hx⟩ := hu v (z s)
      show (V.fields (u v (z s)))[m]? = _
      rw [hx, hz, List.getElem?_set_ne (Ne.symm hm), List.getElem?_set_ne (Ne.symm hm)]
    · rw [← h, ((eval c s).1 _ h)]
      show (V.fields (z s))[m]? = _
      rw [hz, List.getElem?_set_ne (Ne.symm hm)]
  rw [assoc, assoc]
  refine Cut.lump (fun _ _ => Rest len off a b) hi' (only a) (only b) ?_ ?_ (fun _ _ => next)
  · intro hr s q l x hx
    rcases h : a.sub lo hi with ⟨l1, v⟩ | l1
    · obtain ⟨l2, w, h1, h2, _⟩ := hr.sub h
      have e1 := (eval a s).2 _ _ h
      have e2 := (eval b (V.put q s)).2 _ _ h1
      refine ⟨[], (), ?_, hr⟩
      rw [← h, e2, e1]
      show (_, _) = (_, V.put q (u v (z s)))
      rw [hzp, hup]
      have : u w = u v := by
        obtain ⟨v, e⟩ := v
        obtain ⟨w, e'⟩ := w
        obtain rfl : w = v := h2
        exact hv _ _ _
      rw [this]
    · rw [(eval a s).1 _ h] at hx
      cases hx
  · intro hr s q l l' x t hx _
    rcases h : a.sub lo hi with ⟨l1, v⟩ | l1
    · rw [(eval a s).2 _ _ h] at hx
      cases hx
    · rw [← h, (eval a s).1 _ h]
      refine .inr (.inr ⟨_, hk, ?_⟩)
      show (V.fields (z s))[k]? = _
      rw [hz, List.getElem?_set_self (hlen s)]

/-- bytes that are copied to `n` new ones, from the start of the buffer -/
theorem Cut.fresh_sto {hi k n : Nat} {z : σ → σ} {u : Slice → σ → σ} {f g : Unit → SGo σ β} (hi' : i ≤ k)
    (hk : W k (Way.fresh n))
    (hz : ∀ s, V.fields (z s) = (V.fields s).set k (.bytes (zeros n))) (hlen : ∀ s, k < (V.fields s).length)
    (hu : ∀ v s, ∃ x, V.fields (u v s) = (V.fields s).set k x)
    (hv : ∀ v e e', u ⟨v, e⟩ = u ⟨v, e'⟩)
    (hzp : ∀ q s, z (V.put q s) = V.put q (z s)) (hup : ∀ v q s, u v (V.put q s) = V.put q (u v s))
    (next : Cut V W (k + 1) (Rest len off a b) (f ()) (g ())) :
    Cut V W i (Rest len off a b)
      (SGo.assign z >>= fun _ => (liftM (a.sto hi) : SGo σ Slice) >>= fun v => SGo.assign (u v) >>= f)
      (SGo.assign z >>= fun _ => (liftM (b.sto hi) : SGo σ Slice) >>= fun v => SGo.assign (u v) >>= g) :=
  Cut.fresh hi' hk hz hlen hu hv hzp hup next

theorem three_values (x y z : UInt8) : ∃ v : Nat, x.toNat <<< 16 ||| y.toNat <<< 8 ||| z.toNat = v ∧
    x.toNat <<< 16 = v / 0x10000 * 0x10000 ∧ x.toNat <<< 16 ||| y.toNat <<< 8 = v / 0x100 * 0x100 := by
  have hy := y.toNat_lt
  have hz := z.toNat_lt
  have e1 : x.toNat <<< 16 ||| y.toNat <<< 8 = (x.toNat * 256 + y.toNat) * 256 := by
    rw [← Nat.shiftLeft_add_eq_or_of_lt (by rw [Nat.shiftLeft_eq]; omega), Nat.shiftLeft_eq, Nat.shiftLeft_eq]
    omega
  have e2 : x.toNat <<< 16 ||| y.toNat <<< 8 ||| z.toNat = (x.toNat * 256 + y.toNat) * 256 + z.toNat := by
    rw [e1, show (x.toNat * 256 + y.toNat) * 256 = (x.toNat * 256 + y.toNat) <<< 8 by rw [Nat.shiftLeft_eq],
      ← Nat.shiftLeft_add_eq_or_of_lt (by omega)]
  refine ⟨_, e2, ?_, ?_⟩
  · rw [Nat.shiftLeft_eq]
    omega
  · rw [e1]
    omega

theorem three_values32 (x y z : UInt8) : ∃ v : Nat, (x.toUInt32 <<< 16 ||| y.toUInt32 <<< 8 ||| z.toUInt32).toNat = v ∧
    (x.toUInt32 <<< 16).toNat = v / 0x10000 * 0x10000 ∧ (x.toUInt32 <<< 16 ||| y.toUInt32 <<< 8).toNat = v / 0x100 * 0x100 := by
  obtain ⟨v, h1, h2, h3⟩ := three_values x y z
  have hx := x.toNat_lt
  have hy := y.toNat_lt
  have ex : (x.toUInt32 <<< 16).toNat = x.toNat <<< 16 := by
    simp only [UInt32.toNat_shiftLeft, UInt8.toNat_toUInt32]
    rw [Nat.mod_eq_of_lt]
    · rfl
    · show x.toNat <<< 16 < _
      rw [Nat.shiftLeft_eq]; omega
  have ey : (y.toUInt32 <<< 8).toNat = y.toNat <<< 8 := by
    simp only [UInt32.toNat_shiftLeft, UInt8.toNat_toUInt32]
    rw [Nat.mod_eq_of_lt]
    · rfl
    · show y.toNat <<< 8 < _
      rw [Nat.shiftLeft_eq]; omega
  refine ⟨v, ?_, ?_, ?_⟩
  · rw [UInt32.toNat_or, UInt32.toNat_or, ex, ey, UInt8.toNat_toUInt32, h1]
  · rw [ex, h2]
  · rw [UInt32.toNat_or, ex, ey, h3]

/-- a number of three bytes -/
theorem Cut.three {k : Nat} {p0 p1 p2 : UInt8 → σ → σ} {f g : Unit → SGo σ β} (hi' : i ≤ k)
    (hk : W k Way.three)
    (h0 : ∀ x s, ∃ c, V.fields (p0 x s) = (V.fields s).set k c) (h1 : ∀ x s, ∃ c, V.fields (p1 x s) = (V.fields s).set k c)
    (h2 : ∀ x s, ∃ c, V.fields (p2 x s) = (V.fields s).set k c)
    (hval : ∀ x y z s, ∃ v, (V.fields (p2 z (p1 y (p0 x s))))[k]? = some (.num v) ∧
      (V.fields (p0 x s))[k]? = some (.num (v / 0x10000 * 0x10000)) ∧
      (V.fields (p1 y (p0 x s)))[k]? = some (.num (v / 0x100 * 0x100)))
    (q0 : ∀ x q s, p0 x (V.put q s) = V.put q (p0 x s)) (q1 : ∀ x q s, p1 x (V.put q s) = V.put q (p1 x s))
    (q2 : ∀ x q s, p2 x (V.put q s) = V.put q (p2 x s))
    (next : Cut V W (k + 1) (Rest len off a b) (f ()) (g ())) :
    Cut V W i (Rest len off a b)
      ((liftM (a.idx 0) : SGo σ UInt8) >>= fun x => SGo.assign (p0 x) >>= fun _ =>
        (liftM (a.idx 1) : SGo σ UInt8) >>= fun x => SGo.assign (p1 x) >>= fun _ =>
        (liftM (a.idx 2) : SGo σ UInt8) >>= fun x => SGo.assign (p2 x) >>= f)
      ((liftM (b.idx 0) : SGo σ UInt8) >>= fun x => SGo.assign (p0 x) >>= fun _ =>
        (liftM (b.idx 1) : SGo σ UInt8) >>= fun x => SGo.assign (p1 x) >>= fun _ =>
        (liftM (b.idx 2) : SGo σ UInt8) >>= fun x => SGo.assign (p2 x) >>= g) := by
  have assoc : ∀ (c : Slice) (f : Unit → SGo σ β),
      ((liftM (c.idx 0) : SGo σ UInt8) >>= fun x => SGo.assign (p0 x) >>= fun _ =>
        (liftM (c.idx 1) : SGo σ UInt8) >>= fun x => SGo.assign (p1 x) >>= fun _ =>
        (liftM (c.idx 2) : SGo σ UInt8) >>= fun x => SGo.assign (p2 x) >>= f) =
      ((liftM (c.idx 0) : SGo σ UInt8) >>= fun x => SGo.assign (p0 x) >>= fun _ =>
        (liftM (c.idx 1) : SGo σ UInt8) >>= fun x => SGo.assign (p1 x) >>= fun _ =>
        (liftM (c.idx 2) : SGo σ UInt8) >>= fun x => SGo.assign (p2 x)) >>= f := by
    intro c f
    simp only [bind_assoc']
  have eval : ∀ (c : Slice) (s : σ) (X : SGo σ Unit),
      X = ((liftM (c.idx 0) : SGo σ UInt8) >>= fun x => SGo.assign (p0 x) >>= fun _ =>
        (liftM (c.idx 1) : SGo σ UInt8) >>= fun x => SGo.assign (p1 x) >>= fun _ =>
        (liftM (c.idx 2) : SGo σ UInt8) >>= fun x => SGo.assign (p2 x)) →
      (∃ l, X s = (.panic l, s)) ∨
      (∃ l x, c.idx 0 = .ret [] x ∧ X s = (.panic l, p0 x s)) ∨
      (∃ l x y, c.idx 0 = .ret [] x ∧ c.idx 1 = .ret [] y ∧ X s = (.panic l, p1 y (p0 x s))) ∨
      (∃ x y z, c.idx 0 = .ret [] x ∧ c.idx 1 = .ret [] y ∧ c.idx 2 = .ret [] z ∧
        X s = (.ret [] (), p2 z (p1 y (p0 x s)))) := by
    rintro c s X rfl
    rcases e0 : c.idx 0 with ⟨l, x⟩ | l
    · obtain rfl := idx_nil e0
      rcases e1 : c.idx 1 with ⟨l, y⟩ | l
      · obtain rfl := idx_nil e1
        rcases e2 : c.idx 2 with ⟨l, z⟩ | l
        · obtain rfl := idx_nil e2
          refine .inr (.inr (.inr ⟨x, y, z, rfl, rfl, rfl, ?_⟩))
          rw [bind_lift_ret rfl, bind_assign, bind_lift_ret rfl, bind_assign, bind_lift_ret rfl]
          rfl
        · refine .inr (.inr (.inl ⟨l, x, y, rfl, rfl, ?_⟩))
          rw [bind_lift_ret rfl, bind_assign, bind_lift_ret rfl, bind_assign, bind_lift_panic rfl]
      · refine .inr (.inl ⟨l, x, rfl, ?_⟩)
        rw [bind_lift_ret rfl, bind_assign, bind_lift_panic rfl]
    · exact .inl ⟨l, bind_lift_panic rfl⟩
  have only : ∀ c : Slice, Only V k ((liftM (c.idx 0) : SGo σ UInt8) >>= fun x => SGo.assign (p0 x) >>= fun _ =>
        (liftM (c.idx 1) : SGo σ UInt8) >>= fun x => SGo.assign (p1 x) >>= fun _ =>
        (liftM (c.idx 2) : SGo σ UInt8) >>= fun x => SGo.assign (p2 x)) := by
    intro c s m hm
    have k0 : ∀ x s, (V.fields (p0 x s))[m]? = (V.fields s)[m]? := by
      intro x s
      obtain ⟨_, h⟩ := h0 x s
      rw [h, List.getElem?_set_ne (Ne.symm hm)]
    have k1 : ∀ x s, (V.fields (p1 x s))[m]? = (V.fields s)[m]? := by
      intro x s
      obtain ⟨_, h⟩ := h1 x s
      rw [h, List.getElem?_set_ne (Ne.symm hm)]
    have k2 : ∀ x s, (V.fields (p2 x s))[m]? = (V.fields s)[m]? := by
      intro x s
      obtain ⟨_, h⟩ := h2 x s
      rw [h, List.getElem?_set_ne (Ne.symm hm)]
    rcases eval c s _ rfl with ⟨l, h⟩ | ⟨l, x, _, h⟩ | ⟨l, x, y, _, _, h⟩ | ⟨x, y, z, _, _, _, h⟩
    · rw [h]
    · rw [h, k0]
    · rw [h, k1, k0]
    · rw [h, k2, k1, k0]
  rw [assoc, assoc]
  refine Cut.lump (fun _ _ => Rest len off a b) hi' (only a) (only b) ?_ ?_ (fun _ _ => next)
  · intro hr s q l x hx
    rcases eval a s _ rfl with ⟨l, h⟩ | ⟨l, x, _, h⟩ | ⟨l, x, y, _, _, h⟩ | ⟨x, y, z, e0, e1, e2, h⟩
    · rw [h] at hx; cases hx
    · rw [h] at hx; cases hx
    · rw [h] at hx; cases hx
    · refine ⟨[], (), ?_, hr⟩
      rw [h]
      rw [bind_lift_ret (hr.idx e0), bind_assign, bind_lift_ret (hr.idx e1), bind_assign, bind_lift_ret (hr.idx e2)]
      show (_, _) = (_, V.put q _)
      rw [q0, q1, q2]
  · intro hr s q l l' x t hx ht
    rcases eval b (V.put q s) _ rfl with ⟨_, h⟩ | ⟨_, x, _, h⟩ | ⟨_, x, y, _, _, h⟩ | ⟨x, y, z, e0, e1, e2, h⟩
    · rw [h] at ht; cases ht
    · rw [h] at ht; cases ht
    · rw [h] at ht; cases ht
    rw [h] at ht
    cases ht
    rw [q0, q1, q2, V.fields_put]
    obtain ⟨v, v1, v2, v3⟩ := hval x y z s
    rcases eval a s _ rfl with ⟨_, h⟩ | ⟨_, x', e0', h⟩ | ⟨_, x', y', e0', e1', h⟩ | ⟨x', y', z', _, _, _, h⟩
    · rw [h]
      exact Ok.old
    · have := (hr.idx e0').symm.trans e0
      cases this
      rw [h]
      exact .inr (.inr ⟨_, hk, v, v1, .inl v2⟩)
    · have := (hr.idx e0').symm.trans e0
      cases this
      have := (hr.idx e1').symm.trans e1
      cases this
      rw [h]
      exact .inr (.inr ⟨_, hk, v, v1, .inr v3⟩)
    · rw [h] at hx; cases hx

theorem bind_pure' (x : SGo σ Unit) : (x >>= fun _ => pure ()) = x := by
  funext s
  show SGo.instMonad.toBind.bind x _ s = _
  simp only [Bind.bind, Pure.pure]
  rcases x s with ⟨⟨l, b⟩ | l, t⟩
  · simp only [List.append_nil]
  · rfl

/-- a number of three bytes at the end -/
theorem Cut.three_last {k : Nat} {p0 p1 p2 : UInt8 → σ → σ} (hi' : i ≤ k)
    (hk : W k Way.three)
    (h0 : ∀ x s, ∃ c, V.fields (p0 x s) = (V.fields s).set k c) (h1 : ∀ x s, ∃ c, V.fields (p1 x s) = (V.fields s).set k c)
    (h2 : ∀ x s, ∃ c, V.fields (p2 x s) = (V.fields s).set k c)
    (hval : ∀ x y z s, ∃ v, (V.fields (p2 z (p1 y (p0 x s))))[k]? = some (.num v) ∧
      (V.fields (p0 x s))[k]? = some (.num (v / 0x10000 * 0x10000)) ∧
      (V.fields (p1 y (p0 x s)))[k]? = some (.num (v / 0x100 * 0x100)))
    (q0 : ∀ x q s, p0 x (V.put q s) = V.put q (p0 x s)) (q1 : ∀ x q s, p1 x (V.put q s) = V.put q (p1 x s))
    (q2 : ∀ x q s, p2 x (V.put q s) = V.put q (p2 x s)) :
    Cut V W i (Rest len off a b)
      ((liftM (a.idx 0) : SGo σ UInt8) >>= fun x => SGo.assign (p0 x) >>= fun _ =>
        (liftM (a.idx 1) : SGo σ UInt8) >>= fun x => SGo.assign (p1 x) >>= fun _ =>
        (liftM (a.idx 2) : SGo σ UInt8) >>= fun x => SGo.assign (p2 x))
      ((liftM (b.idx 0) : SGo σ UInt8) >>= fun x => SGo.assign (p0 x) >>= fun _ =>
        (liftM (b.idx 1) : SGo σ UInt8) >>= fun x => SGo.assign (p1 x) >>= fun _ =>
        (liftM (b.idx 2) : SGo σ UInt8) >>= fun x => SGo.assign (p2 x)) := by
  have := Cut.three (V := V) (W := W) (len := len) (off := off) (a := a) (b := b) (f := fun _ => pure ()) (g := fun _ => pure ())
    hi' hk h0 h1 h2 hval q0 q1 q2 (Cut.done (fun _ _ h => by cases h) fun _ _ _ => rfl)
  simpa only [bind_pure'] using this

/-- the last field, in two steps; there is no panic between them -/
theorem Cut.two_last {k : Nat} {u : UInt8 → σ → σ} {w : Slice → σ → σ} (hi' : i ≤ k)
    (hu : ∀ x s, ∃ c, V.fields (u x s) = (V.fields s).set k c) (hw : ∀ v s, ∃ c, V.fields (w v s) = (V.fields s).set k c) :
    Cut V W i (Rest len off a b)
      ((liftM (a.idx 0) : SGo σ UInt8) >>= fun x => SGo.assign (u x) >>= fun _ =>
        (liftM (a.sfrom 1) : SGo σ Slice) >>= fun v => SGo.assign (w v))
      ((liftM (b.idx 0) : SGo σ UInt8) >>= fun x => SGo.assign (u x) >>= fun _ =>
        (liftM (b.sfrom 1) : SGo σ Slice) >>= fun v => SGo.assign (w v)) := by
  have eval : ∀ (c : Slice) (s : σ) (X : SGo σ Unit),
      X = ((liftM (c.idx 0) : SGo σ UInt8) >>= fun x => SGo.assign (u x) >>= fun _ =>
        (liftM (c.sfrom 1) : SGo σ Slice) >>= fun v => SGo.assign (w v)) →
      (X s).2 = s ∨ ∃ x v, X s = (.ret [] (), w v (u x s)) := by
    rintro c s X rfl
    rcases e0 : c.idx 0 with ⟨l, x⟩ | l
    · obtain rfl := idx_nil e0
      have hc : 1 ≤ c.len := by
        unfold Slice.idx at e0
        split at e0
        · rename_i hx
          exact (List.getElem?_eq_some_iff.1 hx).1
        · cases e0
      have e1 : c.sfrom 1 = .ret [] ⟨c.vis.drop 1, c.extra⟩ := by
        unfold Slice.sfrom
        rw [if_pos hc]
      refine .inr ⟨x, ⟨c.vis.drop 1, c.extra⟩, ?_⟩
      rw [bind_lift_ret rfl, bind_assign, bind_lift_ret e1]
      rfl
    · rw [bind_lift_panic rfl]
      exact .inl rfl
  refine Cut.last (fun _ s q l l' y hp _ => ?_) fun s n hn => ?_
  · rcases eval a s _ rfl with h | ⟨x, v, h⟩
    · exact h
    · rw [h] at hp
      cases hp
  · rcases eval b s _ rfl with h | ⟨x, v, h⟩
    · rw [h]
    · rw [h]
      obtain ⟨c, hc⟩ := hw v (u x s)
      obtain ⟨d, hd⟩ := hu x s
      show (V.fields (w v (u x s)))[n]? = _
      rw [hc, hd, List.getElem?_set_ne (by omega), List.getElem?_set_ne (by omega)]

/-! ## The whole method -/

/-- `Parse` keeps the buffer as raw message before it reads the fields. -/
theorem cut_whole {short long : Slice} {X Y : SGo σ Unit} {rs rl : ρ} {m s' m' : σ} {l l' : List Bytes} {ways : List (Nat × Way)} (h : Part short long)
    (hT : Cut V (fun n w => (n, w) ∈ ways) 0 (Rest short.len 0 short long) X Y)
    (hs : (SGo.assign (V.put rs) >>= fun _ => X) m = (.panic l, s'))
    (hl : final (SGo.assign (V.put rl) >>= fun _ => Y) m = .ret l' m') :
    Between ways (V.fields m) (V.fields m') (V.fields s') := by
  rw [bind_assign] at hs
  unfold final at hl
  rw [bind_assign] at hl
  rcases hc : Y (V.put rl m) with ⟨⟨lc, c⟩ | lc, sc⟩
  · rw [hc] at hl
    cases hl
    intro n
    have key := hT.2 ⟨h, Nat.add_zero _⟩ (V.put rs m) rl l l' c (by rw [hs]) (by rw [V.put_put, hc]) n
    rwa [V.put_put, hc, hs, V.fields_put] at key
  · rw [hc] at hl
    cases hl

/-- reading a part of the buffer -/
macro "cut_read" : tactic => `(tactic| first
  | (with_reducible refine Cut.idx fun _ => ?_)
  | (with_reducible refine Cut.sfrom fun _ _ => ?_)
  | (with_reducible refine Cut.number16 fun _ => ?_)
  | (with_reducible refine Cut.number64 fun _ => ?_)
  | (with_reducible refine Cut.number be16_ok fun _ => ?_)
  | (with_reducible refine Cut.number be32_ok fun _ => ?_)
  | (with_reducible refine Cut.number be64_ok fun _ => ?_)
  | (with_reducible refine Cut.sub fun _ _ _ => ?_)
  | (with_reducible refine Cut.number_sto be16_ok fun _ => ?_)
  | (with_reducible refine Cut.number_sto be32_ok fun _ => ?_)
  | (with_reducible refine Cut.number_sto be64_ok fun _ => ?_)
  | (with_reducible refine Cut.sto fun _ _ _ => ?_))

/-- the assignment to the field whose turn it is -/
macro "cut_assign" : tactic => `(tactic|
  ((with_reducible refine Cut.assign (Nat.le_refl _) ?_ ?_ ?_ ?_)
   · exact fun _ => ⟨_, rfl⟩
   · exact fun _ => ⟨_, rfl⟩
   · exact fun _ _ _ => rfl))

/-- bytes that are copied to `n` new ones -/
macro "cut_fresh_of" n:num : tactic => `(tactic|
  (first
   | (with_reducible refine Cut.fresh (n := $n) (Nat.le_refl _) (by decide) ?_ ?_ ?_ ?_ ?_ ?_ ?_)
   | (with_reducible refine Cut.fresh_sto (n := $n) (Nat.le_refl _) (by decide) ?_ ?_ ?_ ?_ ?_ ?_ ?_)
   · exact fun _ => rfl
   · exact fun _ => Nat.le_of_ble_eq_true rfl
   · exact fun _ _ => ⟨_, rfl⟩
   · exact fun _ _ _ => rfl
   · exact fun _ _ => rfl
   · exact fun _ _ _ => rfl))

/-- bytes that are copied to new ones -/
macro "cut_fresh" : tactic => `(tactic| first | cut_fresh_of 6 | cut_fresh_of 16 | cut_fresh_of 4)

/-- the values of a number of three bytes -/
macro "cut_values" : tactic => `(tactic|
  (intro x y z s
   obtain ⟨v, h1, h2, h3⟩ := three_values32 x y z
   exact ⟨v, congrArg (fun n => some (Item.num n)) h1, congrArg (fun n => some (Item.num n)) h2,
     congrArg (fun n => some (Item.num n)) h3⟩))

/-- a number of three bytes without bound -/
macro "cut_three_nat" : tactic => `(tactic|
  ((with_reducible refine Cut.three (Nat.le_refl _) (by decide) ?_ ?_ ?_ ?_ ?_ ?_ ?_ ?_)
   · exact fun _ _ => ⟨_, rfl⟩
   · exact fun _ _ => ⟨_, rfl⟩
   · exact fun _ _ => ⟨_, rfl⟩
   · intro x y z s
     obtain ⟨v, h1, h2, h3⟩ := three_values x y z
     exact ⟨v, congrArg (fun n => some (Item.num n)) h1, congrArg (fun n => some (Item.num n)) h2,
       congrArg (fun n => some (Item.num n)) h3⟩
   · exact fun _ _ _ => rfl
   · exact fun _ _ _ => rfl
   · exact fun _ _ _ => rfl))

/-- a number of three bytes -/
macro "cut_three" : tactic => `(tactic|
  ((with_reducible refine Cut.three (Nat.le_refl _) (by decide) ?_ ?_ ?_ ?_ ?_ ?_ ?_ ?_)
   · exact fun _ _ => ⟨_, rfl⟩
   · exact fun _ _ => ⟨_, rfl⟩
   · exact fun _ _ => ⟨_, rfl⟩
   · cut_values
   · exact fun _ _ _ => rfl
   · exact fun _ _ _ => rfl
   · exact fun _ _ _ => rfl))

/-- a number of three bytes at the end -/
macro "cut_three_last" : tactic => `(tactic|
  ((with_reducible refine Cut.three_last (Nat.le_refl _) (by decide) ?_ ?_ ?_ ?_ ?_ ?_ ?_)
   · exact fun _ _ => ⟨_, rfl⟩
   · exact fun _ _ => ⟨_, rfl⟩
   · exact fun _ _ => ⟨_, rfl⟩
   · cut_values
   · exact fun _ _ _ => rfl
   · exact fun _ _ _ => rfl
   · exact fun _ _ _ => rfl))

/-- two assignments at the end -/
macro "cut_two_last" : tactic => `(tactic|
  ((with_reducible refine Cut.two_last (Nat.le_refl _) ?_ ?_)
   · exact fun _ _ => ⟨_, rfl⟩
   · exact fun _ _ => ⟨_, rfl⟩))

/-- reading a field of the message -/
macro "cut_gets" : tactic => `(tactic|
  ((with_reducible refine Cut.gets ?_ fun _ => ?_); · exact fun _ _ => rfl))

/-- the last assignment -/
macro "cut_end" : tactic => `(tactic|
  (refine Cut.assign_last (Nat.le_refl _) ?_; exact fun _ => ⟨_, rfl⟩))

/-- one statement -/
macro "cut_step" : tactic => `(tactic| first
  | cut_three
  | cut_three_last
  | cut_two_last
  | cut_fresh
  | cut_read
  | cut_assign
  | cut_gets)

/-- the whole buffer again -/
macro "cut_root" h:ident : tactic => `(tactic| refine Cut.weaken (Nat.le_refl _) (fun _ => Rest.root $h) ?_)

end SMC.Tail
