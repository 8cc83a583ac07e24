import Verif.Crash.Basic
import Verif.Spec.Left
/-!
# Code that reads the fields one after another

Two runs of `Parse` are compared: `x` reads a buffer whose end is missing, `y` the complete one. `Tail i` says that
the code changes the fields from number `i` on in order.
-/

namespace SMC.Tail
open SGo Left

/-- how a message is seen: its fields and the memory of the raw message -/
structure View (σ ρ : Type) where
  fields : σ → List Item
  raw : σ → ρ
  put : ρ → σ → σ
  fields_put : ∀ r s, fields (put r s) = fields s
  raw_put : ∀ r s, raw (put r s) = r
  put_put : ∀ r r' s, put r (put r' s) = put r s

variable {σ ρ α β γ δ : Type} (V : View σ ρ) (lost : Nat → Prop)

/-- the fields below `i` stay as they are -/
def Above (i : Nat) (y : SGo σ α) : Prop :=
  ∀ s n, n < i → (V.fields (y s).2)[n]? = (V.fields s)[n]?

/-- only field `k` changes -/
def Only (k : Nat) (x : SGo σ α) : Prop :=
  ∀ s n, n ≠ k → (V.fields (x s).2)[n]? = (V.fields s)[n]?

/-- the raw message stays as it is -/
def KeepsRaw (x : SGo σ α) : Prop := ∀ s, V.raw (x s).2 = V.raw s

/-- Where `x` ends with a panic and `y` returns, there is a field with `lost`: the ones before
it are the same, the ones after it are as they were. `r` is what is known about the buffers. -/
def Tail (i : Nat) (r : Prop) (x : SGo σ α) (y : SGo σ β) : Prop :=
  Above V i y ∧ (r → ∀ s q l l' b, (x s).1 = .panic l → (y (V.put q s)).1 = .ret l' b →
    V.raw (x s).2 = V.raw s ∧ ∃ k, i ≤ k ∧ lost k ∧
      (∀ n, n < k → (V.fields (x s).2)[n]? = (V.fields (y (V.put q s)).2)[n]?) ∧
      ∀ n, k < n → (V.fields (x s).2)[n]? = (V.fields s)[n]?)

variable {V lost}

theorem Tail.weaken {i j : Nat} {r r' : Prop} {x : SGo σ α} {y : SGo σ β} (hij : i ≤ j) (hr : r → r')
    (h : Tail V lost j r' x y) : Tail V lost i r x y := by
  refine ⟨fun s n hn => h.1 s n (by omega), fun hr' s q l l' b hx hy => ?_⟩
  obtain ⟨h1, k, hk, h2⟩ := h.2 (hr hr') s q l l' b hx hy
  exact ⟨h1, k, by omega, h2⟩

theorem bind_ret {x : SGo σ α} {f : α → SGo σ β} {s : σ} {l : List Bytes} {a : α} {t : σ} (h : x s = (.ret l a, t)) :
    ((x >>= f) s).2 = (f a t).2 ∧
      (∀ l', ((x >>= f) s).1 = .panic l' → ∃ l'', (f a t).1 = .panic l'') ∧
      (∀ l' b, ((x >>= f) s).1 = .ret l' b → ∃ l'', (f a t).1 = .ret l'' b) := by
  show (SGo.instMonad.toBind.bind x f s).2 = _ ∧ _
  simp only [bind, h]
  rcases hf : f a t with ⟨⟨l', b⟩ | l', u⟩
  · refine ⟨rfl, fun _ h => (by cases h), fun _ _ h => ?_⟩
    cases h
    exact ⟨_, rfl⟩
  · refine ⟨rfl, fun _ h => ⟨_, rfl⟩, fun _ _ h => (by cases h)⟩

theorem bind_panic {x : SGo σ α} {f : α → SGo σ β} {s : σ} {l : List Bytes} {t : σ} (h : x s = (.panic l, t)) :
    (x >>= f) s = (.panic l, t) := by
  show SGo.instMonad.toBind.bind x f s = _
  simp only [bind, h]

/-- a part of the code that changes only field `k` -/
theorem Tail.lump {i k : Nat} {r : Prop} {x y : SGo σ α} {f : α → SGo σ β} {g : α → SGo σ γ} (R : α → α → Prop)
    (hi : i ≤ k) (hx : Only V k x) (hy : Only V k y) (hraw : KeepsRaw V x)
    (hm : r → ∀ s q l a, (x s).1 = .ret l a → ∃ l' b, y (V.put q s) = (.ret l' b, V.put q (x s).2) ∧ R a b)
    (hl : r → ∀ s l, (x s).1 = .panic l → lost k)
    (next : ∀ a b, Tail V lost k (R a b) (f a) (g b)) : Tail V lost i r (x >>= f) (y >>= g) := by
  have above : ∀ k', k' ≤ k → Above V k' (y >>= g) := by
    intro k' hk' s n hn
    rcases hys : y s with ⟨⟨l, b⟩ | l, t⟩
    · rw [(bind_ret hys).1, (next b b).1 t n (by omega)]
      have := hy s n (by omega)
      rwa [hys] at this
    · rw [bind_panic hys]
      have := hy s n (by omega)
      rwa [hys] at this
  refine ⟨above i hi, fun hr s q l l' b hxp hyr => ?_⟩
  rcases hxs : x s with ⟨⟨l1, a⟩ | l1, s1⟩
  · obtain ⟨l2, b2, hy2, hR⟩ := hm hr s q l1 a (by rw [hxs])
    rw [hxs] at hy2
    obtain ⟨l3, hfa⟩ := (bind_ret hxs).2.1 _ hxp
    obtain ⟨l4, hgb⟩ := (bind_ret hy2).2.2 _ _ hyr
    obtain ⟨h1, kk, hkk, h2, h3, h4⟩ := (next a b2).2 hR s1 q _ _ _ hfa hgb
    rw [(bind_ret hxs).1, (bind_ret hy2).1]
    have hraw' := hraw s
    have hx' := hx s
    rw [hxs] at hraw' hx'
    exact ⟨h1.trans hraw', kk, by omega, h2, h3, fun n hn => (h4 n hn).trans (hx' n (by omega))⟩
  · have hraw' := hraw s
    have hx' := hx s
    rw [hxs] at hraw' hx'
    refine ⟨?_, k, hi, hl hr s l1 (by rw [hxs]), fun n hn => ?_, fun n hn => ?_⟩
    · rw [bind_panic hxs]
      exact hraw'
    · rw [bind_panic hxs, above k (Nat.le_refl _) _ n hn, V.fields_put]
      exact hx' n (by omega)
    · rw [bind_panic hxs]
      exact hx' n (by omega)

/-- the last part of the code, which changes only field `k` -/
theorem Tail.last {i k : Nat} {r : Prop} {x : SGo σ α} {y : SGo σ β} (hi : i ≤ k) (hx : Only V k x) (hy : Only V k y)
    (hraw : KeepsRaw V x) (hl : lost k) : Tail V lost i r x y := by
  refine ⟨fun s n hn => hy s n (by omega), fun _ s q l l' b _ _ => ⟨hraw s, k, hi, hl, fun n hn => ?_, fun n hn => ?_⟩⟩
  · rw [hx s n (by omega), hy _ n (by omega), V.fields_put]
  · exact hx s n (by omega)

/-- `x` changes nothing -/
theorem Tail.stop {i : Nat} {r : Prop} {x : SGo σ α} {y : SGo σ β} (hx : ∀ s, (x s).2 = s) (hy : Above V i y)
    (hl : lost i) : Tail V lost i r x y := by
  refine ⟨hy, fun _ s q l l' b _ _ => ⟨by rw [hx], i, Nat.le_refl _, hl, fun n hn => ?_, fun n hn => by rw [hx]⟩⟩
  rw [hx, hy _ n hn, V.fields_put]

/-- nothing changes any more -/
theorem Tail.still {i j : Nat} {r : Prop} {x : SGo σ α} {y : SGo σ β} (hx : ∀ s, (x s).2 = s) (hy : ∀ s, (y s).2 = s)
    (hj : i ≤ j) (hl : lost j) : Tail V lost i r x y := by
  refine ⟨fun s n _ => by rw [hy], fun _ s q l l' b _ _ => ⟨by rw [hx], j, hj, hl, fun n hn => ?_, fun n hn => by rw [hx]⟩⟩
  rw [hx, hy, V.fields_put]

/-- the code ends -/
theorem Tail.done {i : Nat} {r : Prop} {x : SGo σ α} {y : SGo σ β} (hx : ∀ s l, (x s).1 ≠ .panic l)
    (hy : Above V i y) : Tail V lost i r x y :=
  ⟨hy, fun _ s _ l _ _ h _ => absurd h (hx s l)⟩

theorem Tail.lift {i : Nat} {r : Prop} {p q : Go α} {f : α → SGo σ β} {g : α → SGo σ γ} (R : α → α → Prop)
    (hm : r → ∀ l a, p = .ret l a → ∃ l' b, q = .ret l' b ∧ R a b) (hl : r → ∀ l, p = .panic l → lost i)
    (next : ∀ a b, Tail V lost i (R a b) (f a) (g b)) :
    Tail V lost i r ((liftM p : SGo σ α) >>= f) ((liftM q : SGo σ α) >>= g) := by
  refine Tail.lump R (Nat.le_refl _) (fun _ _ _ => rfl) (fun _ _ _ => rfl) (fun _ => rfl) ?_ (fun h _ => hl h) next
  intro hr s t l a h
  obtain ⟨l', b, hq, hR⟩ := hm hr l a h
  exact ⟨l', b, congrArg (·, V.put t s) hq, hR⟩

/-- an assignment to field `k` -/
theorem Tail.assign {i k : Nat} {r : Prop} {u v : σ → σ} {f : Unit → SGo σ β} {g : Unit → SGo σ γ} (hi : i ≤ k)
    (hu : ∀ s, ∃ a, V.fields (u s) = (V.fields s).set k a) (hv : ∀ s, ∃ a, V.fields (v s) = (V.fields s).set k a)
    (hraw : ∀ s, V.raw (u s) = V.raw s) (hput : r → ∀ q s, v (V.put q s) = V.put q (u s))
    (next : Tail V lost k r (f ()) (g ())) : Tail V lost i r (SGo.assign u >>= f) (SGo.assign v >>= g) := by
  have only : ∀ u : σ → σ, (∀ s, ∃ a, V.fields (u s) = (V.fields s).set k a) → Only V k (SGo.assign u) := by
    intro u hu s n hn
    obtain ⟨a, ha⟩ := hu s
    show (V.fields (u s))[n]? = _
    rw [ha, List.getElem?_set_ne (Ne.symm hn)]
  refine Tail.lump (fun _ _ => r) hi (only u hu) (only v hv) hraw ?_ (fun _ s l h => by cases h) (fun _ _ => next)
  intro hr s q l a _
  exact ⟨[], (), congrArg (Prod.mk _) (hput hr q s), hr⟩

/-- the last assignment -/
theorem Tail.assign_last {i k : Nat} {r : Prop} {u v : σ → σ} (hi : i ≤ k)
    (hv : ∀ s, ∃ a, V.fields (v s) = (V.fields s).set k a) : Tail V lost i r (SGo.assign u) (SGo.assign v) := by
  refine Tail.done (fun s l h => by cases h) fun s n hn => ?_
  obtain ⟨a, ha⟩ := hv s
  show (V.fields (v s))[n]? = _
  rw [ha, List.getElem?_set_ne (by omega)]

theorem Tail.gets {i : Nat} {r : Prop} {p : σ → α} {f : α → SGo σ β} {g : α → SGo σ γ} (hp : ∀ q s, p (V.put q s) = p s)
    (next : ∀ a, Tail V lost i r (f a) (g a)) : Tail V lost i r (SGo.gets p >>= f) (SGo.gets p >>= g) := by
  refine ⟨fun s n hn => ?_, fun hr s q l l' b hx hy => ?_⟩
  · rw [(bind_ret (x := SGo.gets p) (s := s) rfl).1]
    exact (next _).1 s n hn
  · obtain ⟨l1, hx'⟩ := (bind_ret (x := SGo.gets p) (s := s) rfl).2.1 _ hx
    obtain ⟨l2, hy'⟩ := (bind_ret (x := SGo.gets p) (s := V.put q s) rfl).2.2 _ _ hy
    rw [(bind_ret (x := SGo.gets p) (s := s) rfl).1, (bind_ret (x := SGo.gets p) (s := V.put q s) rfl).1]
    rw [hp] at hy' ⊢
    exact (next _).2 hr s q _ _ _ hx' hy'

theorem Tail.ite {i : Nat} {r : Prop} {c : Prop} [Decidable c] {x y : SGo σ α} {v w : SGo σ β} (h : Tail V lost i r x v)
    (k : Tail V lost i r y w) : Tail V lost i r (if c then x else y) (if c then v else w) := by
  split <;> assumption

/-- code that only logs -/
theorem Tail.logs {i : Nat} {r : Prop} {p q : Go Unit} {f : Unit → SGo σ β} {g : Unit → SGo σ γ} (hp : ∃ l, p = .ret l ())
    (hq : ∃ l, q = .ret l ()) (next : Tail V lost i r (f ()) (g ())) :
    Tail V lost i r ((liftM p : SGo σ Unit) >>= f) ((liftM q : SGo σ Unit) >>= g) := by
  obtain ⟨l, rfl⟩ := hp
  obtain ⟨l', rfl⟩ := hq
  exact Tail.lift (fun _ _ => r) (fun hr _ _ _ => ⟨_, _, rfl, hr⟩) (fun _ _ h => by cases h) fun _ _ => next

theorem Tail.logs_last {i : Nat} {r : Prop} {p q : Go Unit} (hp : ∃ l, p = .ret l ()) :
    Tail V lost i r (liftM p : SGo σ Unit) (liftM q : SGo σ Unit) := by
  obtain ⟨l, rfl⟩ := hp
  exact Tail.done (fun _ _ h => by cases h) fun _ _ _ => rfl

/-- code that panics in both cases -/
theorem Tail.panics {i : Nat} {r : Prop} {x : SGo σ β} {l : List Bytes} {g : α → SGo σ γ} :
    Tail V lost i r x ((liftM (.panic l : Go α) : SGo σ α) >>= g) := by
  have e : ∀ s, ((liftM (.panic l : Go α) : SGo σ α) >>= g) s = (.panic l, s) := fun s => bind_panic rfl
  refine ⟨fun s n _ => by rw [e], fun _ s q l' l'' b _ hy => ?_⟩
  rw [e] at hy
  cases hy

/-! ## The buffers -/

/-- `a` is the part from byte `off` on of the short buffer of `len` bytes, `b` the same part of the complete one. -/
def Rest (len off : Nat) (a b : Slice) : Prop := Part a b ∧ a.len + off = len

theorem Rest.root {a b : Slice} (h : Part a b) : Rest a.len 0 a b := ⟨h, Nat.add_zero _⟩

theorem Rest.sfrom {len off n : Nat} {a b a' : Slice} {l : List Bytes} (h : Rest len off a b) (ha : a.sfrom n = .ret l a') :
    ∃ l' b', b.sfrom n = .ret l' b' ∧ Rest len (off + n) a' b' := by
  obtain ⟨⟨⟨t, ht⟩, ⟨u, hu⟩⟩, hlen⟩ := h
  unfold Slice.sfrom Slice.len at *
  split at ha
  · rename_i hn
    cases ha
    have : b.vis.length = a.vis.length + t.length := by rw [← ht, List.length_append]
    rw [if_pos (by omega)]
    refine ⟨_, _, rfl, ⟨⟨t, ?_⟩, ⟨u, ?_⟩⟩, ?_⟩
    · rw [← ht, List.drop_append_of_le_length hn]
    · show (a.vis.drop n ++ a.extra) ++ u = b.vis.drop n ++ b.extra
      rw [← List.drop_append_of_le_length hn, ← List.drop_append_of_le_length (l₁ := b.vis) (by omega), ← hu,
        List.drop_append_of_le_length (l₁ := a.vis ++ a.extra) (by rw [List.length_append]; omega)]
    · show (a.vis.drop n).length + _ = _
      rw [List.length_drop]
      omega
  · cases ha

theorem Rest.idx {len off n : Nat} {a b : Slice} {l : List Bytes} {x : UInt8} (h : Rest len off a b) (ha : a.idx n = .ret l x) :
    b.idx n = .ret l x := by
  obtain ⟨⟨⟨t, ht⟩, _⟩, _⟩ := h
  unfold Slice.idx at *
  split at ha
  · rename_i hx
    cases ha
    rw [← ht, List.getElem?_append_left (List.getElem?_eq_some_iff.1 hx).1, hx]
  · cases ha

theorem Rest.idx_lost {len off n : Nat} {a b : Slice} {l : List Bytes} (h : Rest len off a b) (ha : a.idx n = .panic l) :
    len < off + n + 1 := by
  have hl := h.2
  unfold Slice.idx Slice.len at *
  split at ha
  · cases ha
  · rename_i hx
    have := List.getElem?_eq_none_iff.1 hx
    omega

theorem Rest.sfrom_lost {len off n : Nat} {a b : Slice} {l : List Bytes} (h : Rest len off a b) (ha : a.sfrom n = .panic l) :
    len < off + n := by
  have hl := h.2
  unfold Slice.sfrom at *
  split at ha
  · cases ha
  · omega

theorem Rest.sub {len off lo hi : Nat} {a b a' : Slice} {l : List Bytes} (h : Rest len off a b) (ha : a.sub lo hi = .ret l a') :
    ∃ l' b', b.sub lo hi = .ret l' b' ∧ b'.vis = a'.vis ∧ a'.vis.length = hi - lo := by
  obtain ⟨⟨_, ⟨u, hu⟩⟩, _⟩ := h
  unfold Slice.sub Slice.cap at *
  split at ha
  · rename_i hc
    cases ha
    have : b.vis.length + b.extra.length = a.vis.length + a.extra.length + u.length := by
      rw [← List.length_append, ← hu, List.length_append, List.length_append]
    rw [if_pos (by omega)]
    refine ⟨_, _, rfl, ?_, ?_⟩
    · rw [← hu, List.drop_append_of_le_length (l₁ := a.vis ++ a.extra) (by rw [List.length_append]; omega),
        List.take_append_of_le_length (by rw [List.length_drop, List.length_append]; omega)]
    · rw [List.length_take, List.length_drop, List.length_append]
      omega
  · cases ha

theorem Rest.sub_lost {len off lo hi : Nat} {a b : Slice} {l : List Bytes} (h : Rest len off a b) (hlo : lo ≤ hi)
    (ha : a.sub lo hi = .panic l) : len < off + hi := by
  have hl := h.2
  unfold Slice.sub Slice.cap Slice.len at *
  split at ha
  · cases ha
  · omega

variable {len off : Nat} {a b : Slice} {i : Nat} {f : UInt8 → SGo σ β} {g : UInt8 → SGo σ γ}

theorem Tail.idx {n : Nat} (hl : len < off + n + 1 → lost i) (next : ∀ x, Tail V lost i (Rest len off a b) (f x) (g x)) :
    Tail V lost i (Rest len off a b) ((liftM (a.idx n) : SGo σ UInt8) >>= f) ((liftM (b.idx n) : SGo σ UInt8) >>= g) := by
  refine Tail.lift (fun x y => x = y ∧ Rest len off a b) (fun hr l x h => ⟨l, x, hr.idx h, rfl, hr⟩)
    (fun hr l h => hl (hr.idx_lost h)) fun x y => ?_
  refine ⟨(next y).1, fun h => ?_⟩
  obtain ⟨rfl, h⟩ := h
  exact (next x).2 h

theorem Tail.sfrom {n : Nat} {f : Slice → SGo σ β} {g : Slice → SGo σ γ} (hl : len < off + n → lost i)
    (next : ∀ a b, Tail V lost i (Rest len (off + n) a b) (f a) (g b)) :
    Tail V lost i (Rest len off a b) ((liftM (a.sfrom n) : SGo σ Slice) >>= f) ((liftM (b.sfrom n) : SGo σ Slice) >>= g) :=
  Tail.lift (fun a b => Rest len (off + n) a b) (fun hr _ _ h => hr.sfrom h) (fun hr _ h => hl (hr.sfrom_lost h)) next

theorem Tail.sub {lo hi : Nat} {f : Slice → SGo σ β} {g : Slice → SGo σ γ} (hlo : lo ≤ hi) (hl : len < off + hi → lost i)
    (next : ∀ v e e', Tail V lost i (Rest len off a b) (f ⟨v, e⟩) (g ⟨v, e'⟩)) :
    Tail V lost i (Rest len off a b) ((liftM (a.sub lo hi) : SGo σ Slice) >>= f)
      ((liftM (b.sub lo hi) : SGo σ Slice) >>= g) := by
  refine Tail.lift (fun x y => x.vis = y.vis ∧ Rest len off a b) (fun hr l x h => ?_)
    (fun hr l h => hl (hr.sub_lost hlo h)) fun x y => ?_
  · obtain ⟨l', b', h1, h2, _⟩ := hr.sub h
    exact ⟨l', b', h1, h2.symm, hr⟩
  · refine ⟨(next y.vis y.extra y.extra).1, fun h => ?_⟩
    obtain ⟨h, hr⟩ := h
    obtain ⟨v, e⟩ := x
    obtain ⟨w, e'⟩ := y
    obtain rfl : v = w := h
    exact (next v e e').2 hr

/-- a number of `hi - lo` bytes -/
theorem Tail.number {lo hi : Nat} {p : Slice → Go α} {f : α → SGo σ β} {g : α → SGo σ γ} (hlo : lo ≤ hi)
    (hp : ∀ v : Bytes, v.length = hi - lo → ∃ x, ∀ e, p ⟨v, e⟩ = .ret [] x) (hl : len < off + hi → lost i)
    (next : ∀ x, Tail V lost i (Rest len off a b) (f x) (g x)) :
    Tail V lost i (Rest len off a b) ((liftM (a.sub lo hi) : SGo σ Slice) >>= fun v => (liftM (p v) : SGo σ α) >>= f)
      ((liftM (b.sub lo hi) : SGo σ Slice) >>= fun v => (liftM (p v) : SGo σ α) >>= g) := by
  refine Tail.lift (fun x y => x.vis = y.vis ∧ x.vis.length = hi - lo ∧ Rest len off a b) (fun hr l x h => ?_)
    (fun hr l h => hl (hr.sub_lost hlo h)) fun x y => ?_
  · obtain ⟨l', b', h1, h2, h3⟩ := hr.sub h
    exact ⟨l', b', h1, h2.symm, h3, hr⟩
  · refine Tail.lift (fun v w => v = w ∧ Rest len off a b) ?_ ?_ ?_
    · intro h l v hv
      obtain ⟨h, h', hr⟩ := h
      obtain ⟨z, hz⟩ := hp _ h'
      have h1 := hz x.extra
      have h2 := hz y.extra
      rw [show (⟨x.vis, x.extra⟩ : Slice) = x from rfl, hv] at h1
      rw [h, show (⟨y.vis, y.extra⟩ : Slice) = y from rfl] at h2
      cases h1
      exact ⟨_, _, h2, rfl, hr⟩
    · intro h l hv
      obtain ⟨h, h', hr⟩ := h
      obtain ⟨z, hz⟩ := hp _ h'
      have h1 := hz x.extra
      rw [show (⟨x.vis, x.extra⟩ : Slice) = x from rfl, hv] at h1
      cases h1
    · intro v w
      refine ⟨(next w).1, fun h => ?_⟩
      obtain ⟨rfl, h⟩ := h
      exact (next v).2 h

theorem Tail.sto {hi : Nat} {f : Slice → SGo σ β} {g : Slice → SGo σ γ} (hl : len < off + hi → lost i)
    (next : ∀ v e e', Tail V lost i (Rest len off a b) (f ⟨v, e⟩) (g ⟨v, e'⟩)) :
    Tail V lost i (Rest len off a b) ((liftM (a.sto hi) : SGo σ Slice) >>= f)
      ((liftM (b.sto hi) : SGo σ Slice) >>= g) := Tail.sub (Nat.zero_le _) hl next

theorem Tail.number_sto {hi : Nat} {p : Slice → Go α} {f : α → SGo σ β} {g : α → SGo σ γ}
    (hp : ∀ v : Bytes, v.length = hi → ∃ x, ∀ e, p ⟨v, e⟩ = .ret [] x) (hl : len < off + hi → lost i)
    (next : ∀ x, Tail V lost i (Rest len off a b) (f x) (g x)) :
    Tail V lost i (Rest len off a b) ((liftM (a.sto hi) : SGo σ Slice) >>= fun v => (liftM (p v) : SGo σ α) >>= f)
      ((liftM (b.sto hi) : SGo σ Slice) >>= fun v => (liftM (p v) : SGo σ α) >>= g) :=
  Tail.number (Nat.zero_le _) hp hl next

theorem be16_ok (v : Bytes) (h : v.length = 2) : ∃ x, ∀ e, be16 ⟨v, e⟩ = .ret [] x := by
  rcases v with _ | ⟨a, _ | ⟨b, _ | ⟨c, v⟩⟩⟩ <;> try (simp only [List.length_cons, List.length_nil] at h; omega)
  exact ⟨_, fun _ => rfl⟩

theorem be32_ok (v : Bytes) (h : v.length = 4) : ∃ x, ∀ e, be32 ⟨v, e⟩ = .ret [] x := by
  rcases v with _ | ⟨a, _ | ⟨b, _ | ⟨c, _ | ⟨d, _ | ⟨e, v⟩⟩⟩⟩⟩ <;>
    try (simp only [List.length_cons, List.length_nil] at h; omega)
  exact ⟨_, fun _ => rfl⟩

theorem be64_ok (v : Bytes) (h : v.length = 8) : ∃ x, ∀ e, be64 ⟨v, e⟩ = .ret [] x := by
  rcases v with _ | ⟨a, _ | ⟨b, _ | ⟨c, _ | ⟨d, _ | ⟨e, _ | ⟨f, _ | ⟨g, _ | ⟨h', _ | ⟨i, v⟩⟩⟩⟩⟩⟩⟩⟩⟩ <;>
    try (simp only [List.length_cons, List.length_nil] at h; omega)
  exact ⟨_, fun _ => rfl⟩

/-- a number of 2 bytes from byte `skip` on -/
theorem Tail.number16 {skip : Nat} {f : UInt16 → SGo σ β} {g : UInt16 → SGo σ γ} (hl : len < off + (skip + 2) → lost i)
    (next : ∀ x, Tail V lost i (Rest len off a b) (f x) (g x)) :
    Tail V lost i (Rest len off a b) ((liftM (a.sub skip (skip + 2)) : SGo σ Slice) >>= fun v => (liftM (be16 v) : SGo σ UInt16) >>= f)
      ((liftM (b.sub skip (skip + 2)) : SGo σ Slice) >>= fun v => (liftM (be16 v) : SGo σ UInt16) >>= g) :=
  Tail.number (Nat.le_add_right _ _) (fun v h => be16_ok v (by omega)) hl next

/-- a number of 8 bytes from byte `skip` on -/
theorem Tail.number64 {skip : Nat} {f : UInt64 → SGo σ β} {g : UInt64 → SGo σ γ} (hl : len < off + (skip + 8) → lost i)
    (next : ∀ x, Tail V lost i (Rest len off a b) (f x) (g x)) :
    Tail V lost i (Rest len off a b) ((liftM (a.sub skip (skip + 8)) : SGo σ Slice) >>= fun v => (liftM (be64 v) : SGo σ UInt64) >>= f)
      ((liftM (b.sub skip (skip + 8)) : SGo σ Slice) >>= fun v => (liftM (be64 v) : SGo σ UInt64) >>= g) :=
  Tail.number (Nat.le_add_right _ _) (fun v h => be64_ok v (by omega)) hl next

/-! ## Parts of messages -/

variable {τ : Type} {part : σ → τ} {put : τ → σ → σ}

theorem within_bind (h1 : ∀ t s, part (put t s) = t) (h2 : ∀ t t' s, put t (put t' s) = put t s) (x : SGo τ α)
    (f : α → SGo τ β) : within part put (x >>= f) = within part put x >>= fun a => within part put (f a) := by
  funext s
  rcases hx : x (part s) with ⟨⟨l, a⟩ | l, t⟩
  · rcases hf : f a t with ⟨⟨l', b⟩ | l', u⟩ <;> simp only [bind, within, hx, hf, h1, h2]
  · simp only [bind, within, hx]

theorem within_lift (h : ∀ s, put (part s) s = s) (p : Go α) : within part put (liftM p : SGo τ α) = liftM p := by
  funext s
  exact congrArg (Prod.mk p) (h s)

theorem within_assign (u : τ → τ) : within part put (SGo.assign u) = SGo.assign fun s => put (u (part s)) s := rfl

/-- where `x` returns, `y` does the same -/
def Same (r : Prop) (x y : SGo σ α) : Prop := r → ∀ s l a, (x s).1 = .ret l a → y s = x s

theorem Same.bind {r : Prop} {x y : SGo σ α} {f g : α → SGo σ β} (h : Same r x y) (k : ∀ a, Same r (f a) (g a)) :
    Same r (x >>= f) (y >>= g) := by
  intro hr s l b hb
  rcases hx : x s with ⟨⟨l1, a⟩ | l1, t⟩
  · have hy := (h hr s l1 a (by rw [hx])).trans hx
    obtain ⟨l2, hf⟩ := (bind_ret hx).2.2 _ _ hb
    have := k a hr t l2 b hf
    show SGo.instMonad.toBind.bind y g s = SGo.instMonad.toBind.bind x f s
    simp only [Bind.bind, hx, hy, this]
  · rw [bind_panic hx] at hb
    cases hb

theorem Same.refl {r : Prop} (x : SGo σ α) : Same r x x := fun _ _ _ _ _ => rfl

theorem Same.idx {n : Nat} : Same (Rest len off a b) (liftM (a.idx n) : SGo σ UInt8) (liftM (b.idx n)) := by
  intro hr s l x h
  exact congrArg (·, s) ((hr.idx h).trans (show a.idx n = _ from h).symm)

theorem Same.number {lo hi : Nat} {p : Slice → Go α} {f g : α → SGo σ β}
    (hp : ∀ v : Bytes, v.length = hi - lo → ∃ x, ∀ e, p ⟨v, e⟩ = .ret [] x) (k : ∀ x, Same (Rest len off a b) (f x) (g x)) :
    Same (Rest len off a b) ((liftM (a.sub lo hi) : SGo σ Slice) >>= fun v => (liftM (p v) : SGo σ α) >>= f)
      ((liftM (b.sub lo hi) : SGo σ Slice) >>= fun v => (liftM (p v) : SGo σ α) >>= g) := by
  have assoc : ∀ c : Slice, ∀ f : α → SGo σ β,
      ((liftM (c.sub lo hi) : SGo σ Slice) >>= fun v => (liftM (p v) : SGo σ α) >>= f) =
        (liftM (c.sub lo hi >>= p) : SGo σ α) >>= f := by
    intro c f
    funext s
    show SGo.instMonad.toBind.bind _ _ s = SGo.instMonad.toBind.bind _ _ s
    simp only [Bind.bind, liftM, monadLift, MonadLift.monadLift, SGo.lift, Go.bind]
    rcases c.sub lo hi with ⟨l, v⟩ | l
    · dsimp only
      rcases p v with ⟨l', x⟩ | l'
      · dsimp only
        rcases f x s with ⟨⟨l'', y⟩ | l'', t⟩ <;> simp only [List.append_assoc]
      · rfl
    · rfl
  rw [assoc, assoc]
  refine Same.bind ?_ k
  intro hr s l x h
  have h : a.sub lo hi >>= p = .ret l x := h
  show (b.sub lo hi >>= p, s) = (a.sub lo hi >>= p, s)
  rcases hs : a.sub lo hi with ⟨l1, v⟩ | l1
  · obtain ⟨l2, w, h1, h2, h3⟩ := hr.sub hs
    obtain ⟨z, hz⟩ := hp _ h3
    clear h
    have e1 : p v = .ret [] z := hz v.extra
    have e2 : p w = .ret [] z := by
      have := hz w.extra
      rwa [← h2] at this
    have : a.sub lo hi >>= p = b.sub lo hi >>= p := by
      rw [hs, h1]
      show Go.bind _ _ = Go.bind _ _
      simp only [Go.bind, e1, e2]
      unfold Slice.sub at hs h1
      split at hs <;> split at h1 <;> cases hs <;> cases h1
      rfl
    rw [← hs, this]
  · rw [hs] at h
    cases h

/-- a method of a part of field `k` -/
theorem Tail.piece {k : Nat} {r : Prop} {x y : SGo τ Unit} {f : Unit → SGo σ β} {g : Unit → SGo σ γ}
    (hF : ∀ t s, ∃ a, V.fields (put t s) = (V.fields s).set k a) (hraw : ∀ t s, V.raw (put t s) = V.raw s)
    (hpart : ∀ q s, part (V.put q s) = part s) (hput : ∀ q t s, put t (V.put q s) = V.put q (put t s)) (hl : lost k)
    (h : Same r x y) (next : Tail V lost k r (f ()) (g ())) :
    Tail V lost k r (within part put x >>= f) (within part put y >>= g) := by
  have only : ∀ x : SGo τ Unit, Only V k (within part put x) := by
    intro x s n hn
    obtain ⟨a, ha⟩ := hF (x (part s)).2 s
    show (V.fields (put (x (part s)).2 s))[n]? = _
    rw [ha, List.getElem?_set_ne (Ne.symm hn)]
  refine Tail.lump (fun _ _ => r) (Nat.le_refl _) (only x) (only y) (fun s => hraw _ _) ?_ (fun _ _ _ _ => hl)
    (fun _ _ => next)
  intro hr s q l a hx
  have := h hr (part s) l a hx
  refine ⟨l, a, ?_, hr⟩
  show ((y (part (V.put q s))).1, put (y (part (V.put q s))).2 (V.put q s)) = _
  rw [hpart, this, hput]
  exact congrArg (·, V.put q (put (x (part s)).2 s)) hx

/-! ## The whole method -/

/-- `Parse` keeps the buffer as raw message before it reads the fields. -/
theorem whole {ends : List Nat} {short long : Slice} {X Y : SGo σ Unit} {rs rl : ρ} {m s' m' : σ} {l l' : List Bytes}
    (hends : ends.Pairwise (· ≤ ·)) (h : Part short long)
    (hT : Tail V (fun k => ∀ e, ends[k]? = some e → short.len < e) 0 (Rest short.len 0 short long) X Y)
    (hs : (SGo.assign (V.put rs) >>= fun _ => X) m = (.panic l, s'))
    (hl : final (SGo.assign (V.put rl) >>= fun _ => Y) m = .ret l' m') :
    Left ends short.len (V.fields m) (V.fields m') (V.fields s') ∧ V.raw s' = rs := by
  have hx := bind_ret (x := SGo.assign (V.put rs)) (f := fun _ => X) (s := m) rfl
  have hy := bind_ret (x := SGo.assign (V.put rl)) (f := fun _ => Y) (s := m) rfl
  rw [hs] at hx
  obtain ⟨lx, hxp⟩ := hx.2.1 _ rfl
  have e : ∃ ly, Y (V.put rl m) = (.ret ly (), m') := by
    unfold final at hl
    rcases hc : (SGo.assign (V.put rl) >>= fun _ => Y) m with ⟨⟨lc, c⟩ | lc, sc⟩
    · rw [hc] at hl hy
      cases hl
      obtain ⟨ly, hyr⟩ := hy.2.2 _ _ rfl
      exact ⟨ly, Prod.ext hyr hy.1.symm⟩
    · rw [hc] at hl
      cases hl
  obtain ⟨ly, hyy⟩ := e
  have key := hT.2 ⟨h, Nat.add_zero _⟩ (V.put rs m) rl lx ly () hxp (by rw [V.put_put, hyy])
  obtain ⟨k1, k, _, k2, k3, k4⟩ := key
  rw [V.put_put, hyy] at k3
  have h1 : s' = (X (V.put rs m)).2 := hx.1
  rw [← h1] at k1 k3 k4
  refine ⟨⟨⟨k, k3, fun n hn => (k4 n hn).trans (by rw [V.fields_put])⟩, fun n e hn he => ?_⟩, k1.trans (V.raw_put _ _)⟩
  by_cases hnk : n < k
  · exact k3 n hnk
  · obtain ⟨hn', hne⟩ := List.getElem?_eq_some_iff.1 hn
    have hk' : k < ends.length := by omega
    have := k2 ends[k] (List.getElem?_eq_getElem hk')
    have hle : ends[k] ≤ ends[n] := by
      rcases Nat.lt_or_ge k n with hlt | hge
      · exact (List.pairwise_iff_getElem.1 hends) k n hk' hn' hlt
      · obtain rfl : k = n := by omega
        exact Nat.le_refl _
    omega

theorem lost_of {ends : List Nat} {i n : Nat} (h : (ends[i]?.all fun e => Nat.ble n e) = true) (len : Nat) (hl : len < n) :
    ∀ e, ends[i]? = some e → len < e := by
  intro e he
  rw [he] at h
  exact Nat.lt_of_lt_of_le hl (Nat.le_of_ble_eq_true h)

/-- the field that is being read is not completely there -/
macro "tail_lost" : tactic => `(tactic| exact fun h => lost_of rfl _ h)

/-- reading a part of the buffer -/
macro "tail_read" : tactic => `(tactic| first
  | (with_reducible refine Tail.idx ?_ fun _ => ?_); · tail_lost
  | (with_reducible refine Tail.sfrom ?_ fun _ _ => ?_); · tail_lost
  | (with_reducible refine Tail.number16 ?_ fun _ => ?_); · tail_lost
  | (with_reducible refine Tail.number64 ?_ fun _ => ?_); · tail_lost
  | (with_reducible refine Tail.number (by first | decide | exact Nat.le_add_right _ _) be16_ok ?_ fun _ => ?_); · tail_lost
  | (with_reducible refine Tail.number (by first | decide | exact Nat.le_add_right _ _) be32_ok ?_ fun _ => ?_); · tail_lost
  | (with_reducible refine Tail.number (by first | decide | exact Nat.le_add_right _ _) be64_ok ?_ fun _ => ?_); · tail_lost
  | (with_reducible refine Tail.sub (by first | decide | exact Nat.le_add_right _ _) ?_ fun _ _ _ => ?_); · tail_lost
  | (with_reducible refine Tail.number_sto be16_ok ?_ fun _ => ?_); · tail_lost
  | (with_reducible refine Tail.number_sto be32_ok ?_ fun _ => ?_); · tail_lost
  | (with_reducible refine Tail.number_sto be64_ok ?_ fun _ => ?_); · tail_lost
  | (with_reducible refine Tail.sto ?_ fun _ _ _ => ?_); · tail_lost)

/-- an assignment to the field whose turn it is -/
macro "tail_assign" : tactic => `(tactic|
  ((with_reducible refine Tail.assign (Nat.le_refl _) ?_ ?_ ?_ ?_ ?_)
   · exact fun _ => ⟨_, rfl⟩
   · exact fun _ => ⟨_, rfl⟩
   · exact fun _ => rfl
   · exact fun _ _ _ => rfl))

/-- the next field -/
macro "tail_next" : tactic => `(tactic| refine Tail.weaken (Nat.le_succ _) id ?_)

/-- the whole buffer again -/
macro "tail_root" h:ident : tactic => `(tactic|
  refine Tail.weaken (Nat.le_refl _) (fun _ => Rest.root $h) ?_)

/-- the last assignment -/
macro "tail_end" : tactic => `(tactic| first
  | (refine Tail.assign_last (Nat.le_refl _) ?_; exact fun _ => ⟨_, rfl⟩)
  | (tail_next; refine Tail.assign_last (Nat.le_refl _) ?_; exact fun _ => ⟨_, rfl⟩))

/-- reading a field of the message -/
macro "tail_gets" : tactic => `(tactic|
  ((with_reducible refine Tail.gets ?_ fun _ => ?_); · exact fun _ _ => rfl))

/-- one statement -/
macro "tail_step" : tactic => `(tactic| first
  | tail_read
  | tail_assign
  | tail_gets
  | (tail_next; tail_read)
  | (tail_next; tail_assign)
  | (tail_next; tail_next; tail_read)
  | (tail_next; tail_next; tail_assign))

end SMC.Tail
