import Verif.Spec.Race
import Verif.Spec.Http
/-!
# The server has no data races
-/

namespace SMC.Http

theorem getElem?_prefix {α : Type} {l : List α} {i : Nat} {x : α} (h : l[i]? = some x) (k : List α) :
    (l ++ k)[i]? = some x := by
  rw [List.getElem?_append_left (List.getElem?_eq_some_iff.1 h).1]; exact h

theorem HB.append {tr : List (Nat × Action)} {i j : Nat} (h : HB tr i j) (k : List (Nat × Action)) :
    HB (tr ++ k) i j := by
  induction h with
  | program a b c => exact .program a (getElem?_prefix b k) (getElem?_prefix c k)
  | lock a b c => exact .lock a (getElem?_prefix b k) (getElem?_prefix c k)
  | trans _ _ a b => exact .trans a b

/-- Memory that belongs to the buffer, not to one goroutine. -/
def Shared (own : Nat → Option Nat) : Loc → Prop
  | .header => True
  | .elem a _ => own a = none

/-- The trace so far: who is in the critical section, whose arrays are whose, how many there are. -/
structure TInv (crit : Nat → Prop) (tr : List (Nat × Action)) (own : Nat → Option Nat) (hl : Nat) : Prop where
  inside : ∀ (i t : Nat) (x : Action) (l : Loc), tr[i]? = some (t, x) → x.loc = some l → Shared own l →
    crit t ∨ ∃ k, i < k ∧ tr[k]? = some (t, .release)
  last : ∀ u : Nat, crit u → ∃ l, tr[l]? = some (u, .acquire) ∧
    ∀ k t : Nat, tr[k]? = some (t, .release) → k < l
  priv : ∀ (i t : Nat) (x : Action) (a j : Nat), tr[i]? = some (t, x) → x.loc = some (.elem a j) →
    a < hl ∧ ∀ v, own a = some v → t = v
  free : RaceFree tr
  excl : ∀ t u : Nat, crit t → crit u → t = u

/-- An element of a longer trace is in the old part or in the new one. -/
theorem old_or_new {α : Type} {l k : List α} {i : Nat} {x : α} (h : (l ++ k)[i]? = some x) :
    l[i]? = some x ∨ (l.length ≤ i ∧ x ∈ k) := by
  by_cases hi : i < l.length
  · rw [List.getElem?_append_left hi] at h; exact .inl h
  · rw [List.getElem?_append_right (by omega)] at h
    exact .inr ⟨by omega, List.mem_of_getElem? h⟩

theorem mem_tagged {t u : Nat} {x : Action} {acts : List Action} (h : (u, x) ∈ acts.map (t, ·)) :
    u = t ∧ x ∈ acts := by
  obtain ⟨y, hy, e⟩ := List.mem_map.1 h
  cases e; exact ⟨rfl, hy⟩

theorem not_lt_of_none {α : Type} {l : List α} {i : Nat} {x : α} (h : l[i]? = some x) : i < l.length :=
  (List.getElem?_eq_some_iff.1 h).1

/-- Accesses of goroutine `t`, possibly after an allocation. -/
theorem TInv.access {crit : Nat → Prop} {tr : List (Nat × Action)} {own own' : Nat → Option Nat} {hl hl' : Nat}
    (h : TInv crit tr own hl) (t : Nat) (acts : List Action) (hh : hl ≤ hl')
    (ho : ∀ a, a < hl → own' a = own a)
    (ha : ∀ x ∈ acts, ∃ l, x.loc = some l ∧ (Shared own' l → crit t) ∧
      ∀ a j, l = .elem a j → a < hl' ∧ ∀ v, own' a = some v → t = v) :
    TInv crit (tr ++ acts.map (t, ·)) own' hl' := by
  have shared_old : ∀ (i u : Nat) (x : Action) (l : Loc), tr[i]? = some (u, x) → x.loc = some l →
      Shared own' l → Shared own l := by
    intro i u x l hi hl s
    cases l with
    | header => trivial
    | elem a j => simpa [Shared, ho a (h.priv i u x a j hi hl).1] using s
  have norel : ∀ y, (y, Action.release) ∉ acts.map (t, ·) := by
    intro y m
    obtain ⟨_, m⟩ := mem_tagged m
    obtain ⟨l, hl, _⟩ := ha _ m
    cases hl
  constructor
  · intro i u x l hi hx hs
    rcases old_or_new hi with hi | ⟨_, m⟩
    · rcases h.inside i u x l hi hx (shared_old i u x l hi hx hs) with c | ⟨k, a, b⟩
      · exact .inl c
      · exact .inr ⟨k, a, getElem?_prefix b _⟩
    · obtain ⟨rfl, mx⟩ := mem_tagged m
      obtain ⟨l', hl', hc, _⟩ := ha x mx
      rw [hx] at hl'; cases hl'
      exact .inl (hc hs)
  · intro u hu
    obtain ⟨l, hl, hk⟩ := h.last u hu
    refine ⟨l, getElem?_prefix hl _, fun k t' hk' => ?_⟩
    rcases old_or_new hk' with hk' | ⟨_, m⟩
    · exact hk k t' hk'
    · exact absurd m (norel t')
  · intro i u x a j hi hx
    rcases old_or_new hi with hi | ⟨_, m⟩
    · obtain ⟨h1, h2⟩ := h.priv i u x a j hi hx
      exact ⟨by omega, fun v hv => h2 v (by rw [← ho a h1]; exact hv)⟩
    · obtain ⟨rfl, mx⟩ := mem_tagged m
      obtain ⟨l', hl', _, hp⟩ := ha x mx
      rw [hx] at hl'; cases hl'
      exact hp a j rfl
  · intro i j u v x y hij hi hj huv hc
    rcases old_or_new hj with hj' | ⟨hjl, m⟩
    · have : i < tr.length := by have := not_lt_of_none hj'; omega
      rw [List.getElem?_append_left this] at hi
      exact (h.free i j u v x y hij hi hj' huv hc).append _
    · obtain ⟨rfl, mx⟩ := mem_tagged m
      rcases old_or_new hi with hi' | ⟨_, m'⟩
      · obtain ⟨l, hx, hy, _⟩ := hc
        obtain ⟨l', hl', hsc, hp⟩ := ha y mx
        rw [hy] at hl'; cases hl'
        -- shared memory
        have key : Shared own' l → HB (tr ++ acts.map (v, ·)) i j := by
          intro s
          have cv := hsc s
          rcases h.inside i u x l hi' hx (shared_old i u x l hi' hx s) with c | ⟨k, hik, hk⟩
          · exact absurd (h.excl u v c cv) huv
          · obtain ⟨q, hq, hlast⟩ := h.last v cv
            have hkq := hlast k u hk
            have hqj : q < j := by have := not_lt_of_none hq; omega
            exact .trans (.program hik hi (getElem?_prefix hk _))
              (.trans (.lock hkq (getElem?_prefix hk _) (getElem?_prefix hq _))
                (.program hqj (getElem?_prefix hq _) hj))
        cases l with
        | header => exact key trivial
        | elem a b =>
          cases ho' : own' a with
          | none => exact key ho'
          | some w =>
            obtain ⟨h1, h2⟩ := h.priv i u x a b hi' hx
            have e1 := h2 w (by rw [← ho a h1]; exact ho')
            have e2 := (hp a b rfl).2 w ho'
            exact absurd (e1.trans e2.symm) huv
      · exact absurd (mem_tagged m').1 huv
  · exact h.excl

theorem RaceFree.snoc {tr : List (Nat × Action)} (h : RaceFree tr) {t : Nat} {x : Action} (hx : x.loc = none) :
    RaceFree (tr ++ [(t, x)]) := by
  intro i j u v y z hij hi hj huv hc
  rcases old_or_new hj with hj' | ⟨_, m⟩
  · have : i < tr.length := by have := not_lt_of_none hj'; omega
    rw [List.getElem?_append_left this] at hi
    exact (h i j u v y z hij hi hj' huv hc).append _
  · simp only [List.mem_singleton, Prod.mk.injEq] at m
    obtain ⟨l, _, hz, _⟩ := hc
    rw [m.2, hx] at hz; cases hz

/-- The lock is taken. -/
theorem TInv.acquire {crit crit' : Nat → Prop} {tr : List (Nat × Action)} {own : Nat → Option Nat} {hl : Nat}
    (h : TInv crit tr own hl) (t : Nat) (hc : ∀ u, ¬ crit u) (hc' : ∀ u, crit' u → u = t) :
    TInv crit' (tr ++ [(t, .acquire)]) own hl := by
  constructor
  · intro i u x l hi hx hs
    rcases old_or_new hi with hi | ⟨_, m⟩
    · rcases h.inside i u x l hi hx hs with c | ⟨k, a, b⟩
      · exact absurd c (hc u)
      · exact .inr ⟨k, a, getElem?_prefix b _⟩
    · simp only [List.mem_singleton, Prod.mk.injEq] at m
      rw [m.2] at hx; cases hx
  · intro u hu
    obtain rfl := hc' u hu
    refine ⟨tr.length, by simp, fun k t' hk => ?_⟩
    rcases old_or_new hk with hk | ⟨_, m⟩
    · exact not_lt_of_none hk
    · simp at m
  · intro i u x a j hi hx
    rcases old_or_new hi with hi | ⟨_, m⟩
    · exact h.priv i u x a j hi hx
    · simp only [List.mem_singleton, Prod.mk.injEq] at m
      rw [m.2] at hx; cases hx
  · exact h.free.snoc rfl
  · intro u v hu hv
    rw [hc' u hu, hc' v hv]

/-- The lock is released. -/
theorem TInv.release {crit crit' : Nat → Prop} {tr : List (Nat × Action)} {own : Nat → Option Nat} {hl : Nat}
    (h : TInv crit tr own hl) (t : Nat) (hc : ∀ u, crit u → u = t) (hc' : ∀ u, ¬ crit' u) :
    TInv crit' (tr ++ [(t, .release)]) own hl := by
  constructor
  · intro i u x l hi hx hs
    rcases old_or_new hi with hi' | ⟨_, m⟩
    · rcases h.inside i u x l hi' hx hs with c | ⟨k, a, b⟩
      · obtain rfl := hc u c
        exact .inr ⟨tr.length, not_lt_of_none hi', by simp⟩
      · exact .inr ⟨k, a, getElem?_prefix b _⟩
    · simp only [List.mem_singleton, Prod.mk.injEq] at m
      rw [m.2] at hx; cases hx
  · intro u hu; exact absurd hu (hc' u)
  · intro i u x a j hi hx
    rcases old_or_new hi with hi | ⟨_, m⟩
    · exact h.priv i u x a j hi hx
    · simp only [List.mem_singleton, Prod.mk.injEq] at m
      rw [m.2] at hx; cases hx
  · exact h.free.snoc rfl
  · intro u v hu; exact absurd hu (hc' u)

theorem TInv.congr {crit crit' : Nat → Prop} {tr : List (Nat × Action)} {own : Nat → Option Nat} {hl : Nat}
    (h : TInv crit tr own hl) (hc : ∀ u, crit' u ↔ crit u) : TInv crit' tr own hl := by
  have : crit' = crit := funext fun u => propext (hc u)
  rw [this]; exact h

/-! ## The machine -/

/-- Whose arrays a goroutine holds. -/
def PC.owns (own : Nat → Option Nat) (hl t : Nat) : PC → Prop
  | .cMake src _ => ∀ a, src = some a → own a = none ∧ a < hl
  | .cCopy src _ dst _ => (∀ a, src = some a → own a = none ∧ a < hl) ∧ own dst = some t ∧ dst < hl
  | .cDone dst _ | .out (.copy dst _) => own dst = some t ∧ dst < hl
  | _ => True

/-- The array a handler holds. -/
def Handler.owns (own : Nat → Option Nat) (hl t : Nat) : Handler → Prop
  | .serving _ d _ => own d = some t ∧ d < hl
  | _ => True

/-- Goroutine `t` is in the critical section. -/
def InCrit (s : State) (t : Nat) : Prop := ∃ p, s.pcs[t]? = some p ∧ p.crit = true

theorem PC.owns.grow {own own' : Nat → Option Nat} {hl hl' t : Nat} {p : PC} (h : p.owns own hl t)
    (hh : hl ≤ hl') (ho : ∀ a, a < hl → own' a = own a) : p.owns own' hl' t := by
  have A : ∀ d, own d = some t ∧ d < hl → own' d = some t ∧ d < hl' := fun d x => ⟨(ho d x.2).trans x.1, by omega⟩
  have B : ∀ src : Option Nat, (∀ a, src = some a → own a = none ∧ a < hl) →
      ∀ a, src = some a → own' a = none ∧ a < hl' :=
    fun src x a e => ⟨(ho a (x a e).2).trans (x a e).1, by have := (x a e).2; omega⟩
  cases p <;> try trivial
  · exact B _ h
  · exact ⟨B _ h.1, A _ h.2⟩
  · exact A _ h
  · rename_i r
    cases r <;> try trivial
    exact A _ h

theorem Handler.owns.grow {own own' : Nat → Option Nat} {hl hl' t : Nat} {p : Handler} (h : p.owns own hl t)
    (hh : hl ≤ hl') (ho : ∀ a, a < hl → own' a = own a) : p.owns own' hl' t := by
  cases p <;> try trivial
  exact ⟨(ho _ h.2).trans h.1, by have := h.2; omega⟩

structure RInv (y : Sys) (tr : List (Nat × Action)) (own : Nat → Option Nat) : Prop where
  arr : ∀ a, y.buf.arr = some a → own a = none ∧ a < y.buf.heap.length
  pcs : ∀ (t : Nat) (p : PC), y.buf.pcs[t]? = some p → p.owns own y.buf.heap.length t
  hs : ∀ (t : Nat) (h : Handler), y.hs[t]? = some h → h.owns own y.buf.heap.length t
  lock : ∀ t, InCrit y.buf t → y.buf.locked = true
  tinv : TInv (InCrit y.buf) tr own y.buf.heap.length

theorem pcs_set {pcs : List PC} {t u : Nat} {p q r : PC} (ht : pcs[t]? = some p)
    (h : (pcs.set t q)[u]? = some r) : (u = t ∧ r = q) ∨ (u ≠ t ∧ pcs[u]? = some r) := by
  by_cases e : u = t
  · subst e
    rw [List.getElem?_set_self (not_lt_of_none ht)] at h
    cases h; exact .inl ⟨rfl, rfl⟩
  · rw [List.getElem?_set_ne (Ne.symm e)] at h
    exact .inr ⟨e, h⟩

theorem hs_set {hs : List Handler} {t u : Nat} {p q r : Handler} (ht : hs[t]? = some p)
    (h : (hs.set t q)[u]? = some r) : (u = t ∧ r = q) ∨ (u ≠ t ∧ hs[u]? = some r) := by
  by_cases e : u = t
  · subst e
    rw [List.getElem?_set_self (not_lt_of_none ht)] at h
    cases h; exact .inl ⟨rfl, rfl⟩
  · rw [List.getElem?_set_ne (Ne.symm e)] at h
    exact .inr ⟨e, h⟩

/-- Goroutine `t` goes from `p` to `q`, both inside or both outside the critical section. -/
theorem inCrit_same {s s' : State} {t : Nat} {p q : PC} (ht : s.pcs[t]? = some p)
    (e : s'.pcs = s.pcs.set t q) (hc : q.crit = p.crit) (u : Nat) : InCrit s' u ↔ InCrit s u := by
  unfold InCrit
  rw [e]
  constructor
  · rintro ⟨r, hr, c⟩
    rcases pcs_set ht hr with ⟨rfl, rfl⟩ | ⟨_, hr⟩
    · exact ⟨p, ht, hc ▸ c⟩
    · exact ⟨r, hr, c⟩
  · rintro ⟨r, hr, c⟩
    by_cases hu : u = t
    · subst hu
      rw [ht] at hr; cases hr
      exact ⟨q, List.getElem?_set_self (not_lt_of_none ht), hc ▸ c⟩
    · exact ⟨r, by rw [List.getElem?_set_ne (Ne.symm hu)]; exact hr, c⟩

/-- Goroutine `t` goes on without taking or releasing the lock. -/
theorem RInv.plain {y : Sys} {tr : List (Nat × Action)} {own own' : Nat → Option Nat} (h : RInv y tr own)
    {t : Nat} {p q : PC} {s' : State} {hd hd' : Handler} (ht : y.buf.pcs[t]? = some p) (hh : y.hs[t]? = some hd)
    (e : s'.pcs = y.buf.pcs.set t q) (hc : q.crit = p.crit) (hlk : s'.locked = y.buf.locked)
    (hl : y.buf.heap.length ≤ s'.heap.length) (ho : ∀ a, a < y.buf.heap.length → own' a = own a)
    (harr : ∀ a, s'.arr = some a → own' a = none ∧ a < s'.heap.length)
    (hq : q.owns own' s'.heap.length t) (hhd : hd'.owns own' s'.heap.length t)
    (acts : List Action)
    (ha : ∀ x ∈ acts, ∃ l, x.loc = some l ∧ (Shared own' l → p.crit = true) ∧
      ∀ a j, l = .elem a j → a < s'.heap.length ∧ ∀ v, own' a = some v → t = v) :
    RInv ⟨s', y.hs.set t hd'⟩ (tr ++ acts.map (t, ·)) own' := by
  constructor
  · exact harr
  · intro u r hr
    have hr : (y.buf.pcs.set t q)[u]? = some r := by rw [← e]; exact hr
    rcases pcs_set ht hr with ⟨rfl, rfl⟩ | ⟨_, hr⟩
    · exact hq
    · exact (h.pcs u r hr).grow hl ho
  · intro u r hr
    rcases hs_set hh hr with ⟨rfl, rfl⟩ | ⟨_, hr⟩
    · exact hhd
    · exact (h.hs u r hr).grow hl ho
  · intro u hu
    rw [hlk]
    exact h.lock u ((inCrit_same ht e hc u).1 hu)
  · refine (h.tinv.access t acts hl ho ?_).congr (inCrit_same ht e hc)
    intro x hx
    obtain ⟨l, h1, h2, h3⟩ := ha x hx
    exact ⟨l, h1, fun s => ⟨p, ht, h2 s⟩, h3⟩

/-- Goroutine `t` takes the lock. -/
theorem RInv.locks {y : Sys} {tr : List (Nat × Action)} {own : Nat → Option Nat} (h : RInv y tr own)
    {t : Nat} {p q : PC} {hd : Handler} (ht : y.buf.pcs[t]? = some p) (hh : y.hs[t]? = some hd)
    (hlk : y.buf.locked = false) (hq : q.owns own y.buf.heap.length t) :
    RInv ⟨{ y.buf with locked := true }.goto t q, y.hs.set t hd⟩ (tr ++ [(t, .acquire)]) own := by
  have none : ∀ u, ¬ InCrit y.buf u := fun u hu => by have := h.lock u hu; rw [hlk] at this; cases this
  constructor
  · exact h.arr
  · intro u r hr
    rcases pcs_set ht hr with ⟨rfl, rfl⟩ | ⟨_, hr⟩
    · exact hq
    · exact h.pcs u r hr
  · intro u r hr
    rcases hs_set hh hr with ⟨rfl, rfl⟩ | ⟨_, hr⟩
    · exact h.hs u _ hh
    · exact h.hs u r hr
  · intro u _; rfl
  · refine h.tinv.acquire t none ?_
    rintro u ⟨r, hr, c⟩
    rcases pcs_set ht hr with ⟨rfl, rfl⟩ | ⟨_, hr⟩
    · rfl
    · exact absurd ⟨r, hr, c⟩ (none u)

/-- Goroutine `t` releases the lock. -/
theorem RInv.unlocks {y : Sys} {tr : List (Nat × Action)} {own : Nat → Option Nat} (h : RInv y tr own)
    {t : Nat} {p q : PC} {hd : Handler} (ht : y.buf.pcs[t]? = some p) (hh : y.hs[t]? = some hd)
    (hp : p.crit = true) (hqc : q.crit = false) (hq : q.owns own y.buf.heap.length t) :
    RInv ⟨{ y.buf with locked := false }.goto t q, y.hs.set t hd⟩ (tr ++ [(t, .release)]) own := by
  have only : ∀ u, InCrit y.buf u → u = t := fun u hu => h.tinv.excl u t hu ⟨p, ht, hp⟩
  have none : ∀ u, ¬ InCrit ({ y.buf with locked := false }.goto t q) u := by
    rintro u ⟨r, hr, c⟩
    rcases pcs_set ht hr with ⟨rfl, rfl⟩ | ⟨hu, hr⟩
    · rw [hqc] at c; cases c
    · exact hu (only u ⟨r, hr, c⟩)
  constructor
  · exact h.arr
  · intro u r hr
    rcases pcs_set ht hr with ⟨rfl, rfl⟩ | ⟨_, hr⟩
    · exact hq
    · exact h.pcs u r hr
  · intro u r hr
    rcases hs_set hh hr with ⟨rfl, rfl⟩ | ⟨_, hr⟩
    · exact h.hs u _ hh
    · exact h.hs u r hr
  · intro u hu; exact absurd hu (none u)
  · exact h.tinv.release t only none

theorem mem_elems {a n : Nat} {l : Loc} (h : l ∈ elems a n) : ∃ j, l = .elem a j := by
  obtain ⟨j, _, rfl⟩ := List.mem_map.1 h
  exact ⟨j, rfl⟩

/-- Who owns the arrays after goroutine `t` has allocated one. -/
def own1 (own : Nat → Option Nat) (hl : Nat) (o : Option Nat) : Nat → Option Nat :=
  fun a => if a = hl then o else own a

theorem own1_old {own : Nat → Option Nat} {hl : Nat} {o : Option Nat} (a : Nat) (h : a < hl) :
    own1 own hl o a = own a := by unfold own1; rw [if_neg (by omega)]

theorem own1_new {own : Nat → Option Nat} {hl : Nat} {o : Option Nat} : own1 own hl o hl = o := by
  unfold own1; rw [if_pos rfl]

theorem poke_heap {s s' : State} {a i : Nat} {b : UInt8} (h : s.poke a i b = some s') :
    s' = { s with heap := s.heap.modify a (·.set i b) } := by
  unfold State.poke at h
  split at h
  · cases h; rfl
  · cases h

/-- Inside the critical section all shared memory may be touched. -/
theorem RInv.sharedOK {own : Nat → Option Nat} {hl t : Nat} {p : PC} (hp : p.crit = true) (l : Loc)
    (h : ∀ a j, l = .elem a j → own a = none ∧ a < hl) :
    (Shared own l → p.crit = true) ∧ ∀ a j, l = .elem a j → a < hl ∧ ∀ v, own a = some v → t = v := by
  refine ⟨fun _ => hp, fun a j e => ⟨(h a j e).2, fun v hv => ?_⟩⟩
  rw [(h a j e).1] at hv; cases hv

/-- Own arrays may be touched anywhere. -/
theorem RInv.privOK {own : Nat → Option Nat} {hl t a : Nat} {p : PC} (h : own a = some t) (ha : a < hl)
    (l : Loc) (hj : ∃ j, l = .elem a j) :
    (Shared own l → p.crit = true) ∧ ∀ a j, l = .elem a j → a < hl ∧ ∀ v, own a = some v → t = v := by
  obtain ⟨j, rfl⟩ := hj
  refine ⟨fun s => ?_, ?_⟩
  · rw [show own a = none from s] at h; cases h
  · rintro a' j' e
    cases e
    exact ⟨ha, fun v hv => by rw [h] at hv; exact Option.some.inj hv⟩

theorem RInv.run {y : Sys} {tr : List (Nat × Action)} {own : Nat → Option Nat} (h : RInv y tr own)
    {t spare : Nat} {hd : Handler} {pc : PC} {s' : State} {es : List Event} (hh : y.hs[t]? = some hd)
    (ht : y.buf.pcs[t]? = some pc) (hs : y.buf.next t spare pc = some (s', es)) :
    ∃ own', RInv ⟨s', y.hs.set t (hd.after pc)⟩ (tr ++ (pc.actions y.buf spare).map (t, ·)) own' := by
  have hhd := h.hs t hd hh
  cases pc with
  | idle => cases hs
  | wWait p =>
    simp only [State.next, State.lock, Option.bind_eq_bind, Option.bind_eq_some_iff, Option.pure_def,
      Option.some.injEq, Prod.mk.injEq] at hs
    obtain ⟨s1, h1, rfl, rfl⟩ := hs
    split at h1
    · cases h1
    · rename_i hl
      cases h1
      exact ⟨own, h.locks ht hh (by simpa using hl) trivial⟩
  | fWait p =>
    simp only [State.next, State.lock, Option.bind_eq_bind, Option.bind_eq_some_iff, Option.pure_def,
      Option.some.injEq, Prod.mk.injEq] at hs
    obtain ⟨s1, h1, rfl, rfl⟩ := hs
    split at h1
    · cases h1
    · rename_i hl
      cases h1
      exact ⟨own, h.locks ht hh (by simpa using hl) trivial⟩
  | cWait =>
    simp only [State.next, State.lock, Option.bind_eq_bind, Option.bind_eq_some_iff, Option.pure_def,
      Option.some.injEq, Prod.mk.injEq] at hs
    obtain ⟨s1, h1, rfl, rfl⟩ := hs
    split at h1
    · cases h1
    · rename_i hl
      cases h1
      exact ⟨own, h.locks ht hh (by simpa using hl) trivial⟩
  | rWait =>
    simp only [State.next, State.lock, Option.bind_eq_bind, Option.bind_eq_some_iff, Option.pure_def,
      Option.some.injEq, Prod.mk.injEq] at hs
    obtain ⟨s1, h1, rfl, rfl⟩ := hs
    split at h1
    · cases h1
    · rename_i hl
      cases h1
      exact ⟨own, h.locks ht hh (by simpa using hl) trivial⟩
  | wDone p =>
    simp only [State.next, State.unlock, Option.bind_eq_bind, Option.bind_eq_some_iff, Option.pure_def,
      Option.some.injEq, Prod.mk.injEq] at hs
    obtain ⟨s1, h1, rfl, rfl⟩ := hs
    split at h1
    · cases h1
      exact ⟨own, h.unlocks ht hh rfl rfl trivial⟩
    · cases h1
  | fDone p =>
    simp only [State.next, State.unlock, Option.bind_eq_bind, Option.bind_eq_some_iff, Option.pure_def,
      Option.some.injEq, Prod.mk.injEq] at hs
    obtain ⟨s1, h1, rfl, rfl⟩ := hs
    split at h1
    · cases h1
      exact ⟨own, h.unlocks ht hh rfl rfl trivial⟩
    · cases h1
  | rDone =>
    simp only [State.next, State.unlock, Option.bind_eq_bind, Option.bind_eq_some_iff, Option.pure_def,
      Option.some.injEq, Prod.mk.injEq] at hs
    obtain ⟨s1, h1, rfl, rfl⟩ := hs
    split at h1
    · cases h1
      exact ⟨own, h.unlocks ht hh rfl rfl trivial⟩
    · cases h1
  | cDone dst n =>
    simp only [State.next, State.unlock, Option.bind_eq_bind, Option.bind_eq_some_iff, Option.pure_def,
      Option.some.injEq, Prod.mk.injEq] at hs
    obtain ⟨s1, h1, rfl, rfl⟩ := hs
    split at h1
    · cases h1
      exact ⟨own, h.unlocks ht hh rfl rfl (by exact (show PC.owns _ _ _ (.cDone dst n) from h.pcs t _ ht))⟩
    · cases h1
  | wGrow p =>
    simp only [State.next, Option.pure_def, Option.some.injEq, Prod.mk.injEq] at hs
    obtain ⟨rfl, rfl⟩ := hs
    by_cases hc : y.buf.len + p.length ≤ y.buf.cap
    · refine ⟨own, ?_⟩
      simp only [PC.actions, if_pos hc, List.append_nil]
      refine h.plain (q := .wCopy p y.buf.len 0) ht hh (by simp [State.goto, State.grow, hc]) rfl
        (by simp [State.goto, State.grow, hc]) (by simp [State.goto, State.grow, hc]) (fun _ _ => rfl)
        (by simpa [State.goto, State.grow, hc] using h.arr) trivial
        (by simpa [State.goto, State.grow, hc, Handler.after] using hhd) _ ?_
      intro x hx
      have : x.loc = some .header := by
        simp only [List.mem_cons, List.not_mem_nil, or_false] at hx
        rcases hx with rfl | rfl <;> rfl
      exact ⟨.header, this, RInv.sharedOK rfl _ (fun a j e => by cases e)⟩
    · refine ⟨own1 own y.buf.heap.length none, ?_⟩
      simp only [PC.actions, if_neg hc]
      have hl : ((y.buf.grow p.length spare).goto t (.wCopy p y.buf.len 0)).heap.length = y.buf.heap.length + 1 := by
        simp [State.goto, State.grow, hc]
      refine h.plain (q := .wCopy p y.buf.len 0) ht hh (by simp [State.goto, State.grow, hc]) rfl
        (by simp [State.goto, State.grow, hc]) (by rw [hl]; omega) (fun a ha => own1_old a ha)
        ?_ trivial ?_ _ ?_
      · intro a e
        simp only [State.goto, State.grow, hc, if_false, Option.some.injEq] at e
        subst e
        exact ⟨own1_new, by rw [hl]; omega⟩
      · exact hhd.grow (by rw [hl]; omega) (fun a ha => own1_old a ha)
      · intro x hx
        rw [hl]
        simp only [List.mem_append, List.mem_cons, List.not_mem_nil, or_false, List.mem_map] at hx
        rcases hx with (rfl | rfl) | hx | ⟨l, hl', rfl⟩
        · exact ⟨.header, rfl, RInv.sharedOK rfl _ (fun a j e => by cases e)⟩
        · exact ⟨.header, rfl, RInv.sharedOK rfl _ (fun a j e => by cases e)⟩
        · cases e : y.buf.arr with
          | none => rw [e] at hx; cases hx
          | some a =>
            rw [e] at hx
            obtain ⟨l, hl', rfl⟩ := List.mem_map.1 hx
            obtain ⟨j, rfl⟩ := mem_elems hl'
            refine ⟨_, rfl, RInv.sharedOK rfl _ ?_⟩
            intro a' j' e'
            cases e'
            obtain ⟨h1, h2⟩ := h.arr a e
            exact ⟨(own1_old a h2).trans h1, by omega⟩
        · obtain ⟨j, rfl⟩ := mem_elems hl'
          refine ⟨_, rfl, RInv.sharedOK rfl _ ?_⟩
          intro a' j' e'
          cases e'
          exact ⟨own1_new, by omega⟩
  | wCopy p m i =>
    refine ⟨own, ?_⟩
    cases hi : p[i]? with
    | none =>
      simp only [State.next, hi, Option.pure_def, Option.some.injEq, Prod.mk.injEq] at hs
      obtain ⟨rfl, rfl⟩ := hs
      have : ¬ i < p.length := by rw [List.getElem?_eq_none_iff] at hi; omega
      simp only [PC.actions, if_neg this]
      exact h.plain (q := .wDone p) ht hh (by rfl) rfl (by rfl) (by exact Nat.le_refl _) (fun _ _ => rfl) (by exact h.arr) trivial (by exact hhd) []
        (fun x hx => by cases hx)
    | some b =>
      simp only [State.next, hi, Option.bind_eq_bind, Option.bind_eq_some_iff, Option.pure_def,
        Option.some.injEq, Prod.mk.injEq] at hs
      obtain ⟨a, ha, s1, h1, rfl, rfl⟩ := hs
      obtain rfl := poke_heap h1
      simp only [PC.actions, if_pos (not_lt_of_none hi), ha]
      refine h.plain (q := .wCopy p m (i + 1)) ht hh (by rfl) rfl (by rfl)
        (by simp [State.goto]) (fun _ _ => rfl) (fun a' e => by
          cases e; simpa [State.goto] using h.arr a ha) trivial
        (by simpa [State.goto, Handler.after] using hhd) _ ?_
      intro x hx
      simp only [List.mem_cons, List.not_mem_nil, or_false] at hx
      rcases hx with rfl | rfl
      · exact ⟨.header, rfl, RInv.sharedOK rfl _ (fun a j e => by cases e)⟩
      · refine ⟨_, rfl, RInv.sharedOK rfl _ ?_⟩
        intro a' j' e'
        cases e'
        simpa [State.goto] using h.arr a ha
  | cBytes =>
    simp only [State.next, Option.pure_def, Option.some.injEq, Prod.mk.injEq] at hs
    obtain ⟨rfl, rfl⟩ := hs
    refine ⟨own, h.plain (q := .cMake y.buf.arr y.buf.len) ht hh (by rfl) rfl (by rfl) (by exact Nat.le_refl _) (fun _ _ => rfl) (by exact h.arr)
      (by exact h.arr) (by exact hhd) _ ?_⟩
    intro x hx
    simp only [PC.actions, List.mem_cons, List.not_mem_nil, or_false] at hx
    subst hx
    exact ⟨.header, rfl, RInv.sharedOK rfl _ (fun a j e => by cases e)⟩
  | cMake src n =>
    simp only [State.next, Option.pure_def, Option.some.injEq, Prod.mk.injEq] at hs
    obtain ⟨rfl, rfl⟩ := hs
    have hsrc := h.pcs t _ ht
    have old : ∀ a, a < y.buf.heap.length → own1 own y.buf.heap.length (some t) a = own a := fun a ha => own1_old a ha
    refine ⟨own1 own y.buf.heap.length (some t), h.plain (q := .cCopy src n y.buf.heap.length 0) ht hh (by rfl) rfl (by rfl)
      (by simp [State.goto]) old ?_ ?_ (hhd.grow (by simp [State.goto]) old) _ ?_⟩
    · intro a e
      obtain ⟨h1, h2⟩ := h.arr a e
      exact ⟨(old a h2).trans h1, by simp only [State.goto, List.length_append]; omega⟩
    · refine ⟨fun a e => ?_, own1_new, by simp [State.goto]⟩
      obtain ⟨h1, h2⟩ := hsrc a e
      exact ⟨(old a h2).trans h1, by simp only [State.goto, List.length_append]; omega⟩
    · intro x hx
      simp only [PC.actions, List.mem_map] at hx
      obtain ⟨l, hl, rfl⟩ := hx
      exact ⟨l, rfl, RInv.privOK (a := y.buf.heap.length) own1_new (by simp [State.goto]) l (mem_elems hl)⟩
  | cCopy src n dst i =>
    obtain ⟨hsrc, hdst, hdl⟩ := h.pcs t _ ht
    refine ⟨own, ?_⟩
    by_cases hi : i < n
    · simp only [State.next, hi, if_true, Option.bind_eq_bind, Option.bind_eq_some_iff, Option.pure_def,
        Option.some.injEq, Prod.mk.injEq] at hs
      obtain ⟨a, rfl, b, hb, s1, h1, rfl, rfl⟩ := hs
      obtain rfl := poke_heap h1
      simp only [PC.actions, if_pos hi]
      refine h.plain (q := .cCopy (some a) n dst (i + 1)) ht hh (by rfl) rfl (by rfl) (by simp [State.goto]) (fun _ _ => rfl)
        (by simpa [State.goto] using h.arr) ?_ (by simpa [State.goto, Handler.after] using hhd) _ ?_
      · exact ⟨by simpa [State.goto] using hsrc, hdst, by simpa [State.goto] using hdl⟩
      · intro x hx
        simp only [List.mem_cons, List.not_mem_nil, or_false] at hx
        rcases hx with rfl | rfl
        · refine ⟨_, rfl, RInv.sharedOK rfl _ ?_⟩
          intro a' j' e'
          cases e'
          simpa [State.goto] using hsrc a rfl
        · exact ⟨_, rfl, RInv.privOK hdst (by simpa [State.goto] using hdl) _ ⟨i, rfl⟩⟩
    · simp only [State.next, hi, if_false, Option.pure_def, Option.some.injEq, Prod.mk.injEq] at hs
      obtain ⟨rfl, rfl⟩ := hs
      simp only [PC.actions, if_neg hi]
      exact h.plain (q := .cDone dst n) ht hh (by rfl) rfl (by rfl) (by exact Nat.le_refl _) (fun _ _ => rfl) (by exact h.arr) (by exact ⟨hdst, hdl⟩) (by exact hhd) []
        (fun x hx => by cases hx)
  | fGrow p =>
    simp only [State.next, Option.pure_def, Option.some.injEq, Prod.mk.injEq] at hs
    obtain ⟨rfl, rfl⟩ := hs
    refine ⟨own, h.plain (q := .fDone p) ht hh (by rfl) rfl (by rfl) (by exact Nat.le_refl _) (fun _ _ => rfl) (by exact h.arr) trivial (by exact hhd) _ ?_⟩
    intro x hx
    have : x.loc = some .header := by
      simp only [PC.actions, List.mem_cons, List.not_mem_nil, or_false] at hx
      rcases hx with rfl | rfl <;> rfl
    exact ⟨.header, this, RInv.sharedOK rfl _ (fun a j e => by cases e)⟩
  | rSet =>
    simp only [State.next, Option.pure_def, Option.some.injEq, Prod.mk.injEq] at hs
    obtain ⟨rfl, rfl⟩ := hs
    refine ⟨own, h.plain (q := .rDone) ht hh (by rfl) rfl (by rfl) (by exact Nat.le_refl _) (fun _ _ => rfl) ?_ trivial (by exact hhd) _ ?_⟩
    · intro a e; cases e
    · intro x hx
      simp only [PC.actions, List.mem_cons, List.not_mem_nil, or_false] at hx
      subst hx
      exact ⟨.header, rfl, RInv.sharedOK rfl _ (fun a j e => by cases e)⟩
  | out r =>
    simp only [State.next, Option.pure_def, Option.some.injEq, Prod.mk.injEq] at hs
    obtain ⟨rfl, rfl⟩ := hs
    have hr := h.pcs t _ ht
    refine ⟨own, h.plain (q := .idle) ht hh (by rfl) rfl (by rfl) (by exact Nat.le_refl _) (fun _ _ => rfl) (by exact h.arr) trivial ?_ _ ?_⟩
    · cases hd <;> cases r <;> first | trivial | exact hhd | exact hr
    · intro x hx
      cases r with
      | copy dst n =>
        simp only [PC.actions, List.mem_map] at hx
        obtain ⟨l, hl, rfl⟩ := hx
        exact ⟨l, rfl, RInv.privOK hr.1 hr.2 l (mem_elems hl)⟩
      | _ => cases hx

theorem RInv.calls {y : Sys} {tr : List (Nat × Action)} {own : Nat → Option Nat} (h : RInv y tr own)
    {t : Nat} {op : Op} {hd hd' : Handler} {s' : State} {es : List Event} (hh : y.hs[t]? = some hd)
    (hs : step y.buf (.call t op) = some (s', es)) (hhd : hd'.owns own y.buf.heap.length t) :
    RInv ⟨s', y.hs.set t hd'⟩ tr own := by
  simp only [step] at hs
  split at hs
  · rename_i ht
    simp only [Option.some.injEq, Prod.mk.injEq] at hs
    obtain ⟨rfl, rfl⟩ := hs
    have := h.plain (q := op.entry) (s' := y.buf.goto t op.entry) ht hh rfl (by cases op <;> rfl) rfl (Nat.le_refl _) (fun _ _ => rfl) h.arr
      (by cases op <;> trivial) hhd [] (fun x hx => by cases hx)
    simpa using this
  · cases hs

theorem set_same {α : Type} {l : List α} {t : Nat} {x : α} (h : l[t]? = some x) : l.set t x = l := by
  apply List.ext_getElem?
  intro i
  by_cases e : i = t
  · subst e
    rw [List.getElem?_set_self (not_lt_of_none h), h]
  · rw [List.getElem?_set_ne (Ne.symm e)]

theorem RInv.step {y y' : Sys} {tr : List (Nat × Action)} {own : Nat → Option Nat} (h : RInv y tr own)
    {a : SysAct} {es : List SysEvent} (hs : y.step a = some (y', es)) :
    ∃ own', RInv y' (tr ++ y.actions a) own' := by
  cases a with
  | call t op =>
    simp only [Sys.step] at hs
    split at hs
    · rename_i hh
      simp only [Option.bind_eq_bind, Option.bind_eq_some_iff, Option.pure_def, Option.some.injEq, Prod.mk.injEq,
        Prod.exists] at hs
      obtain ⟨s1, e1, h1, rfl, rfl⟩ := hs
      have := h.calls (hd' := .free) hh h1 trivial
      rw [set_same hh] at this
      exact ⟨own, by simpa [Sys.actions] using this⟩
    · cases hs
  | run t spare =>
    simp only [Sys.step, Option.bind_eq_bind, Option.bind_eq_some_iff, Option.pure_def, Option.some.injEq,
      Prod.mk.injEq, Prod.exists] at hs
    obtain ⟨hd, hh, pc, ht, s1, e1, h1, rfl, rfl⟩ := hs
    simp only [Http.step, ht] at h1
    simp only [Sys.actions, ht]
    exact h.run hh ht h1
  | request t q =>
    simp only [Sys.step] at hs
    split at hs
    · rename_i hh
      simp only [Option.bind_eq_bind, Option.bind_eq_some_iff, Option.pure_def, Option.some.injEq, Prod.mk.injEq,
        Prod.exists] at hs
      obtain ⟨s1, e1, h1, rfl, rfl⟩ := hs
      exact ⟨own, by simpa [Sys.actions] using h.calls (hd' := .copying q) hh h1 trivial⟩
    · cases hs
  | serve t k =>
    simp only [Sys.step] at hs
    split at hs
    · rename_i q d n hh
      split at hs
      · simp only [Option.some.injEq, Prod.mk.injEq] at hs
        obtain ⟨rfl, rfl⟩ := hs
        obtain ⟨h1, h2⟩ := h.hs t _ hh
        refine ⟨own, h.arr, h.pcs, ?_, h.lock, ?_⟩
        · intro u r hr
          rcases hs_set hh hr with ⟨rfl, rfl⟩ | ⟨_, hr⟩
          · trivial
          · exact h.hs u r hr
        · simp only [Sys.actions, hh]
          refine h.tinv.access t _ (Nat.le_refl _) (fun _ _ => rfl) ?_
          intro x hx
          obtain ⟨l, hl, rfl⟩ := List.mem_map.1 hx
          obtain ⟨p1, p2⟩ := RInv.privOK (p := .idle) h1 h2 l (mem_elems hl)
          exact ⟨l, rfl, fun s => absurd (p1 s) (by decide), p2⟩
      · cases hs
    · cases hs
  | check t =>
    simp only [Sys.step] at hs
    split at hs
    · rename_i q hh
      split at hs
      · simp only [Option.bind_eq_bind, Option.bind_eq_some_iff, Option.pure_def, Option.some.injEq, Prod.mk.injEq,
          Prod.exists] at hs
        obtain ⟨s1, e1, h1, rfl, rfl⟩ := hs
        exact ⟨own, by simpa [Sys.actions] using h.calls (hd' := .resetting) hh h1 trivial⟩
      · simp only [Option.some.injEq, Prod.mk.injEq] at hs
        obtain ⟨rfl, rfl⟩ := hs
        refine ⟨own, h.arr, h.pcs, ?_, h.lock, ?_⟩
        · intro u r hr
          rcases hs_set hh hr with ⟨rfl, rfl⟩ | ⟨_, hr⟩
          · trivial
          · exact h.hs u r hr
        · simpa [Sys.actions] using h.tinv
    · cases hs

theorem RInv.init (n : Nat) : RInv (.init n) [] (fun _ => none) := by
  have idle : ∀ (t : Nat) (p : PC), (Sys.init n).buf.pcs[t]? = some p → p = .idle := by
    intro t p h
    have := List.mem_of_getElem? h
    exact (List.mem_replicate.1 this).2
  have free : ∀ (t : Nat) (p : Handler), (Sys.init n).hs[t]? = some p → p = .free := by
    intro t p h
    have := List.mem_of_getElem? h
    exact (List.mem_replicate.1 this).2
  have nocrit : ∀ t, ¬ InCrit (Sys.init n).buf t := by
    rintro t ⟨p, hp, c⟩
    rw [idle t p hp] at c; cases c
  refine ⟨fun a e => (nomatch e), ?_, ?_, fun t ht => absurd ht (nocrit t), ⟨?_, ?_, ?_, ?_, ?_⟩⟩
  · intro t p h; rw [idle t p h]; trivial
  · intro t p h; rw [free t p h]; trivial
  · intro i t x l h; simp at h
  · intro u hu; exact absurd hu (nocrit u)
  · intro i t x a j h; simp at h
  · intro i j t u x y _ h; simp at h
  · intro t u h; exact absurd h (nocrit t)

theorem RInv.trace {y : Sys} {tr : List (Nat × Action)} {own : Nat → Option Nat} (h : RInv y tr own)
    (as : List SysAct) : RaceFree (tr ++ y.trace as) := by
  induction as generalizing y tr own with
  | nil => simpa [Sys.trace] using h.tinv.free
  | cons a as ih =>
    unfold Sys.trace
    split
    · simpa using h.tinv.free
    · rename_i y' es hs
      obtain ⟨own', h'⟩ := h.step hs
      have := ih h'
      rwa [List.append_assoc] at this

end SMC.Http
