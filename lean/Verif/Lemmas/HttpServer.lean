import Verif.Spec.HttpServer
import Verif.Lemmas.HttpProgress
import Verif.Lemmas.HttpHistory
/-!
# Requests
-/

namespace SMC.Http

theorem observed_append (h k : List SysPoint) : observed (h ++ k) = observed h ++ observed k :=
  List.filterMap_append ..

theorem points_append (h k : List SysPoint) : points (h ++ k) = points h ++ points k :=
  List.filterMap_append ..

theorem points_map (ps : List Point) : points (ps.map .pt) = ps := by
  induction ps with
  | nil => rfl
  | cons p ps ih => exact congrArg (p :: ·) ih

theorem observed_map (ps : List Point) : observed (ps.map .pt) = (seen ps).map .buf := by
  induction ps with
  | nil => rfl
  | cons p ps ih => cases p <;> simp_all [observed, seen]

/-- The copy of goroutine `t` took effect with value `x`, nothing after that. -/
def AfterCopy (h : List SysPoint) (t : Nat) (x : Bytes) : Prop :=
  ∃ a b, h = a ++ .pt (.effect t .copy (.copied x)) :: b ∧ ∀ p ∈ b, p.apart t

/-- The copy of goroutine `t` took effect with value `x`, then `y` was sent, nothing after
that. -/
def AfterServe (h : List SysPoint) (t : Nat) (x y : Bytes) : Prop :=
  ∃ a b c, h = a ++ .pt (.effect t .copy (.copied x)) :: (b ++ .response t y :: c) ∧
    (∀ p ∈ b, p.apart t) ∧ (∀ p ∈ c, p.apart t) ∧ y <+: x

theorem AfterCopy.more {h : List SysPoint} {t : Nat} {x : Bytes} (a : AfterCopy h t x)
    {k : List SysPoint} (hk : ∀ p ∈ k, p.apart t) : AfterCopy (h ++ k) t x := by
  obtain ⟨a, b, rfl, hb⟩ := a
  refine ⟨a, b ++ k, by simp, ?_⟩
  intro p hp
  rcases List.mem_append.1 hp with m | m
  · exact hb p m
  · exact hk p m

theorem AfterServe.more {h : List SysPoint} {t : Nat} {x y : Bytes} (a : AfterServe h t x y)
    {k : List SysPoint} (hk : ∀ p ∈ k, p.apart t) : AfterServe (h ++ k) t x y := by
  obtain ⟨a, b, c, rfl, hb, hc, hy⟩ := a
  refine ⟨a, b, c ++ k, by simp, hb, ?_, hy⟩
  intro p hp
  rcases List.mem_append.1 hp with m | m
  · exact hc p m
  · exact hk p m

theorem AfterCopy.serve {h : List SysPoint} {t : Nat} {x : Bytes} (a : AfterCopy h t x)
    (y : Bytes) (hy : y <+: x) : AfterServe (h ++ [.response t y]) t x y := by
  obtain ⟨a, b, rfl, hb⟩ := a
  exact ⟨a, b, [], by simp, hb, by simp, hy⟩

/-- What holds of a goroutine that handles a request. -/
def HandlerOK (s : State) (h : List SysPoint) (t : Nat) : Handler → Prop
  | .free => phase t (points h) ≠ some (.called .reset)
  | .copying _ => phase t (points h) = some (.called .copy) ∨
      ∃ x, phase t (points h) = some (.answered (.copied x)) ∧ AfterCopy h t x
  | .serving _ d n => phase t (points h) = some .idle ∧ Frozen s d ∧
      AfterCopy h t ((s.array d).take n)
  | .checking _ => phase t (points h) = some .idle ∧ ∃ x y, AfterServe h t x y
  | .resetting => (phase t (points h) = some (.called .reset) ∧ ∃ x y, AfterServe h t x y) ∨
      ∃ v, phase t (points h) = some (.answered v)

/-- The invariant of the server. -/
structure SysInv (y : Sys) (h : List SysPoint) : Prop where
  inv : Inv y.buf (points h)
  ok : ∀ (t : Nat) hd, y.hs[t]? = some hd → HandlerOK y.buf h t hd
  resets : ∀ a b t v, h = a ++ .pt (.effect t .reset v) :: b → ∃ x y, AfterServe a t x y
  resp : ∀ a b t w, h = a ++ .response t w :: b → phase t (points a) = some .idle ∧ ∃ x, AfterCopy a t x ∧ w <+: x

theorem phase_others {t u : Nat} (hu : u ≠ t) {s : State} {p : PC} (pts : List Point) :
    phase u (pts ++ s.points t p) = phase u pts := by
  have one : ∀ q : Point, (∀ ph : Phase, ph.next u q = some ph) → phase u (pts ++ [q]) = phase u pts := by
    intro q hq
    rw [phase_snoc]
    cases phase u pts with
    | none => rfl
    | some ph => exact hq ph
  cases p <;> simp only [State.points, List.append_nil] <;>
    exact one _ (fun ph => by simp [Phase.next, Ne.symm hu])

theorem points_apart {t u : Nat} (hu : u ≠ t) {s : State} {p : PC} :
    ∀ q ∈ (s.points t p).map SysPoint.pt, q.apart u := by
  cases p <;> simp [State.points, SysPoint.apart, Ne.symm hu]

/-- The handlers of the other goroutines are not affected. -/
theorem HandlerOK.other {s s' : State} {h k : List SysPoint} {u : Nat} {hd : Handler}
    (o : HandlerOK s h u hd) (hp : phase u (points (h ++ k)) = phase u (points h))
    (hk : ∀ p ∈ k, p.apart u) (hf : ∀ d, Frozen s d → Frozen s' d ∧ s'.array d = s.array d) :
    HandlerOK s' (h ++ k) u hd := by
  cases hd with
  | free => simpa only [HandlerOK, hp] using o
  | copying q =>
    rcases o with o | ⟨x, o, a⟩
    · exact Or.inl (hp.trans o)
    · exact Or.inr ⟨x, hp.trans o, a.more hk⟩
  | serving q d n =>
    obtain ⟨o, f, a⟩ := o
    obtain ⟨f', e⟩ := hf d f
    refine ⟨hp.trans o, f', ?_⟩
    rw [e]
    exact a.more hk
  | checking q =>
    obtain ⟨o, x, y, a⟩ := o
    exact ⟨hp.trans o, x, y, a.more hk⟩
  | resetting =>
    rcases o with ⟨o, x, y, a⟩ | ⟨v, o⟩
    · exact Or.inl ⟨hp.trans o, x, y, a.more hk⟩
    · exact Or.inr ⟨v, hp.trans o⟩

theorem split_snoc {α : Type} {h a b : List α} {p q : α} (e : h ++ [p] = a ++ q :: b) :
    (a = h ∧ q = p ∧ b = []) ∨ ∃ b', b = b' ++ [p] ∧ h = a ++ q :: b' := by
  rcases List.eq_nil_or_concat b with rfl | ⟨b', x, rfl⟩
  · have := List.append_inj' e rfl
    simp only [List.cons.injEq, and_true] at this
    exact Or.inl ⟨this.1.symm, this.2.symm, rfl⟩
  · right
    rw [List.concat_eq_append, ← List.cons_append, ← List.append_assoc] at e
    have := List.append_inj' e rfl
    simp only [List.cons.injEq, and_true] at this
    exact ⟨b', by rw [List.concat_eq_append, this.2], this.1⟩

/-- Adding a point that is neither a reset nor a response. -/
theorem SysInv.resets_snoc {y : Sys} {h : List SysPoint} (i : SysInv y h) {p : SysPoint}
    (hp : ∀ t v, p = .pt (.effect t .reset v) → ∃ x y, AfterServe h t x y) :
    ∀ a b t v, h ++ [p] = a ++ .pt (.effect t .reset v) :: b → ∃ x y, AfterServe a t x y := by
  intro a b t v e
  rcases split_snoc e with ⟨rfl, e1, rfl⟩ | ⟨b', rfl, e1⟩
  · exact hp t v e1.symm
  · exact i.resets a b' t v e1

theorem SysInv.resp_snoc {y : Sys} {h : List SysPoint} (i : SysInv y h) {p : SysPoint}
    (hp : ∀ t w, p = .response t w → phase t (points h) = some .idle ∧ ∃ x, AfterCopy h t x ∧ w <+: x) :
    ∀ a b t w, h ++ [p] = a ++ .response t w :: b →
      phase t (points a) = some .idle ∧ ∃ x, AfterCopy a t x ∧ w <+: x := by
  intro a b t w e
  rcases split_snoc e with ⟨rfl, e1, rfl⟩ | ⟨b', rfl, e1⟩
  · exact hp t w e1.symm
  · exact i.resp a b' t w e1

theorem hset_get {hs : List Handler} {t : Nat} {p : Handler} (h : hs[t]? = some p) (q : Handler)
    (u : Nat) : (hs.set t q)[u]? = if t = u then some q else hs[u]? := by
  have : t < hs.length := by
    rcases Nat.lt_or_ge t hs.length with c | c
    · exact c
    · rw [List.getElem?_eq_none c] at h
      cases h
  rw [List.getElem?_set, if_pos this]

theorem hset_self {hs : List Handler} {t : Nat} {p : Handler} (h : hs[t]? = some p) :
    hs.set t p = hs := by
  refine List.ext_getElem? (fun u => ?_)
  rw [hset_get h]
  split
  · rename_i e
    rw [← e, h]
  · rfl

theorem apart_seen (e : Event) (u : Nat) : ∀ p ∈ [SysPoint.pt (.seen e)], p.apart u := by
  simp [SysPoint.apart]

theorem phase_call {t u : Nat} (hu : u ≠ t) (op : Op) (pts : List Point) :
    phase u (pts ++ [.seen (.call t op)]) = phase u pts := by
  rw [phase_snoc]
  cases phase u pts with
  | none => rfl
  | some ph => simp [Phase.next, Ne.symm hu]

theorem phase_called {t : Nat} {op : Op} {pts : List Point} (h : phase t pts = some .idle) :
    phase t (pts ++ [.seen (.call t op)]) = some (.called op) := by
  rw [phase_snoc, h]
  simp [Phase.next]

/-- A call by goroutine `t`, after which its handler is in state `hd'`. -/
theorem SysInv.call {y : Sys} {h : List SysPoint} (i : SysInv y h) {t : Nat} {hd : Handler}
    (hd' : Handler) {op : Op} {s : State} {es : List Event} (hh : y.hs[t]? = some hd)
    (hs : Http.step y.buf (.call t op) = some (s, es))
    (ok : phase t (points h) = some .idle →
      HandlerOK s (h ++ [.pt (.seen (.call t op))]) t hd') :
    SysInv ⟨s, y.hs.set t hd'⟩ (h ++ [.pt (.seen (.call t op))]) ∧ es = [.call t op] := by
  have fz := fun d (f : Frozen y.buf d) => f.step hs
  obtain ⟨ht, rfl, rfl⟩ := step_call hs
  have hidle : phase t (points h) = some .idle := by rw [i.inv.phases t, ht]; rfl
  refine ⟨⟨?_, ?_, ?_, ?_⟩, rfl⟩
  · rw [points_append]
    exact i.inv.call op ht
  · intro u k hu
    rw [hset_get hh] at hu
    split at hu
    · rename_i e
      subst e
      cases hu
      exact ok hidle
    · rename_i e
      refine (i.ok u k hu).other ?_ (apart_seen _ _) fz
      rw [points_append]
      exact phase_call (Ne.symm e) op _
  · exact i.resets_snoc (by intro t v e; cases e)
  · exact i.resp_snoc (by intro t v e; cases e)

/-- The points of a step: none, an effect, or a return. -/
theorem points_kind (s : State) (t : Nat) (p : PC) :
    (s.points t p = [] ∧ ∀ r, p ≠ .out r) ∨
    (∃ op v, s.points t p = [.effect t op v] ∧ ∀ r, p ≠ .out r) ∨
    (∃ r, p = .out r ∧ s.points t p = [.seen (.ret t (s.value r))]) := by
  cases p <;> simp [State.points]

theorem phase_effect {t : Nat} {op : Op} {v : Val} {pts : List Point} {ph : Phase}
    (h : phase t (pts ++ [.effect t op v]) = some ph) :
    phase t pts = some (.called op) ∧ ph = .answered v := by
  rw [phase_snoc] at h
  obtain ⟨q, h1, h2⟩ := Option.bind_eq_some_iff.1 h
  simp only [Phase.next, if_true] at h2
  split at h2
  · rename_i e
    subst e
    exact ⟨h1, (Option.some.inj h2).symm⟩
  · cases h2

/-- A step of goroutine `t` inside a method. -/
theorem SysInv.run {y : Sys} {h : List SysPoint} (i : SysInv y h) {t spare : Nat} {hd : Handler}
    {p : PC} {s : State} {es : List Event} (hh : y.hs[t]? = some hd) (ht : y.buf.pcs[t]? = some p)
    (hs : Http.step y.buf (.run t spare) = some (s, es)) :
    SysInv ⟨s, y.hs.set t (hd.after p)⟩
      (h ++ (y.buf.points t p).map .pt) ∧ es = seen (y.buf.points t p) := by
  have fz := fun d (f : Frozen y.buf d) => f.step hs
  obtain ⟨p', ht', hs⟩ := step_run hs
  rw [ht] at ht'
  cases ht'
  obtain ⟨inv, rfl⟩ := i.inv.next ht hs
  have ok := i.ok t hd hh
  have pcs : phase t (points h) = some (y.buf.phase p) := by rw [i.inv.phases t, ht]; rfl
  have pp : points (h ++ (y.buf.points t p).map .pt) = points h ++ y.buf.points t p := by
    rw [points_append, points_map]
  -- the goroutine itself and the two conditions on the history
  suffices key : HandlerOK s (h ++ (y.buf.points t p).map .pt) t
      (hd.after p) ∧
      (∀ a b u v, h ++ (y.buf.points t p).map SysPoint.pt = a ++ .pt (.effect u .reset v) :: b →
        ∃ x y, AfterServe a u x y) ∧
      (∀ a b u w, h ++ (y.buf.points t p).map SysPoint.pt = a ++ .response u w :: b →
        phase u (points a) = some .idle ∧ ∃ x, AfterCopy a u x ∧ w <+: x) by
    refine ⟨⟨by rw [pp]; exact inv, ?_, key.2.1, key.2.2⟩, rfl⟩
    intro u k hu
    rw [hset_get hh] at hu
    split at hu
    · rename_i e
      subst e
      cases hu
      exact key.1
    · rename_i e
      refine (i.ok u k hu).other ?_ (points_apart (Ne.symm e)) fz
      rw [pp]
      exact phase_others (Ne.symm e) _
  rcases points_kind y.buf t p with ⟨e, ho⟩ | ⟨op, v, e, ho⟩ | ⟨r, rfl, e⟩
  · -- nothing happens
    have hm : (hd.after p) = hd := by
      cases p <;> first | rfl | exact absurd rfl (ho _)
    rw [hm, e]
    refine ⟨?_, ?_, ?_⟩
    · refine ok.other ?_ (by simp) fz
      simp
    · simpa using i.resets
    · simpa using i.resp
  · -- an operation takes effect
    have hm : (hd.after p) = hd := by
      cases p <;> first | rfl | exact absurd rfl (ho _)
    have hp := inv.phases t
    have hl := inv.legal
    rw [e] at hp hl
    obtain ⟨h1, h2⟩ := phase_effect hp
    rw [h2] at hp
    have hv : v = answer (done (points h)) op := (Legal.value (k := []) hl)
    have pp' : phase t (points (h ++ [.pt (.effect t op v)])) = some (.answered v) := by
      rw [points_append]; exact hp
    rw [hm, e]
    refine ⟨?_, ?_, i.resp_snoc (by intro _ _ x; cases x)⟩
    · cases hd with
      | free =>
        simp only [HandlerOK, List.map_cons, List.map_nil, pp']
        intro x
        cases x
      | copying q =>
        have : op = .copy := by
          rcases ok with o | ⟨x, o, _⟩
          · rw [h1] at o
            cases o
            rfl
          · rw [h1] at o
            cases o
        subst this
        right
        exact ⟨since (done (points h)), pp'.trans (by rw [hv]; rfl), h, [], by rw [hv]; rfl, by simp⟩
      | serving q d n => cases h1.symm.trans ok.1
      | checking q => cases h1.symm.trans ok.1
      | resetting => exact Or.inr ⟨v, pp'⟩
    · refine i.resets_snoc ?_
      intro u w x
      cases x
      cases hd with
      | free => exact absurd h1 ok
      | copying q =>
        rcases ok with o | ⟨x, o, _⟩
        · rw [h1] at o; cases o
        · rw [h1] at o; cases o
      | serving q d n => cases h1.symm.trans ok.1
      | checking q => cases h1.symm.trans ok.1
      | resetting =>
        rcases ok with ⟨_, o⟩ | ⟨v, o⟩
        · exact o
        · rw [h1] at o; cases o
  · -- a method returns
    have hp := inv.phases t
    rw [e] at hp
    have pidle : phase t (points (h ++ [.pt (.seen (.ret t (y.buf.value r)))])) = some .idle := by
      rw [points_append]
      show phase t (points h ++ [.seen (.ret t (y.buf.value r))]) = _
      rw [phase_snoc, pcs]
      simp [State.phase, Phase.next]
    rw [e]
    refine ⟨?_, i.resets_snoc (by intro _ _ x; cases x), i.resp_snoc (by intro _ _ x; cases x)⟩
    have pa : phase t (points h) = some (.answered (y.buf.value r)) := pcs
    cases hd with
    | free =>
      show HandlerOK s _ t .free
      simp only [HandlerOK, List.map_cons, List.map_nil, pidle]
      intro x
      cases x
    | copying q =>
      rcases ok with o | ⟨x, o, a⟩
      · rw [pa] at o; cases o
      · rw [pa] at o
        simp only [Option.some.injEq, Phase.answered.injEq] at o
        cases r with
        | wrote n => cases o
        | failed => cases o
        | wasReset => cases o
        | copy d n =>
          simp only [State.value, Val.copied.injEq] at o
          obtain ⟨f', e'⟩ := fz d (i.inv.frozen t d n ht)
          refine ⟨pidle, f', ?_⟩
          rw [e', o]
          exact a.more (apart_seen _ _)
    | serving q d n => cases pa.symm.trans ok.1
    | checking q => cases pa.symm.trans ok.1
    | resetting =>
      show HandlerOK s _ t .free
      simp only [HandlerOK, List.map_cons, List.map_nil, pidle]
      intro x
      cases x

/-- A response is sent. -/
theorem SysInv.serve {y : Sys} {h : List SysPoint} (i : SysInv y h) {t d n : Nat} {q : Bytes}
    (hh : y.hs[t]? = some (.serving q d n)) (k : Nat) :
    SysInv { y with hs := y.hs.set t (.checking q) }
      (h ++ [.response t (((y.buf.array d).take n).take k)]) := by
  obtain ⟨o, f, a⟩ := i.ok t _ hh
  have pfx : ((y.buf.array d).take n).take k <+: (y.buf.array d).take n := List.take_prefix _ _
  have pp : points (h ++ [.response t (((y.buf.array d).take n).take k)]) = points h := by
    rw [points_append]
    exact List.append_nil _
  refine ⟨?_, ?_, ?_, ?_⟩
  · rw [pp]; exact i.inv
  · intro u hd hu
    rw [hset_get hh] at hu
    split at hu
    · rename_i e
      subst e
      cases hu
      exact ⟨by rw [pp]; exact o, _, _, a.serve _ pfx⟩
    · rename_i e
      refine (i.ok u hd hu).other (by rw [pp]) ?_ (fun d f => ⟨f, rfl⟩)
      simp [SysPoint.apart, e]
  · exact i.resets_snoc (by intro _ _ x; cases x)
  · refine i.resp_snoc ?_
    intro u w x
    cases x
    exact ⟨o, _, a, pfx⟩

/-- A request calls `Reset`. -/
theorem SysInv.reset {y : Sys} {h : List SysPoint} (i : SysInv y h) {t : Nat} {q : Bytes}
    {s : State} {es : List Event} (hh : y.hs[t]? = some (.checking q))
    (h1 : Http.step y.buf (.call t .reset) = some (s, es)) :
    SysInv ⟨s, y.hs.set t .resetting⟩ (h ++ [.pt (.seen (.call t .reset))]) ∧
      es = [.call t .reset] := by
  obtain ⟨o, x, w, a⟩ := i.ok t _ hh
  refine i.call .resetting hh h1 ?_
  intro hidle
  left
  refine ⟨?_, x, w, a.more (apart_seen _ _)⟩
  rw [points_append]
  exact phase_called hidle

/-- A request does not call `Reset`. -/
theorem SysInv.skip {y : Sys} {h : List SysPoint} (i : SysInv y h) {t : Nat} {q : Bytes}
    (hh : y.hs[t]? = some (.checking q)) : SysInv { y with hs := y.hs.set t .free } h := by
  obtain ⟨o, x, w, a⟩ := i.ok t _ hh
  refine ⟨i.inv, ?_, i.resets, i.resp⟩
  intro u hd hu
  rw [hset_get hh] at hu
  split at hu
  · rename_i e
    subst e
    cases hu
    rw [HandlerOK, o]
    intro e
    cases e
  · exact i.ok u hd hu

/-- Every step of the server keeps the invariant. -/
theorem SysInv.step {y y' : Sys} {h : List SysPoint} (i : SysInv y h) {a : SysAct}
    {es : List SysEvent} (ha : ∀ t, a ≠ .call t .reset) (hs : y.step a = some (y', es)) :
    ∃ k, SysInv y' (h ++ k) ∧ observed k = es := by
  cases a with
  | call t op =>
    simp only [Sys.step] at hs
    split at hs
    · rename_i hh
      simp only [Option.bind_eq_bind, Option.bind_eq_some_iff, Option.pure_def,
        Option.some.injEq, Prod.mk.injEq, Prod.exists] at hs
      obtain ⟨s, e, h1, rfl, rfl⟩ := hs
      obtain ⟨j, rfl⟩ := i.call .free hh h1 (by
        intro hidle
        rw [HandlerOK, points_append]
        show phase t (points h ++ [.seen (.call t op)]) ≠ _
        rw [phase_called hidle]
        intro e
        cases e
        exact ha t rfl)
      refine ⟨[.pt (.seen (.call t op))], ?_, rfl⟩
      have : y.hs.set t .free = y.hs := hset_self hh
      rw [this] at j
      exact j
    · cases hs
  | run t spare =>
    simp only [Sys.step, Option.bind_eq_bind, Option.bind_eq_some_iff, Option.pure_def,
      Option.some.injEq, Prod.mk.injEq, Prod.exists] at hs
    obtain ⟨hd, hh, p, ht, s, e, h1, rfl, rfl⟩ := hs
    obtain ⟨j, rfl⟩ := i.run hh ht h1
    exact ⟨_, j, observed_map _⟩
  | request t q =>
    simp only [Sys.step] at hs
    split at hs
    · rename_i hh
      simp only [Option.bind_eq_bind, Option.bind_eq_some_iff, Option.pure_def,
        Option.some.injEq, Prod.mk.injEq, Prod.exists] at hs
      obtain ⟨s, e, h1, rfl, rfl⟩ := hs
      obtain ⟨j, rfl⟩ := i.call (.copying q) hh h1 (by
        intro hidle
        left
        rw [points_append]
        exact phase_called hidle)
      exact ⟨_, j, rfl⟩
    · cases hs
  | serve t k =>
    simp only [Sys.step] at hs
    split at hs
    · rename_i q d n hh
      split at hs
      · simp only [Option.some.injEq, Prod.mk.injEq] at hs
        obtain ⟨rfl, rfl⟩ := hs
        exact ⟨_, i.serve hh k, rfl⟩
      · cases hs
    · cases hs
  | check t =>
    simp only [Sys.step] at hs
    split at hs
    · rename_i q hh
      split at hs
      · simp only [Option.bind_eq_bind, Option.bind_eq_some_iff, Option.pure_def,
          Option.some.injEq, Prod.mk.injEq, Prod.exists] at hs
        obtain ⟨s, e, h1, rfl, rfl⟩ := hs
        obtain ⟨j, rfl⟩ := i.reset hh h1
        exact ⟨_, j, rfl⟩
      · simp only [Option.some.injEq, Prod.mk.injEq] at hs
        obtain ⟨rfl, rfl⟩ := hs
        exact ⟨[], by rw [List.append_nil]; exact i.skip hh, rfl⟩
    · cases hs

theorem SysInv.init (n : Nat) : SysInv (.init n) [] := by
  refine ⟨Inv.init n, ?_, ?_, ?_⟩
  · intro t hd hh
    simp only [Sys.init, List.getElem?_replicate] at hh
    split at hh
    · cases hh
      intro e
      cases e
    · cases hh
  · intro a b t v e
    simp at e
  · intro a b t v e
    simp at e

theorem SysInv.runs {y y' : Sys} {h : List SysPoint} (i : SysInv y h) {as : List SysAct}
    {es : List SysEvent} (ha : OnlyRequestsReset as) (hs : y.run as = some (y', es)) :
    ∃ k, SysInv y' (h ++ k) ∧ observed k = es := by
  induction as generalizing y h es with
  | nil =>
    simp only [Sys.run, Option.some.injEq, Prod.mk.injEq] at hs
    obtain ⟨rfl, rfl⟩ := hs
    exact ⟨[], by simpa using i, rfl⟩
  | cons a as ih =>
    simp only [Sys.run, Option.bind_eq_bind, Option.bind_eq_some_iff, Option.pure_def,
      Option.some.injEq, Prod.mk.injEq, Prod.exists] at hs
    obtain ⟨y1, e1, h1, y2, e2, h2, rfl, rfl⟩ := hs
    obtain ⟨k1, i1, rfl⟩ := i.step (fun t e => ha t (by simp [e])) h1
    obtain ⟨k2, i2, rfl⟩ := ih i1 (fun t m => ha t (by simp [m])) h2
    exact ⟨k1 ++ k2, by simpa using i2, observed_append _ _⟩

end SMC.Http
