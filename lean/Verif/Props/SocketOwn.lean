import Verif.Spec.SocketOwn
import Verif.Props.Socket
/-!
# C101, C102: whose descriptors the calls work on, and how long connections stay open
-/

namespace SMC.Props

open SMC SMC.Socket

theorem run_cons {s s' : Proc} {a : Act} {as : List Act} {es : List Closed} (h : s.run (a :: as) = some (s', es)) :
    ∃ s1 e1 e2, s.step a = some (s1, e1) ∧ s1.run as = some (s', e2) ∧ es = e1 ++ e2 := by
  simp only [Proc.run, Option.bind_eq_bind, Option.bind_eq_some_iff, Option.pure_def,
    Option.some.injEq, Prod.mk.injEq, Prod.exists] at h
  obtain ⟨s1, e1, h1, s2, e2, h2, rfl, rfl⟩ := h
  exact ⟨s1, e1, e2, h1, h2, rfl⟩

/-- a finalizer that finds its number not in use changes no descriptor -/
theorem quiet_finalize {s s' : Proc} {e : List Closed} {i : Nat} (hs : s.step (.finalize i) = some (s', e))
    (hq : ∀ fd, s.files[i]? = some fd → s.table fd = none) :
    s'.table = s.table ∧ s'.progs = s.progs ∧ ∀ c ∈ e, c.owner = none := by
  simp only [Proc.step] at hs
  split at hs
  · rename_i fd hfd
    cases hs
    have free := hq fd hfd
    refine ⟨?_, rfl, ?_⟩
    · funext x
      simp only [update_get]
      split
      · rename_i hx; rw [hx, free]
      · rfl
    · intro c m
      rw [List.mem_singleton] at m
      subst m
      exact free
  · cases hs

theorem quiet_step {s s' : Proc} {es e : List Closed} (i : FdInv s es) (o : Owned s) {a : Act}
    (hq : ∀ i fd, a = .finalize i → s.files[i]? = some fd → s.table fd = none) (hs : s.step a = some (s', e)) :
    Owned s' ∧ ∀ c ∈ e, c.owner = none ∨ ∃ t, c.owner = some (.sock t) := by
  by_cases hn : ∃ n, a = .finalize n
  · obtain ⟨n, rfl⟩ := hn
    obtain ⟨h1, h2, h3⟩ := quiet_finalize hs fun fd => hq n fd rfl
    refine ⟨?_, fun c m => .inl (h3 c m)⟩
    intro t p fd b ht f
    rw [h1]
    rw [h2] at ht
    exact o t p fd b ht f
  · obtain ⟨h1, h2⟩ := o.step i (fun n e => hn ⟨n, e⟩) hs
    exact ⟨h1, fun c m => .inr (h2 c m)⟩

theorem quiet_run {s s' : Proc} {es e : List Closed} (i : FdInv s es) (o : Owned s) {as : List Act}
    (hq : Quiet s as) (hs : s.run as = some (s', e)) :
    Owned s' ∧ ∀ c ∈ e, c.owner = none ∨ ∃ t, c.owner = some (.sock t) := by
  induction as generalizing s es e with
  | nil =>
    cases hs
    exact ⟨o, by simp⟩
  | cons a as ih =>
    obtain ⟨s1, e1, e2, h1, h2, rfl⟩ := run_cons hs
    obtain ⟨o1, c1⟩ := quiet_step i o hq.1 h1
    obtain ⟨o2, c2⟩ := ih (i.step h1) o1 (hq.2 _ _ h1) h2
    exact ⟨o2, fun c m => (List.mem_append.1 m).elim (c1 c) (c2 c)⟩

theorem quiet_of_none {as : List Act} (h : ∀ n, .finalize n ∉ as) (s : Proc) : Quiet s as := by
  induction as generalizing s with
  | nil => trivial
  | cons a as ih =>
    refine ⟨?_, fun s' _ _ => ih (fun n m => h n (List.mem_cons_of_mem _ m)) s'⟩
    rintro i - rfl
    exact absurd List.mem_cons_self (h i)

/-- the descriptor a call works on is the socket of the goroutine, according to its program -/
theorem form_on {c : Call} {k : Answer → Prog} {h : Option Nat} {b : Bool} (f : Form (.call c k) h b) : h = c.on := by
  cases f <;> rfl

/-- **C71**, more of what holds of it: as long as every finalizer that runs finds its number not in
use, the package closes only its own sockets and numbers not in use. -/
theorem C71_quiet_partial (lib : Lib) (s0 s : Proc) (as : List Act) (es : List Closed) (h : Initial lib s0)
    (hs : s0.run as = some (s, es)) (hq : Quiet s0 as) : ∀ c ∈ es, c.owner = none ∨ ∃ t, c.owner = some (.sock t) :=
  (quiet_run (FdInv.init h) (Owned.init h) hq hs).2

/-- **C101**, what holds of it: as long as every finalizer that runs finds its number not in use,
`Dial` and `Listen` work on nothing but their own sockets. -/
theorem C101_partial (lib : Lib) (s0 s : Proc) (as : List Act) (es : List Closed) (h : Initial lib s0)
    (hs : s0.run as = some (s, es)) (hq : Quiet s0 as) (t : Nat) (c : Call) (k : Answer → Prog) (fd : Nat)
    (ht : s.progs[t]? = some (.call c k)) (hc : c.on = some fd) : s.table fd = some (.sock t) := by
  obtain ⟨o, -⟩ := quiet_run (FdInv.init h) (Owned.init h) hq hs
  obtain ⟨h', b, f, -⟩ := ((FdInv.init h).run hs).held t _ ht
  rw [form_on f, hc] at f
  exact o t _ fd b ht f

/-- **C101**: an open socket of a goroutine is the one it is working on, so it has no two; also if
finalizers close what they like. -/
theorem C101_one_socket (lib : Lib) (s : Proc) (h : Reachable lib s) (t fd : Nat) (p : Prog) (hp : s.progs[t]? = some p)
    (ht : s.table fd = some (.sock t)) : ∃ c k, p = .call c k ∧ c.on = some fd := by
  obtain ⟨s0, as, es, h0, hs⟩ := h
  obtain ⟨h', b, f, a, -⟩ := ((FdInv.init h0).run hs).held t p hp
  obtain rfl := a fd ht
  cases f <;> exact ⟨_, _, rfl, rfl⟩

/-- A process with two goroutines that call `Dial`; descriptors 0 to 2 are in use. -/
def twoDials : Proc :=
  ⟨[dial exampleLib (go! "four:80"), dial exampleLib (go! "four:80")], fun fd => if fd < 3 then some .other else none, []⟩

theorem twoDials_initial : Initial exampleLib twoDials := by
  refine ⟨rfl, ?_, ?_⟩
  · intro fd
    unfold twoDials
    dsimp only
    split
    · exact Or.inr rfl
    · exact Or.inl rfl
  · intro p hp
    refine ⟨go! "four:80", Or.inl ?_⟩
    simpa [twoDials] using hp

/-- The executions of `twoDials` are those of `dialSocket`. -/
theorem twoDials_eq : twoDials = ⟨[dialSocket (.inet4 80 [127, 0, 0, 1]), dialSocket (.inet4 80 [127, 0, 0, 1])],
    fun fd => if fd < 3 then some .other else none, []⟩ := by
  have h : createSockaddr exampleLib (go! "four:80") = .ok (some (.inet4 80 [127, 0, 0, 1])) := by
    decide +kernel
  unfold twoDials dial
  rw [h]
  rfl

/-- The first call has returned, with file and finalizer left. The second one gets the same number
for its socket, the finalizer closes it, and somebody else opens a descriptor. -/
def mixedUp : List Act := success ++ [.answer 1 (.ok 3), .finalize 0, .opens 3]

/-- **C101** is false: the second call connects a descriptor of somebody else. -/
theorem C101_false : ¬ WorksOnOwn := by
  intro h
  have e : ∃ s es k, twoDials.run mixedUp = some (s, es) ∧
      s.progs[1]? = some (.call (.connect 3 (.inet4 80 [127, 0, 0, 1])) k) ∧ s.table 3 = some .other := by
    rw [twoDials_eq]
    exact ⟨_, _, _, rfl, rfl, rfl⟩
  obtain ⟨s, es, k, hs, hp, ht⟩ := e
  have := h exampleLib s ⟨_, _, _, twoDials_initial, hs⟩ 1 _ k 3 hp rfl
  rw [ht] at this
  cases this

/-- **C101**: it gets worse: the call returns a connection made of that descriptor, and closes
it. -/
theorem C101_steals : ∃ s es, twoDials.run (mixedUp ++ [.answer 1 (.ok 0), .answer 1 (.ok 0), .answer 1 (.ok 5), .answer 1 (.ok 0)]) =
      some (s, es) ∧ s.progs[1]? = some (.ret (.conn 5)) ∧
    es = [⟨3, some (.sock 0)⟩, ⟨3, some (.sock 1)⟩, ⟨3, some .other⟩] ∧ s.table 3 = none := by
  rw [twoDials_eq]
  exact ⟨_, _, rfl, rfl, rfl, rfl⟩

/-- a run with a finalizer that finds its number not in use, while the second call connects -/
example : Quiet twoDials (success ++ [.finalize 0, .answer 1 (.ok 3)]) ∧
    ∃ s es k, twoDials.run (success ++ [.finalize 0, .answer 1 (.ok 3)]) = some (s, es) ∧
      s.progs[1]? = some (.call (.connect 3 (.inet4 80 [127, 0, 0, 1])) k) ∧ s.table 3 = some (.sock 1) := by
  rw [twoDials_eq]
  refine ⟨?_, _, _, _, rfl, rfl, rfl⟩
  simp only [success, List.cons_append, List.nil_append, Quiet, and_true, forall_const, implies_true]
  iterate 5 (refine ⟨by rintro i fd ⟨⟩, fun _ _ h => ?_⟩; cases h)
  refine ⟨?_, fun _ _ h => ?_⟩
  · rintro i fd ⟨⟩ h
    cases h
    rfl
  · rintro i fd ⟨⟩

theorem stays_step {s s' : Proc} {es e : List Closed} (i : FdInv s es) (o : Owned s) {a : Act}
    (hq : ∀ i fd, a = .finalize i → s.files[i]? = some fd → s.table fd = none) (hs : s.step a = some (s', e)) {t n : Nat}
    (ht : s.table n = some (.conn t)) (hn : a ≠ .closes n) : s'.table n = some (.conn t) := by
  cases a with
  | opens fd =>
    simp only [Proc.step] at hs
    split at hs
    · rename_i free
      cases hs
      simp only [update_get]
      split
      · rename_i e; rw [e, free] at ht; cases ht
      · exact ht
    · cases hs
  | closes fd =>
    have hfd : n ≠ fd := fun e => hn (by rw [e])
    simp only [Proc.step] at hs
    split at hs
    · cases hs; simp only [update_get, if_neg hfd]; exact ht
    · cases hs; simp only [update_get, if_neg hfd]; exact ht
    · cases hs
  | finalize j =>
    rw [(quiet_finalize hs fun fd => hq j fd rfl).1]
    exact ht
  | answer u a =>
    simp only [Proc.step] at hs
    split at hs
    · rename_i c k hu
      simp only [Option.bind_eq_bind, Option.bind_eq_some_iff, Option.pure_def,
        Option.some.injEq, Prod.mk.injEq, Prod.exists] at hs
      obtain ⟨s1, e2, h1, rfl, rfl⟩ := hs
      have fresh : ∀ fd w, s.table fd = none → update s.table fd w n = some (.conn t) := by
        intro fd w free
        simp only [update_get]
        split
        · rename_i e; rw [e, free] at ht; cases ht
        · exact ht
      cases c <;> simp only [Proc.effect] at h1
      case socket =>
        split at h1
        · cases h1; exact ht
        · split at h1
          · rename_i free; cases h1; exact fresh _ _ free
          · cases h1
      case connect => cases h1; exact ht
      case bind => cases h1; exact ht
      case listen => cases h1; exact ht
      case newFile => cases h1; exact ht
      case fileConn =>
        split at h1
        · cases h1; exact ht
        · split at h1
          · rename_i free; cases h1; exact fresh _ _ free
          · cases h1
      case fileListener =>
        split at h1
        · cases h1; exact ht
        · split at h1
          · rename_i free; cases h1; exact fresh _ _ free
          · cases h1
      case close fd =>
        cases h1
        obtain ⟨h', b, f, -⟩ := i.held u _ hu
        rw [form_on f] at f
        have := o u _ fd b hu f
        simp only [update_get]
        split
        · rename_i e; rw [e, this] at ht; cases ht
        · exact ht
    · cases hs

theorem stays_run {s s' : Proc} {es e : List Closed} (i : FdInv s es) (o : Owned s) {as : List Act}
    (hq : Quiet s as) (hs : s.run as = some (s', e)) {t n : Nat}
    (ht : s.table n = some (.conn t)) (hn : .closes n ∉ as) : s'.table n = some (.conn t) := by
  induction as generalizing s es e with
  | nil => cases hs; exact ht
  | cons a as ih =>
    obtain ⟨s1, e1, e2, h1, h2, rfl⟩ := run_cons hs
    exact ih (i.step h1) (quiet_step i o hq.1 h1).1 (hq.2 _ _ h1) h2
      (stays_step i o hq.1 h1 ht fun e => hn (e ▸ List.mem_cons_self)) fun m => hn (List.mem_cons_of_mem _ m)

/-- a new connection or listener is open -/
theorem created {s s' : Proc} {e : List Closed} {t n : Nat} (hc : Creates s t)
    (hs : s.step (.answer t (.ok n)) = some (s', e)) : s'.table n = some (.conn t) := by
  obtain ⟨fd, k, h | h⟩ := hc <;>
  · simp only [Proc.step, h, Proc.effect, Option.bind_eq_bind, Option.bind_eq_some_iff, Option.pure_def,
      Option.some.injEq, Prod.mk.injEq, Prod.exists] at hs
    obtain ⟨s1, e2, h1, rfl, rfl⟩ := hs
    split at h1
    · cases h1; simp only [update_get, if_true]
    · cases h1

/-- **C102**, what holds of it: as long as every finalizer that runs finds its number not in use, a
connection or listener stays open from its creation on until somebody closes it. -/
theorem C102_partial (lib : Lib) (s0 s1 s2 s3 : Proc) (as bs : List Act) (e1 e2 e3 : List Closed) (t n : Nat)
    (h : Initial lib s0) (h1 : s0.run as = some (s1, e1)) (hc : Creates s1 t)
    (h2 : s1.step (.answer t (.ok n)) = some (s2, e2)) (h3 : s2.run bs = some (s3, e3)) (hn : .closes n ∉ bs)
    (hq : Quiet s0 as) (hq' : Quiet s2 bs) : s3.table n = some (.conn t) := by
  have i1 := (FdInv.init h).run h1
  obtain ⟨o1, -⟩ := quiet_run (FdInv.init h) (Owned.init h) hq h1
  have o2 := (quiet_step i1 o1 (by rintro i fd ⟨⟩) h2).1
  exact stays_run (i1.step h2) o2 hq' h3 (created hc h2) hn

/-- **C102**: whatever finalizers do, a connection or listener is closed by nothing but its owner, a
finalizer of a file with its number, and the deferred `unix.Close` of a call with its number. -/
theorem C102_closers (s s' : Proc) (e : List Closed) (a : Act) (t n : Nat) (hs : s.step a = some (s', e))
    (ht : s.table n = some (.conn t)) (hn : s'.table n ≠ some (.conn t)) :
    a = .closes n ∨ (∃ i, a = .finalize i ∧ s.files[i]? = some n) ∨
      ∃ u x k, a = .answer u x ∧ s.progs[u]? = some (.call (.close n) k) := by
  have other : ∀ fd w, update s.table fd w n ≠ some (.conn t) → n = fd := by
    intro fd w h
    simp only [update_get] at h
    split at h
    · assumption
    · exact absurd ht h
  have fresh : ∀ fd w, s.table fd = none → update s.table fd w n = some (.conn t) := by
    intro fd w free
    simp only [update_get]
    split
    · rename_i e; rw [e, free] at ht; cases ht
    · exact ht
  cases a with
  | opens fd =>
    simp only [Proc.step] at hs
    split at hs
    · rename_i free; cases hs; exact absurd (fresh _ _ free) hn
    · cases hs
  | closes fd =>
    simp only [Proc.step] at hs
    split at hs
    · cases hs; exact .inl (by rw [other _ _ hn])
    · cases hs; exact .inl (by rw [other _ _ hn])
    · cases hs
  | finalize j =>
    simp only [Proc.step] at hs
    split at hs
    · rename_i fd hfd
      cases hs
      exact .inr (.inl ⟨j, rfl, by rw [other _ _ hn]; exact hfd⟩)
    · cases hs
  | answer u a =>
    simp only [Proc.step] at hs
    split at hs
    · rename_i c k hu
      simp only [Option.bind_eq_bind, Option.bind_eq_some_iff, Option.pure_def,
        Option.some.injEq, Prod.mk.injEq, Prod.exists] at hs
      obtain ⟨s1, e2, h1, rfl, rfl⟩ := hs
      cases c <;> simp only [Proc.effect] at h1
      case socket =>
        split at h1
        · cases h1; exact absurd ht hn
        · split at h1
          · rename_i free; cases h1; exact absurd (fresh _ _ free) hn
          · cases h1
      case connect => cases h1; exact absurd ht hn
      case bind => cases h1; exact absurd ht hn
      case listen => cases h1; exact absurd ht hn
      case newFile => cases h1; exact absurd ht hn
      case fileConn =>
        split at h1
        · cases h1; exact absurd ht hn
        · split at h1
          · rename_i free; cases h1; exact absurd (fresh _ _ free) hn
          · cases h1
      case fileListener =>
        split at h1
        · cases h1; exact absurd ht hn
        · split at h1
          · rename_i free; cases h1; exact absurd (fresh _ _ free) hn
          · cases h1
      case close fd =>
        cases h1
        obtain rfl := other _ _ hn
        exact .inr (.inr ⟨u, a, k, rfl, hu⟩)
    · cases hs

/-- a connection that is created while the finalizer of the first call finds its number not in use -/
example : ∃ s1 s2 s3 e1 e2 e3, twoDials.run (success ++ [.answer 1 (.ok 5), .answer 1 (.ok 0), .answer 1 (.ok 0)]) = some (s1, e1) ∧
    Creates s1 1 ∧ s1.step (.answer 1 (.ok 6)) = some (s2, e2) ∧ s2.run [.answer 1 (.ok 0), .finalize 0, .opens 3] = some (s3, e3) ∧
    s2.table 3 = none ∧ s2.files[0]? = some 3 ∧ s3.table 6 = some (.conn 1) := by
  rw [twoDials_eq]
  exact ⟨_, _, _, _, _, _, rfl, ⟨5, _, .inl rfl⟩, rfl, rfl, rfl, rfl, rfl⟩

/-- The first call has returned, with file and finalizer left. Somebody else gets the number of its
socket, and gives it back when the second call is about to create its connection. -/
def earlier : List Act :=
  success ++ [.opens 3, .answer 1 (.ok 5), .answer 1 (.ok 0), .answer 1 (.ok 0), .closes 3]

/-- **C102** is false: the finalizer closes the connection of the second call, after it has been
returned. -/
theorem C102_false : ¬ StaysOpen := by
  intro h
  have e : ∃ s1 s2 s3 e1 e2 e3, twoDials.run earlier = some (s1, e1) ∧ Creates s1 1 ∧
      s1.step (.answer 1 (.ok 3)) = some (s2, e2) ∧ s2.run [.answer 1 (.ok 0), .finalize 0] = some (s3, e3) ∧
      s3.progs[1]? = some (.ret (.conn 3)) ∧ s3.table 3 = none := by
    rw [twoDials_eq]
    exact ⟨_, _, _, _, _, _, rfl, ⟨5, _, .inl rfl⟩, rfl, rfl, rfl, rfl⟩
  obtain ⟨s1, s2, s3, e1, e2, e3, h1, hc, h2, h3, -, ht⟩ := e
  have := h exampleLib twoDials s1 s2 s3 earlier _ e1 e2 e3 1 3 twoDials_initial h1 hc h2 h3 (by simp)
  rw [ht] at this
  cases this

end SMC.Props
