import Verif.Spec.SocketExact
import Verif.Props.SocketOwn
/-!
# C101, C102, exactly
-/

namespace SMC.Props

open SMC SMC.Socket

/-- Sockets belong to calls. -/
def Inside (s : Proc) : Prop := ∀ (fd t : Nat), s.table fd = some (.sock t) → t < s.progs.length

theorem Inside.init {lib : Lib} {s : Proc} (h : Initial lib s) : Inside s := by
  intro fd t ht
  rcases h.2.1 fd with e | e <;> rw [e] at ht <;> cases ht

theorem Inside.step {s s' : Proc} {e : List Closed} {a : Act} (i : Inside s) (hs : s.step a = some (s', e)) : Inside s' := by
  have upd : ∀ fd (w : Option Owner), (∀ t, w ≠ some (.sock t)) →
      ∀ x t, update s.table fd w x = some (.sock t) → t < s.progs.length := by
    intro fd w hw x t h
    simp only [update_get] at h
    split at h
    · exact absurd h (hw t)
    · exact i x t h
  cases a with
  | opens fd =>
    simp only [Proc.step] at hs
    split at hs
    · cases hs; exact upd _ _ (by rintro t ⟨⟩)
    · cases hs
  | closes fd =>
    simp only [Proc.step] at hs
    split at hs
    · cases hs; exact upd _ _ (by rintro t ⟨⟩)
    · cases hs; exact upd _ _ (by rintro t ⟨⟩)
    · cases hs
  | finalize j =>
    simp only [Proc.step] at hs
    split at hs
    · cases hs; exact upd _ _ (by rintro t ⟨⟩)
    · cases hs
  | answer u a =>
    simp only [Proc.step] at hs
    split at hs
    · rename_i c k hu
      have hlt : u < s.progs.length := (List.getElem?_eq_some_iff.1 hu).1
      simp only [Option.bind_eq_bind, Option.bind_eq_some_iff, Option.pure_def,
        Option.some.injEq, Prod.mk.injEq, Prod.exists] at hs
      obtain ⟨s1, e2, h1, rfl, rfl⟩ := hs
      have fin : ∀ s1 : Proc, s1.progs = s.progs → (∀ x t, s1.table x = some (.sock t) → t < s.progs.length) →
          Inside { s1 with progs := s1.progs.set u (k a) } := by
        intro s1 hp ht x t hx
        simp only [List.length_set, hp]
        exact ht x t hx
      cases c <;> simp only [Proc.effect] at h1
      case socket =>
        split at h1
        · cases h1; exact fin _ rfl i
        · split at h1
          · cases h1
            refine fin _ rfl ?_
            intro x t hx
            simp only [update_get] at hx
            split at hx
            · cases hx; exact hlt
            · exact i x t hx
          · cases h1
      case connect => cases h1; exact fin _ rfl i
      case bind => cases h1; exact fin _ rfl i
      case listen => cases h1; exact fin _ rfl i
      case newFile => cases h1; exact fin _ rfl i
      case fileConn =>
        split at h1
        · cases h1; exact fin _ rfl i
        · split at h1
          · cases h1; exact fin _ rfl (upd _ _ (by rintro t ⟨⟩))
          · cases h1
      case fileListener =>
        split at h1
        · cases h1; exact fin _ rfl i
        · split at h1
          · cases h1; exact fin _ rfl (upd _ _ (by rintro t ⟨⟩))
          · cases h1
      case close fd => cases h1; exact fin _ rfl (upd _ _ (by rintro t ⟨⟩))
    · cases hs

theorem own_owned {s : Proc} {es : List Closed} (i : FdInv s es) : OwnNow s ↔ Owned s := by
  constructor
  · intro o t p fd b ht f
    have : ∃ c k, p = .call c k ∧ c.on = some fd := by cases f <;> exact ⟨_, _, rfl, rfl⟩
    obtain ⟨c, k, rfl, hc⟩ := this
    exact o t c k fd ht hc
  · intro o t c k fd ht hc
    obtain ⟨h', b, f, -⟩ := i.held t _ ht
    rw [form_on f, hc] at f
    exact o t _ fd b ht f

theorem finalize_step {s s' : Proc} {e : List Closed} {i : Nat} (hs : s.step (.finalize i) = some (s', e)) :
    ∃ fd, s.files[i]? = some fd ∧ s'.progs = s.progs ∧ s'.table = update s.table fd none := by
  simp only [Proc.step] at hs
  split at hs
  · rename_i fd hfd
    cases hs
    exact ⟨fd, hfd, rfl, rfl⟩
  · cases hs

theorem spares_step {s s' : Proc} {es e : List Closed} (i : FdInv s es) (o : Owned s) {a : Act}
    (hq : ∀ i fd t, a = .finalize i → s.files[i]? = some fd → s.table fd ≠ some (.sock t)) (hs : s.step a = some (s', e)) :
    Owned s' := by
  by_cases hn : ∃ n, a = .finalize n
  · obtain ⟨n, rfl⟩ := hn
    obtain ⟨fd, h1, h2, h3⟩ := finalize_step hs
    intro t p x b ht f
    rw [h2] at ht
    have hx := o t p x b ht f
    rw [h3, update_get]
    split
    · rename_i e
      rw [e] at hx
      exact absurd hx (hq n fd t rfl h1)
    · exact hx
  · exact (o.step i (fun n e => hn ⟨n, e⟩) hs).1

theorem spares_iff {s s' : Proc} {es e : List Closed} (i : FdInv s es) (n : Inside s) (o : Owned s) {as : List Act}
    (hs : s.run as = some (s', e)) :
    (∀ bs, bs <+: as → ∀ s1 e1, s.run bs = some (s1, e1) → OwnNow s1) ↔ SparesSockets s as := by
  induction as generalizing s es e with
  | nil =>
    refine ⟨fun _ => trivial, fun _ bs hb s1 e1 h1 => ?_⟩
    obtain rfl := List.prefix_nil.1 hb
    cases h1
    exact (own_owned i).2 o
  | cons a as ih =>
    obtain ⟨s1, e1, e2, h1, h2, rfl⟩ := run_cons hs
    have next : ∀ bs s2 e2, s.run (a :: bs) = some (s2, e2) → ∃ e3, s1.run bs = some (s2, e3) := by
      intro bs s2 e2 h
      obtain ⟨s3, e3, e4, g1, g2, -⟩ := run_cons h
      rw [h1] at g1
      cases g1
      exact ⟨_, g2⟩
    have prev : ∀ bs s2 e3, s1.run bs = some (s2, e3) → s.run (a :: bs) = some (s2, e1 ++ e3) := by
      intro bs s2 e3 h
      simp [Proc.run, h1, h]
    constructor
    · intro h
      have hnow : OwnNow s1 := h [a] (by simp) s1 (e1 ++ []) (prev [] s1 [] rfl)
      have i1 := i.step h1
      refine ⟨?_, fun s'' es'' hs'' => ?_⟩
      · rintro j fd t rfl hj ht
        obtain ⟨fd', g1, g2, g3⟩ := finalize_step h1
        rw [hj] at g1
        cases g1
        have hlt := n fd t ht
        obtain ⟨h', b, f, a1, -⟩ := i.held t _ (List.getElem?_eq_getElem hlt)
        obtain rfl := a1 fd ht
        have hc : ∃ c k, s.progs[t] = .call c k ∧ c.on = some fd := by
          generalize s.progs[t] = p at f
          cases f <;> exact ⟨_, _, rfl, rfl⟩
        obtain ⟨c, k, hc, hon⟩ := hc
        have := hnow t c k fd (by rw [g2, List.getElem?_eq_getElem hlt, hc]) hon
        rw [g3, update_get, if_pos rfl] at this
        cases this
      · rw [h1] at hs''
        cases hs''
        refine (ih i1 (n.step h1) ((own_owned i1).1 hnow) h2).1 fun bs hb s2 e3 h3 => ?_
        exact h (a :: bs) (List.cons_prefix_cons.2 ⟨rfl, hb⟩) s2 _ (prev bs s2 e3 h3)
    · intro h bs hb s2 e3 h3
      cases bs with
      | nil => cases h3; exact (own_owned i).2 o
      | cons b bs =>
        obtain ⟨rfl, hb'⟩ := List.cons_prefix_cons.1 hb
        obtain ⟨e4, h4⟩ := next bs s2 e3 h3
        exact (ih (i.step h1) (n.step h1) (spares_step i o h.1 h1) h2).2 (h.2 _ _ h1) bs hb' s2 e4 h4

/-- **C101**, exactly: `Dial` and `Listen` work on nothing but their own sockets all the time if and only if no finalizer that
runs finds the socket a call works on under its number. -/
theorem C101_exact (lib : Lib) (s0 s : Proc) (as : List Act) (es : List Closed) (h : Initial lib s0)
    (hs : s0.run as = some (s, es)) :
    (∀ bs, bs <+: as → ∀ s1 e1, s0.run bs = some (s1, e1) → OwnNow s1) ↔ SparesSockets s0 as :=
  spares_iff (FdInv.init h) (Inside.init h) (Owned.init h) hs

/-- a run with a finalizer that closes what somebody else opened (so it is not quiet), while the second call goes on with its own
socket; and the execution of `C101_false` -/
example : ¬ Quiet twoDials (success ++ [.opens 3, .finalize 0, .answer 1 (.ok 3)]) ∧
    SparesSockets twoDials (success ++ [.opens 3, .finalize 0, .answer 1 (.ok 3)]) ∧ ¬ SparesSockets twoDials mixedUp ∧
    ∃ s es k, twoDials.run (success ++ [.opens 3, .finalize 0, .answer 1 (.ok 3)]) = some (s, es) ∧
      s.progs[1]? = some (.call (.connect 3 (.inet4 80 [127, 0, 0, 1])) k) ∧ s.table 3 = some (.sock 1) := by
  rw [twoDials_eq]
  refine ⟨fun h => ?_, ?_, fun h => ?_, _, _, _, rfl, rfl, rfl⟩
  · have := (h.2 _ _ rfl |>.2 _ _ rfl |>.2 _ _ rfl |>.2 _ _ rfl |>.2 _ _ rfl |>.2 _ _ rfl).1 0 3 rfl rfl
    cases this
  · simp only [success, List.cons_append, List.nil_append, SparesSockets, and_true, forall_const, implies_true]
    iterate 6 (refine ⟨by rintro i fd t ⟨⟩, fun _ _ h => ?_⟩; cases h)
    refine ⟨?_, fun _ _ h => ?_⟩
    · rintro i fd t ⟨⟩ h c
      cases h
      cases c
    · rintro i fd t ⟨⟩
  · exact (h.2 _ _ rfl |>.2 _ _ rfl |>.2 _ _ rfl |>.2 _ _ rfl |>.2 _ _ rfl |>.2 _ _ rfl).1 0 3 1 rfl rfl rfl

/-- a step of the package that closes a number leaves it unused -/
theorem closed_gone {s s' : Proc} {e : List Closed} {a : Act} {n : Nat} (hs : s.step a = some (s', e))
    (hc : ClosesNumber s n a) : s'.table n = none := by
  rcases hc with ⟨i, rfl, hi⟩ | ⟨u, x, k, rfl, hu⟩
  · obtain ⟨fd, h1, h2, h3⟩ := finalize_step hs
    rw [hi] at h1
    cases h1
    rw [h3, update_get, if_pos rfl]
  · simp only [Proc.step, hu, Proc.effect, Option.bind_eq_bind, Option.bind_eq_some_iff, Option.pure_def,
      Option.some.injEq, Prod.mk.injEq, Prod.exists] at hs
    obtain ⟨s1, e2, ⟨rfl, rfl⟩, rfl, rfl⟩ := hs
    simp only [update_get, if_true]

/-- **C102**, exactly: a connection or listener stays open all the time as long as its owner does not close it, if and only if
neither a finalizer of a file with its number runs nor a call closes a descriptor with its number. -/
theorem C102_exact (s s' : Proc) (bs : List Act) (e : List Closed) (t n : Nat) (ht : s.table n = some (.conn t))
    (hs : s.run bs = some (s', e)) (hn : .closes n ∉ bs) :
    (∀ cs, cs <+: bs → ∀ s1 e1, s.run cs = some (s1, e1) → s1.table n = some (.conn t)) ↔ Leaves n s bs := by
  induction bs generalizing s e with
  | nil =>
    refine ⟨fun _ => trivial, fun _ cs hc s1 e1 h1 => ?_⟩
    obtain rfl := List.prefix_nil.1 hc
    cases h1
    exact ht
  | cons a as ih =>
    obtain ⟨s1, e1, e2, h1, h2, rfl⟩ := run_cons hs
    have hna : a ≠ .closes n := fun c => hn (c ▸ List.mem_cons_self)
    have hnas : .closes n ∉ as := fun m => hn (List.mem_cons_of_mem _ m)
    have prev : ∀ bs s2 e3, s1.run bs = some (s2, e3) → s.run (a :: bs) = some (s2, e1 ++ e3) := by
      intro bs s2 e3 h
      simp [Proc.run, h1, h]
    constructor
    · intro h
      have hnow : s1.table n = some (.conn t) := h [a] (by simp) s1 (e1 ++ []) (prev [] s1 [] rfl)
      refine ⟨fun hc => ?_, fun s'' es'' hs'' => ?_⟩
      · rw [closed_gone h1 hc] at hnow
        cases hnow
      · rw [h1] at hs''
        cases hs''
        exact (ih s1 _ hnow h2 hnas).1 fun cs hc s2 e3 h3 =>
          h (a :: cs) (List.cons_prefix_cons.2 ⟨rfl, hc⟩) s2 _ (prev cs s2 e3 h3)
    · intro h cs hc s2 e3 h3
      cases cs with
      | nil => cases h3; exact ht
      | cons b cs =>
        obtain ⟨rfl, hc'⟩ := List.cons_prefix_cons.1 hc
        obtain ⟨s3, e4, e5, g1, g2, -⟩ := run_cons h3
        rw [h1] at g1
        cases g1
        have hnow : s1.table n = some (.conn t) := by
          refine Classical.byContradiction fun hx => ?_
          rcases C102_closers s s1 _ b t n h1 ht hx with c | c | c
          · exact hna c
          · exact h.1 (.inl c)
          · exact h.1 (.inr c)
        exact (ih s1 _ hnow h2 hnas).2 (h.2 _ _ h1) cs hc' s2 e5 g2

theorem leaves_iff {s s' : Proc} {es e : List Closed} (i : FdInv s es) (o : Owned s) {bs : List Act} {t n : Nat}
    (ht : s.table n = some (.conn t)) (hs : s.run bs = some (s', e)) (hn : .closes n ∉ bs) (hq : SparesSockets s bs) :
    Leaves n s bs ↔ NoFinalizer n s bs := by
  induction bs generalizing s es e with
  | nil => exact Iff.rfl
  | cons a as ih =>
    obtain ⟨s1, e1, e2, h1, h2, rfl⟩ := run_cons hs
    have nocall : ∀ u x k, a = .answer u x → s.progs[u]? ≠ some (.call (.close n) k) := by
      rintro u x k rfl hu
      have := (own_owned i).2 o u _ k n hu rfl
      rw [ht] at this
      cases this
    have hiff : ¬ ClosesNumber s n a ↔ ∀ i, a = .finalize i → s.files[i]? ≠ some n := by
      constructor
      · exact fun h i ha hf => h (.inl ⟨i, ha, hf⟩)
      · rintro h (⟨i, ha, hf⟩ | ⟨u, x, k, ha, hu⟩)
        · exact h i ha hf
        · exact nocall u x k ha hu
    simp only [Leaves, NoFinalizer, hiff]
    refine and_congr_right fun hfin => ?_
    have hnow : s1.table n = some (.conn t) := by
      refine Classical.byContradiction fun hx => ?_
      rcases C102_closers s s1 _ a t n h1 ht hx with c | ⟨j, c1, c2⟩ | ⟨u, x, k, c1, c2⟩
      · exact hn (c ▸ List.mem_cons_self)
      · exact hfin j c1 c2
      · exact nocall u x k c1 c2
    have := ih (i.step h1) (spares_step i o hq.1 h1) hnow h2 (fun m => hn (List.mem_cons_of_mem _ m)) (hq.2 _ _ h1)
    constructor
    · intro h s'' es'' hs''
      have := this.1 (h _ _ h1)
      rw [h1] at hs''
      cases hs''
      exact this
    · intro h s'' es'' hs''
      have := this.2 (h _ _ h1)
      rw [h1] at hs''
      cases hs''
      exact this

/-- **C102**, exactly, for connections that `Dial` and `Listen` create while finalizers spare the sockets of calls: they stay
open until their owner closes them if and only if no finalizer of a file with their number runs. -/
theorem C102_finalizers (lib : Lib) (s0 s1 s2 s3 : Proc) (as bs : List Act) (e1 e2 e3 : List Closed) (t n : Nat)
    (h : Initial lib s0) (h1 : s0.run as = some (s1, e1)) (hc : Creates s1 t)
    (h2 : s1.step (.answer t (.ok n)) = some (s2, e2)) (h3 : s2.run bs = some (s3, e3)) (hn : .closes n ∉ bs)
    (hq : SparesSockets s0 as) (hq' : SparesSockets s2 bs) :
    (∀ cs, cs <+: bs → ∀ s e, s2.run cs = some (s, e) → s.table n = some (.conn t)) ↔ NoFinalizer n s2 bs := by
  have i1 := (FdInv.init h).run h1
  have o1 : Owned s1 :=
    (own_owned i1).1 ((C101_exact lib s0 s1 as e1 h h1).2 hq as (List.prefix_refl _) s1 e1 h1)
  have o2 := spares_step i1 o1 (by rintro i fd t ⟨⟩) h2
  have ht := created hc h2
  rw [C102_exact s2 s3 bs e3 t n ht h3 hn]
  exact leaves_iff (i1.step h2) o2 ht h3 hn hq'

/-- the execution of `C102_false`: no finalizer meets the socket of a call, and the one that runs has the number of the
connection -/
example : SparesSockets twoDials earlier ∧ ∃ s1 s2 s3 e1 e2 e3, twoDials.run earlier = some (s1, e1) ∧ Creates s1 1 ∧
    s1.step (.answer 1 (.ok 3)) = some (s2, e2) ∧ s2.run [.answer 1 (.ok 0), .finalize 0] = some (s3, e3) ∧
    SparesSockets s2 [.answer 1 (.ok 0), .finalize 0] ∧ ¬ NoFinalizer 3 s2 [.answer 1 (.ok 0), .finalize 0] ∧
    NoFinalizer 3 s2 [.answer 1 (.ok 0)] := by
  rw [twoDials_eq]
  refine ⟨?_, _, _, _, _, _, _, rfl, ⟨5, _, .inl rfl⟩, rfl, rfl, ?_, fun h => ?_, ?_, fun _ _ _ => trivial⟩
  · simp only [earlier, success, List.cons_append, List.nil_append, SparesSockets]
    iterate 10 (refine ⟨by rintro i fd t ⟨⟩, fun _ _ h => ?_⟩; cases h)
    trivial
  · refine ⟨by rintro i fd t ⟨⟩, fun _ _ h => ?_⟩
    cases h
    refine ⟨?_, fun _ _ _ => trivial⟩
    rintro i fd t ⟨⟩ h c
    cases h
    cases c
  · exact (h.2 _ _ rfl).1 0 rfl rfl
  · rintro i ⟨⟩

end SMC.Props
