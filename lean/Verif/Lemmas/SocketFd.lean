import Verif.Lemmas.Socket
/-!
# Descriptors
-/

namespace SMC.Socket

/-- The programs of goroutines: which descriptor is their socket, whether they have got a
connection. -/
inductive Form : Prog → Option Nat → Bool → Prop where
  | badIP : Form (.ret .badIP) none false
  | error (e : Nat) : Form (.ret (.error e)) none false
  | fatal : Form .fatal none false
  | panic : Form .panic none false
  | conn (n : Nat) : Form (.ret (.conn n)) none true
  | socket {p : Nat} {k : Answer → Prog} (he : ∀ e, Form (k (.error e)) none false)
      (hk : ∀ fd, Form (k (.ok fd)) (some fd) false) : Form (.call (.socket p) k) none false
  | connect {fd : Nat} {sa : Sockaddr} {k : Answer → Prog} (hk : ∀ a, Form (k a) (some fd) false) :
      Form (.call (.connect fd sa) k) (some fd) false
  | bind {fd : Nat} {sa : Sockaddr} {k : Answer → Prog} (hk : ∀ a, Form (k a) (some fd) false) :
      Form (.call (.bind fd sa) k) (some fd) false
  | listen {fd n : Nat} {k : Answer → Prog} (hk : ∀ a, Form (k a) (some fd) false) :
      Form (.call (.listen fd n) k) (some fd) false
  | newFile {fd : Nat} {k : Answer → Prog} (hk : ∀ a, Form (k a) (some fd) false) :
      Form (.call (.newFile fd) k) (some fd) false
  | fileConn {fd : Nat} {k : Answer → Prog} (he : ∀ e, Form (k (.error e)) (some fd) false)
      (hk : ∀ n, Form (k (.ok n)) (some fd) true) : Form (.call (.fileConn fd) k) (some fd) false
  | fileListener {fd : Nat} {k : Answer → Prog} (he : ∀ e, Form (k (.error e)) (some fd) false)
      (hk : ∀ n, Form (k (.ok n)) (some fd) true) :
      Form (.call (.fileListener fd) k) (some fd) false
  | close {fd : Nat} {k : Answer → Prog} {b : Bool} (hk : ∀ a, Form (k a) none b) :
      Form (.call (.close fd) k) (some fd) b

theorem form_closing_error (fd e : Nat) : Form (closing fd (.error e)) (some fd) false :=
  .close fun _ => .error e

theorem form_closing_conn (fd n : Nat) : Form (closing fd (.conn n)) (some fd) true :=
  .close fun _ => .conn n

theorem form_dialFile (fd : Nat) : Form (dialFile fd) (some fd) false :=
  .newFile fun _ => .fileConn (fun e => form_closing_error fd e) (fun n => form_closing_conn fd n)

theorem form_dialSocket (sa : Sockaddr) : Form (dialSocket sa) none false := by
  refine .socket (fun e => .error e) (fun fd => .connect ?_)
  intro a
  cases a with
  | error e => exact form_closing_error fd e
  | ok n => exact form_dialFile fd

theorem form_listenFile (fd : Nat) : Form (listenFile fd) (some fd) false :=
  .newFile fun _ => .fileListener (fun e => form_closing_error fd e) (fun n => form_closing_conn fd n)

theorem form_listenSocket (sa : Sockaddr) : Form (listenSocket sa) none false := by
  refine .socket (fun e => .error e) (fun fd => .bind ?_)
  intro a
  cases a with
  | error e => exact form_closing_error fd e
  | ok n =>
    refine .listen ?_
    intro a
    cases a with
    | error e => exact form_closing_error fd e
    | ok n => exact form_listenFile fd

theorem form_withSockaddr {k : Sockaddr → Prog} (h : ∀ sa, Form (k sa) none false)
    (r : Res (Option Sockaddr)) : Form (withSockaddr k r) none false := by
  rcases r with (_ | sa) | _ | _
  · exact .badIP
  · exact h sa
  · exact .fatal
  · exact .panic

theorem form_dial (lib : Lib) (a : Bytes) : Form (dial lib a) none false :=
  form_withSockaddr form_dialSocket _

theorem form_listen (lib : Lib) (a : Bytes) : Form (listen lib a) none false :=
  form_withSockaddr form_listenSocket _

/-- What holds of every goroutine. -/
def Held (s : Proc) (t : Nat) (p : Prog) : Prop :=
  ∃ h b, Form p h b ∧ (∀ fd, s.table fd = some (.sock t) → h = some fd) ∧
    (b = false → ∀ fd, s.table fd ≠ some (.conn t))

/-- The invariant. -/
structure FdInv (s : Proc) (es : List Closed) : Prop where
  held : ∀ (t : Nat) p, s.progs[t]? = some p → Held s t p
  files : ∀ fd ∈ s.files, (∃ c ∈ es, c.fd = fd) ∨
    ∃ t : Nat, ∃ p b, s.progs[t]? = some p ∧ Form p (some fd) b

theorem update_get (f : Nat → Option Owner) (fd : Nat) (o : Option Owner) (x : Nat) :
    update f fd o x = if x = fd then o else f x := rfl

theorem Held.change {s s' : Proc} {t : Nat} {p : Prog} (h : Held s t p)
    (h1 : ∀ fd, s'.table fd = some (.sock t) → s.table fd = some (.sock t))
    (h2 : ∀ fd, s'.table fd = some (.conn t) → s.table fd = some (.conn t)) : Held s' t p := by
  obtain ⟨h, b, f, a1, a2⟩ := h
  exact ⟨h, b, f, fun fd e => a1 fd (h1 fd e), fun e fd c => a2 e fd (h2 fd c)⟩

theorem form_det {p : Prog} {h h' : Option Nat} {b b' : Bool} (f : Form p h b) (f' : Form p h' b') :
    h = h' := by
  cases f <;> cases f' <;> rfl

theorem form_conn {p : Prog} {h h' : Option Nat} {b b' : Bool} (f : Form p h b) (f' : Form p h' b') :
    b = b' := by
  induction f generalizing h' b' with
  | close hk ih =>
    cases f' with
    | close hk' => exact ih (.ok 0) (hk' (.ok 0))
  | _ => cases f' <;> rfl

theorem progs_set {l : List Prog} {t : Nat} {p : Prog} (h : l[t]? = some p) (q : Prog) (u : Nat) :
    (l.set t q)[u]? = if t = u then some q else l[u]? := by
  have : t < l.length := by
    rcases Nat.lt_or_ge t l.length with c | c
    · exact c
    · rw [List.getElem?_eq_none c] at h; cases h
  rw [List.getElem?_set]
  split
  · rename_i e
    subst e
    simp
  · rfl

/-- One goroutine goes on; the others and the files keep their properties. -/
theorem FdInv.goOn {s s1 : Proc} {es e1 : List Closed} (i : FdInv s es) {t : Nat} {p q : Prog}
    (ht : s.progs[t]? = some p) (hp : s1.progs = s.progs)
    (h1 : ∀ u, u ≠ t → ∀ fd, s1.table fd = some (.sock u) → s.table fd = some (.sock u))
    (h2 : ∀ u, u ≠ t → ∀ fd, s1.table fd = some (.conn u) → s.table fd = some (.conn u))
    (hq : Held { s1 with progs := s1.progs.set t q } t q)
    (hf : ∀ fd ∈ s1.files, (∃ c ∈ es ++ e1, c.fd = fd) ∨ (∃ b, Form q (some fd) b) ∨
      (fd ∈ s.files ∧ ∀ b, ¬ Form p (some fd) b)) :
    FdInv { s1 with progs := s1.progs.set t q } (es ++ e1) := by
  constructor
  · intro u r hu
    simp only [hp] at hu
    rw [progs_set ht] at hu
    split at hu
    · rename_i e
      subst e
      cases hu
      exact hq
    · rename_i e
      exact (i.held u r hu).change (h1 u (Ne.symm e)) (h2 u (Ne.symm e))
  · intro fd m
    rcases hf fd m with h | ⟨b, f⟩ | ⟨m, n⟩
    · exact Or.inl h
    · refine Or.inr ⟨t, q, b, ?_, f⟩
      simp only [hp]
      rw [progs_set ht, if_pos rfl]
    · rcases i.files fd m with ⟨c, hc, e⟩ | ⟨u, r, b, hu, f⟩
      · exact Or.inl ⟨c, by simp [hc], e⟩
      · by_cases e : t = u
        · subst e
          rw [ht] at hu
          cases hu
          exact absurd f (n b)
        · refine Or.inr ⟨u, r, b, ?_, f⟩
          simp only [hp]
          rw [progs_set ht, if_neg e]
          exact hu

/-- A step that changes neither table nor files and keeps the socket. -/
theorem FdInv.plain {s : Proc} {es : List Closed} (i : FdInv s es) {t : Nat} {p q : Prog}
    {h : Option Nat} {b : Bool} (ht : s.progs[t]? = some p) (fp : Form p h b) (fq : Form q h b) :
    FdInv { s with progs := s.progs.set t q } (es ++ []) := by
  obtain ⟨h', b', f', a1, a2⟩ := i.held t p ht
  refine i.goOn ht rfl (fun _ _ _ e => e) (fun _ _ _ e => e) ?_ ?_
  · refine ⟨h, b, fq, fun fd e => ?_, fun e => ?_⟩
    · rw [form_det fp f']
      exact a1 fd e
    · apply a2
      rw [← form_conn fp f']
      exact e
  · intro fd m
    by_cases e : h = some fd
    · subst e
      exact Or.inr (Or.inl ⟨b, fq⟩)
    · refine Or.inr (Or.inr ⟨m, fun b' f => e (form_det fp f)⟩)

/-- A connection was created. -/
theorem FdInv.gotConn {s : Proc} {es : List Closed} (i : FdInv s es) {t fd n : Nat} {p q : Prog}
    (ht : s.progs[t]? = some p) (fp : Form p (some fd) false) (fq : Form q (some fd) true) :
    FdInv ⟨s.progs.set t q, update s.table n (some (.conn t)), s.files⟩ (es ++ []) := by
  obtain ⟨h', b', f', a1, a2⟩ := i.held t p ht
  refine i.goOn (s1 := ⟨s.progs, update s.table n (some (.conn t)), s.files⟩) ht rfl ?_ ?_
    ⟨some fd, true, fq, ?_, by simp⟩ ?_
  · intro u hu x e
    simp only [update_get] at e
    split at e
    · cases e
    · exact e
  · intro u hu x e
    simp only [update_get] at e
    split at e
    · cases e; exact absurd rfl hu
    · exact e
  · intro x e
    simp only [update_get] at e
    split at e
    · cases e
    · rw [form_det fp f']
      exact a1 x e
  · intro x m
    by_cases e : x = fd
    · subst e
      exact Or.inr (Or.inl ⟨true, fq⟩)
    · refine Or.inr (Or.inr ⟨m, fun b f => e ?_⟩)
      have := form_det fp f
      cases this
      rfl

theorem FdInv.step {s s' : Proc} {es e1 : List Closed} (i : FdInv s es) {a : Act}
    (hs : s.step a = some (s', e1)) : FdInv s' (es ++ e1) := by
  cases a with
  | opens fd =>
    simp only [Proc.step] at hs
    split at hs
    · rename_i hfree
      cases hs
      refine ⟨fun t p ht => (i.held t p ht).change ?_ ?_, fun f m => ?_⟩
      · intro x e
        simp only [update_get] at e
        split at e
        · cases e
        · exact e
      · intro x e
        simp only [update_get] at e
        split at e
        · cases e
        · exact e
      · rw [List.append_nil]
        exact i.files f m
    · cases hs
  | closes fd =>
    simp only [Proc.step] at hs
    have key : FdInv { s with table := update s.table fd none } (es ++ []) := by
      refine ⟨fun t p ht => (i.held t p ht).change ?_ ?_, fun f m => ?_⟩
      · intro x e
        simp only [update_get] at e
        split at e
        · cases e
        · exact e
      · intro x e
        simp only [update_get] at e
        split at e
        · cases e
        · exact e
      · rw [List.append_nil]
        exact i.files f m
    split at hs
    · cases hs
      exact key
    · cases hs
      exact key
    · cases hs
  | finalize n =>
    simp only [Proc.step] at hs
    split at hs
    · rename_i fd hfd
      cases hs
      refine ⟨fun t p ht => (i.held t p ht).change ?_ ?_, fun f m => ?_⟩
      · intro x e
        simp only [update_get] at e
        split at e
        · cases e
        · exact e
      · intro x e
        simp only [update_get] at e
        split at e
        · cases e
        · exact e
      · rcases i.files f (List.mem_of_mem_eraseIdx m) with ⟨c, hc, e⟩ | h
        · exact Or.inl ⟨c, by simp [hc], e⟩
        · exact Or.inr h
    · cases hs
  | answer t a =>
    simp only [Proc.step] at hs
    split at hs
    · rename_i c k ht
      simp only [Option.bind_eq_bind, Option.bind_eq_some_iff, Option.pure_def,
        Option.some.injEq, Prod.mk.injEq, Prod.exists] at hs
      obtain ⟨s1, e2, h1, rfl, rfl⟩ := hs
      obtain ⟨h, b, f, a1, a2⟩ := i.held t _ ht
      cases f with
      | connect hk => cases h1; exact i.plain ht (.connect hk) (hk a)
      | bind hk => cases h1; exact i.plain ht (.bind hk) (hk a)
      | listen hk => cases h1; exact i.plain ht (.listen hk) (hk a)
      | socket he hk =>
        cases a with
        | error e => cases h1; exact i.plain ht (.socket he hk) (he e)
        | ok fd =>
          simp only [Proc.effect] at h1
          split at h1
          · rename_i hfree
            cases h1
            refine i.goOn ht rfl ?_ ?_ ⟨some fd, false, hk fd, ?_, ?_⟩ ?_
            · intro u hu x e
              simp only [update_get] at e
              split at e
              · cases e; exact absurd rfl hu
              · exact e
            · intro u hu x e
              simp only [update_get] at e
              split at e
              · cases e
              · exact e
            · intro x e
              simp only [update_get] at e
              split at e
              · rename_i hx; rw [hx]
              · cases a1 x e
            · intro _ x e
              simp only [update_get] at e
              split at e
              · cases e
              · exact a2 rfl x e
            · intro x m
              exact Or.inr (Or.inr ⟨m, fun b f => by cases f⟩)
          · cases h1
      | newFile hk =>
        rename_i fd
        cases h1
        refine i.goOn ht rfl (fun _ _ _ e => e) (fun _ _ _ e => e) ⟨some fd, false, hk a, a1, a2⟩ ?_
        intro x m
        by_cases e : x = fd
        · subst e
          exact Or.inr (Or.inl ⟨false, hk a⟩)
        · simp only [List.mem_append, List.mem_singleton] at m
          refine Or.inr (Or.inr ⟨m.resolve_right e, fun b f => e ?_⟩)
          cases f
          rfl
      | fileConn he hk =>
        rename_i fd
        cases a with
        | error e => cases h1; exact i.plain ht (.fileConn he hk) (he e)
        | ok n =>
          simp only [Proc.effect] at h1
          split at h1
          · cases h1
            exact i.gotConn ht (.fileConn he hk) (hk n)
          · cases h1
      | fileListener he hk =>
        rename_i fd
        cases a with
        | error e => cases h1; exact i.plain ht (.fileListener he hk) (he e)
        | ok n =>
          simp only [Proc.effect] at h1
          split at h1
          · cases h1
            exact i.gotConn ht (.fileListener he hk) (hk n)
          · cases h1
      | close hk =>
        rename_i fd
        cases h1
        refine i.goOn ht rfl ?_ ?_ ⟨none, b, hk a, ?_, ?_⟩ ?_
        · intro u hu x e
          simp only [update_get] at e
          split at e
          · cases e
          · exact e
        · intro u hu x e
          simp only [update_get] at e
          split at e
          · cases e
          · exact e
        · intro x e
          simp only [update_get] at e
          split at e
          · cases e
          · rename_i hx
            have := a1 x e
            simp only [Option.some.injEq] at this
            exact absurd this.symm hx
        · intro hb x e
          simp only [update_get] at e
          split at e
          · cases e
          · exact a2 hb x e
        · intro x m
          by_cases e : x = fd
          · exact Or.inl ⟨⟨fd, s.table fd⟩, by simp, e.symm⟩
          · refine Or.inr (Or.inr ⟨m, fun b f => e ?_⟩)
            cases f
            rfl
    · cases hs

theorem FdInv.init {lib : Lib} {s : Proc} (h : Initial lib s) : FdInv s [] := by
  obtain ⟨h1, h2, h3⟩ := h
  constructor
  · intro t p ht
    refine ⟨none, false, ?_, ?_, ?_⟩
    · obtain ⟨a, rfl | rfl⟩ := h3 p (List.mem_of_getElem? ht)
      · exact form_dial lib a
      · exact form_listen lib a
    · intro fd e
      rcases h2 fd with h | h <;> rw [h] at e <;> cases e
    · intro _ fd e
      rcases h2 fd with h | h <;> rw [h] at e <;> cases e
  · rw [h1]
    simp

theorem FdInv.run {s s' : Proc} {es e1 : List Closed} (i : FdInv s es) {as : List Act}
    (hs : s.run as = some (s', e1)) : FdInv s' (es ++ e1) := by
  induction as generalizing s es e1 with
  | nil =>
    cases hs
    rw [List.append_nil]
    exact i
  | cons a as ih =>
    simp only [Proc.run, Option.bind_eq_bind, Option.bind_eq_some_iff, Option.pure_def,
      Option.some.injEq, Prod.mk.injEq, Prod.exists] at hs
    obtain ⟨s1, e2, h1, s2, e3, h2, rfl, rfl⟩ := hs
    rw [← List.append_assoc]
    exact ih (i.step h1) h2

/-! Without finalizers the socket belongs to the goroutine. -/

/-- Nobody closed the sockets of goroutines, nor are there finalizers. -/
def Owned (s : Proc) : Prop :=
  ∀ (t : Nat) p fd b, s.progs[t]? = some p → Form p (some fd) b → s.table fd = some (.sock t)

theorem Owned.goOn {s s1 : Proc} (o : Owned s) {t : Nat} {p q : Prog} (ht : s.progs[t]? = some p)
    (hp : s1.progs = s.progs)
    (h1 : ∀ u, u ≠ t → ∀ fd, s.table fd = some (.sock u) → s1.table fd = some (.sock u))
    (hq : ∀ fd b, Form q (some fd) b → s1.table fd = some (.sock t)) :
    Owned { s1 with progs := s1.progs.set t q } := by
  intro u r fd b hu f
  simp only [hp] at hu
  rw [progs_set ht] at hu
  split at hu
  · rename_i e
    subst e
    cases hu
    exact hq fd b f
  · rename_i e
    exact h1 u (Ne.symm e) fd (o u r fd b hu f)

theorem Owned.plain {s : Proc} (o : Owned s) {t : Nat} {p q : Prog}
    {h : Option Nat} {b b' : Bool} (ht : s.progs[t]? = some p) (fp : Form p h b) (fq : Form q h b')
    (table : Nat → Option Owner) (files : List Nat)
    (h1 : ∀ fd u, s.table fd = some (.sock u) → table fd = some (.sock u)) :
    Owned ⟨s.progs.set t q, table, files⟩ := by
  refine o.goOn (s1 := ⟨s.progs, table, files⟩) ht rfl (fun u _ fd e => h1 fd u e) ?_
  intro fd b'' f
  have := form_det fq f
  subst this
  exact h1 fd t (o t p fd b ht fp)

theorem Owned.step {s s' : Proc} {es e1 : List Closed} (i : FdInv s es) (o : Owned s) {a : Act}
    (hn : ∀ n, a ≠ .finalize n) (hs : s.step a = some (s', e1)) :
    Owned s' ∧ ∀ c ∈ e1, ∃ t, c.owner = some (.sock t) := by
  cases a with
  | opens fd =>
    simp only [Proc.step] at hs
    split at hs
    · rename_i hfree
      cases hs
      refine ⟨?_, by simp⟩
      intro t p x b ht f
      have := o t p x b ht f
      simp only [update_get]
      split
      · rename_i e
        rw [e, hfree] at this
        cases this
      · exact this
    · cases hs
  | closes fd =>
    simp only [Proc.step] at hs
    have key : (∀ u, s.table fd ≠ some (.sock u)) → Owned { s with table := update s.table fd none } := by
      intro hu t p x b ht f
      have := o t p x b ht f
      simp only [update_get]
      split
      · rename_i e
        rw [e] at this
        exact absurd this (hu t)
      · exact this
    split at hs
    · rename_i e
      cases hs
      exact ⟨key (by simp [e]), by simp⟩
    · rename_i e
      cases hs
      exact ⟨key (by simp [e]), by simp⟩
    · cases hs
  | finalize n => exact absurd rfl (hn n)
  | answer t a =>
    simp only [Proc.step] at hs
    split at hs
    · rename_i c k ht
      simp only [Option.bind_eq_bind, Option.bind_eq_some_iff, Option.pure_def,
        Option.some.injEq, Prod.mk.injEq, Prod.exists] at hs
      obtain ⟨s1, e2, h1, rfl, rfl⟩ := hs
      obtain ⟨h, b, f, a1, a2⟩ := i.held t _ ht
      cases f with
      | connect hk =>
        cases h1; exact ⟨o.plain ht (.connect hk) (hk a) _ _ (fun _ _ e => e), by simp⟩
      | bind hk =>
        cases h1; exact ⟨o.plain ht (.bind hk) (hk a) _ _ (fun _ _ e => e), by simp⟩
      | listen hk =>
        cases h1; exact ⟨o.plain ht (.listen hk) (hk a) _ _ (fun _ _ e => e), by simp⟩
      | newFile hk =>
        cases h1; exact ⟨o.plain ht (.newFile hk) (hk a) _ _ (fun _ _ e => e), by simp⟩
      | socket he hk =>
        cases a with
        | error e =>
          cases h1; exact ⟨o.plain ht (.socket he hk) (he e) _ _ (fun _ _ e => e), by simp⟩
        | ok fd =>
          simp only [Proc.effect] at h1
          split at h1
          · rename_i hfree
            cases h1
            refine ⟨o.goOn ht rfl ?_ ?_, by simp⟩
            · intro u hu x e
              simp only [update_get]
              split
              · rename_i hx
                rw [hx, hfree] at e
                cases e
              · exact e
            · intro x b f
              have := form_det (hk fd) f
              cases this
              simp only [update_get, if_true]
          · cases h1
      | fileConn he hk =>
        cases a with
        | error e =>
          cases h1; exact ⟨o.plain ht (.fileConn he hk) (he e) _ _ (fun _ _ e => e), by simp⟩
        | ok n =>
          simp only [Proc.effect] at h1
          split at h1
          · rename_i hfree
            cases h1
            refine ⟨o.plain ht (.fileConn he hk) (hk n) _ _ (fun x u e => ?_), by simp⟩
            simp only [update_get]
            split
            · rename_i hx
              rw [hx, hfree] at e
              cases e
            · exact e
          · cases h1
      | fileListener he hk =>
        cases a with
        | error e =>
          cases h1; exact ⟨o.plain ht (.fileListener he hk) (he e) _ _ (fun _ _ e => e), by simp⟩
        | ok n =>
          simp only [Proc.effect] at h1
          split at h1
          · rename_i hfree
            cases h1
            refine ⟨o.plain ht (.fileListener he hk) (hk n) _ _ (fun x u e => ?_), by simp⟩
            simp only [update_get]
            split
            · rename_i hx
              rw [hx, hfree] at e
              cases e
            · exact e
          · cases h1
      | close hk =>
        rename_i fd
        cases h1
        have own := o t _ fd b ht (.close hk)
        refine ⟨o.goOn ht rfl ?_ ?_, ?_⟩
        · intro u hu x e
          simp only [update_get]
          split
          · rename_i hx
            rw [hx, own] at e
            cases e
            exact absurd rfl hu
          · exact e
        · intro x b' f
          cases form_det (hk a) f
        · intro c m
          simp only [List.mem_singleton] at m
          subst m
          exact ⟨t, own⟩
    · cases hs

theorem Owned.init {lib : Lib} {s : Proc} (h : Initial lib s) : Owned s := by
  intro t p fd b ht f
  obtain ⟨a, rfl | rfl⟩ := h.2.2 p (List.mem_of_getElem? ht)
  · cases form_det (form_dial lib a) f
  · cases form_det (form_listen lib a) f

theorem Owned.run {s s' : Proc} {es e1 : List Closed} (i : FdInv s es) (o : Owned s) {as : List Act}
    (hn : ∀ n, .finalize n ∉ as) (hs : s.run as = some (s', e1)) :
    ∀ c ∈ e1, ∃ t, c.owner = some (.sock t) := by
  induction as generalizing s es e1 with
  | nil =>
    cases hs
    simp
  | cons a as ih =>
    simp only [Proc.run, Option.bind_eq_bind, Option.bind_eq_some_iff, Option.pure_def,
      Option.some.injEq, Prod.mk.injEq, Prod.exists] at hs
    obtain ⟨s1, e2, h1, s2, e3, h2, rfl, rfl⟩ := hs
    obtain ⟨o1, c1⟩ := o.step i (fun n e => hn n (by simp [e])) h1
    have := ih (i.step h1) o1 (fun n m => hn n (by simp [m])) h2
    intro c m
    exact (List.mem_append.1 m).elim (c1 c) (this c)

end SMC.Socket
