import Verif.Lemmas.Http
/-!
# What linearizability means for histories
-/

namespace SMC.Http

theorem phase_append (t : Nat) (h k : List Point) :
    phase t (h ++ k) = (phase t h).bind fun ph => k.foldlM (Phase.next t) ph := by
  simp only [phase, List.foldlM_append]
  rfl

theorem phase_prefix {t : Nat} {h k : List Point} (e : (phase t (h ++ k)).isSome) :
    (phase t h).isSome := by
  rw [phase_append] at e
  cases hp : phase t h with
  | none => rw [hp] at e; simp at e
  | some ph => rfl

theorem next_fold {t : Nat} {p : Point} {k : List Point} {ph qh : Phase}
    (h : (p :: k).foldlM (Phase.next t) ph = some qh) :
    ∃ rh, ph.next t p = some rh ∧ k.foldlM (Phase.next t) rh = some qh := by
  rw [List.foldlM_cons] at h
  exact Option.bind_eq_some_iff.1 h

/-- A goroutine in an operation was in it before or has been called. -/
theorem called_mem {t : Nat} {op : Op} {k : List Point} {ph : Phase}
    (h : k.foldlM (Phase.next t) ph = some (.called op)) :
    ph = .called op ∨ .seen (.call t op) ∈ k := by
  induction k generalizing ph with
  | nil => left; simpa using h
  | cons p k ih =>
    obtain ⟨rh, h1, h2⟩ := next_fold h
    rcases ih h2 with rfl | m
    · unfold Phase.next at h1
      split at h1
      · rename_i u op'
        split at h1
        · rename_i e
          split at h1
          · cases h1
            right
            rw [e]
            simp
          · cases h1
        · cases h1; left; rfl
      · split at h1
        · split at h1 <;> cases h1
        · cases h1; left; rfl
      · split at h1
        · split at h1 <;> cases h1
        · cases h1; left; rfl
    · right
      simp [m]

/-- A goroutine whose operation has taken effect was there before, or there is the effect. -/
theorem answered_mem {t : Nat} {v : Val} {k : List Point} {ph : Phase}
    (h : k.foldlM (Phase.next t) ph = some (.answered v)) :
    ph = .answered v ∨ ∃ op, .effect t op v ∈ k := by
  induction k generalizing ph with
  | nil => left; simpa using h
  | cons p k ih =>
    obtain ⟨rh, h1, h2⟩ := next_fold h
    rcases ih h2 with rfl | ⟨op, m⟩
    · unfold Phase.next at h1
      split at h1
      · split at h1
        · split at h1 <;> cases h1
        · cases h1; left; rfl
      · rename_i u op' v'
        split at h1
        · rename_i e
          split at h1
          · cases h1
            right
            exact ⟨op', by simp [e]⟩
          · cases h1
        · cases h1; left; rfl
      · split at h1
        · split at h1 <;> cases h1
        · cases h1; left; rfl
    · right
      exact ⟨op, by simp [m]⟩

/-- What takes effect has been called. -/
theorem effect_called {t : Nat} {op : Op} {v : Val} {h : List Point} (hp : (phase t h).isSome)
    (m : .effect t op v ∈ h) : .seen (.call t op) ∈ h := by
  obtain ⟨a, b, rfl⟩ := List.append_of_mem m
  obtain ⟨qh, hq⟩ := Option.isSome_iff_exists.1 hp
  rw [phase_append] at hq
  obtain ⟨ph, h1, h2⟩ := Option.bind_eq_some_iff.1 hq
  obtain ⟨rh, h3, _⟩ := next_fold h2
  have : ph = .called op := by
    simp only [Phase.next, if_true] at h3
    split at h3
    · assumption
    · cases h3
  subst this
  rcases called_mem h1 with e | e
  · cases e
  · simp [e]

/-- What is returned is the value of an effect. -/
theorem ret_effect {t : Nat} {v : Val} {h : List Point} (hp : (phase t h).isSome)
    (m : .seen (.ret t v) ∈ h) : ∃ op, .effect t op v ∈ h := by
  obtain ⟨a, b, rfl⟩ := List.append_of_mem m
  obtain ⟨qh, hq⟩ := Option.isSome_iff_exists.1 hp
  rw [phase_append] at hq
  obtain ⟨ph, h1, h2⟩ := Option.bind_eq_some_iff.1 hq
  obtain ⟨rh, h3, _⟩ := next_fold h2
  have : ph = .answered v := by
    simp only [Phase.next, if_true] at h3
    split at h3
    · assumption
    · cases h3
  subst this
  rcases answered_mem h1 with e | ⟨op, e⟩
  · cases e
  · exact ⟨op, by simp [e]⟩

theorem mem_seen {e : Event} {h : List Point} : e ∈ seen h ↔ .seen e ∈ h := by
  simp only [seen, List.mem_filterMap]
  constructor
  · rintro ⟨p, hm, hp⟩
    split at hp
    · cases hp; exact hm
    · cases hp
  · intro hm
    exact ⟨_, hm, rfl⟩

theorem mem_effects {op : Op} {v : Val} {h : List Point} :
    (op, v) ∈ effects h ↔ ∃ t, .effect t op v ∈ h := by
  simp only [effects, List.mem_filterMap]
  constructor
  · rintro ⟨p, hm, hp⟩
    split at hp
    · cases hp
    · cases hp; exact ⟨_, hm⟩
  · rintro ⟨t, hm⟩
    exact ⟨_, hm, rfl⟩

/-- The value of an effect in a legal history. -/
theorem Legal.value {h k : List Point} {t : Nat} {op : Op} {v : Val}
    (l : Legal (effects (h ++ .effect t op v :: k))) : v = answer (done h) op := by
  have := l (effects h).length op v (by rw [effects_append]; simp [effects])
  rw [this, effects_append, List.take_left' rfl]
  rfl

/-- The payloads of the writes since the last reset. -/
theorem since_payloads (ops : List Op) :
    ∃ ps : List Bytes, since ops = ps.flatten ∧ ∀ p ∈ ps, .write p ∈ ops := by
  refine ⟨((ops.reverse.takeWhile (· ≠ .reset)).reverse).filterMap
    (fun | .write p => some p | _ => none), ?_, ?_⟩
  · unfold since
    generalize (ops.reverse.takeWhile (· ≠ .reset)).reverse = l
    induction l with
    | nil => rfl
    | cons o l ih => cases o <;> simp [Op.payload, ih]
  · intro p hp
    rw [List.mem_filterMap] at hp
    obtain ⟨o, ho, e⟩ := hp
    split at e
    · cases e
      have := List.mem_reverse.1 ho
      have := (List.takeWhile_sublist _).subset this
      exact List.mem_reverse.1 this
    · cases e

theorem takeWhile_all {α : Type} (p : α → Bool) (l : List α) (h : ∀ x ∈ l, p x) :
    l.takeWhile p = l := by
  induction l with
  | nil => rfl
  | cons x l ih =>
    rw [List.takeWhile_cons, if_pos (h x (by simp)), ih (fun y hy => h y (by simp [hy]))]

theorem since_noReset {ops : List Op} (h : .reset ∉ ops) : since ops = ops.flatMap Op.payload := by
  unfold since
  rw [takeWhile_all, List.reverse_reverse]
  intro x hx
  have : x ∈ ops := List.mem_reverse.1 hx
  simp only [ne_eq, decide_not, Bool.not_eq_eq_eq_not, Bool.not_true, decide_eq_false_iff_not]
  intro e
  subst e
  exact h this

/-- Splitting the observable part splits the history. -/
theorem seen_split {h : List Point} {a b : List Event} {e : Event} (hs : seen h = a ++ e :: b) :
    ∃ h1 h2, h = h1 ++ .seen e :: h2 ∧ seen h1 = a ∧ seen h2 = b := by
  obtain ⟨h1, h2, rfl, e1, e2⟩ := List.filterMap_eq_append_iff.1 hs
  obtain ⟨h3, x, h4, rfl, hn, hx, e4⟩ := List.filterMap_eq_cons_iff.1 e2
  refine ⟨h1 ++ h3, h4, ?_, ?_, e4⟩
  · split at hx
    · cases hx; simp
    · cases hx
  · rw [seen_append]
    have : seen h3 = [] := List.filterMap_eq_nil_iff.2 hn
    rw [this, List.append_nil]
    exact e1

/-- Between the call and the return there is the effect of the operation called, with the value
returned. -/
theorem effect_between {h k l : List Point} {t : Nat} {op : Op} {v : Val}
    (hp : (phase t (h ++ .seen (.call t op) :: (k ++ .seen (.ret t v) :: l))).isSome)
    (hn : ∀ o, .seen (.call t o) ∉ k) : .effect t op v ∈ k := by
  obtain ⟨qh, hq⟩ := Option.isSome_iff_exists.1 hp
  rw [phase_append] at hq
  obtain ⟨ph, h1, h2⟩ := Option.bind_eq_some_iff.1 hq
  obtain ⟨rh, h3, h4⟩ := next_fold h2
  have e1 : rh = .called op := by
    simp only [Phase.next, if_true] at h3
    split at h3
    · exact (Option.some.inj h3).symm
    · cases h3
  subst e1
  rw [List.foldlM_append] at h4
  obtain ⟨sh, h5, h6⟩ := Option.bind_eq_some_iff.1 h4
  obtain ⟨th, h7, _⟩ := next_fold h6
  have e2 : sh = .answered v := by
    simp only [Phase.next, if_true] at h7
    split at h7
    · assumption
    · cases h7
  subst e2
  rcases answered_mem h5 with e | ⟨o, m⟩
  · cases e
  · obtain ⟨a, b, rfl⟩ := List.append_of_mem m
    rw [List.foldlM_append] at h5
    obtain ⟨xh, h8, h9⟩ := Option.bind_eq_some_iff.1 h5
    obtain ⟨yh, h10, _⟩ := next_fold h9
    have e3 : xh = .called o := by
      simp only [Phase.next, if_true] at h10
      split at h10
      · assumption
      · cases h10
    subst e3
    rcases called_mem h8 with e | e
    · cases e; exact m
    · exact absurd (List.mem_append_left _ e) (hn o)

/-- In a linearizable history every copy is a sequence of whole writes. -/
theorem Linearizable.whole {es : List Event} (h : Linearizable es) {t : Nat} {bs : Bytes} (hr : .ret t (.copied bs) ∈ es) :
    ∃ ps : List Bytes, bs = ps.flatten ∧ ∀ p ∈ ps, ∃ u, .call u (.write p) ∈ es := by
  obtain ⟨pts, rfl, hp, hl⟩ := h
  obtain ⟨op, m⟩ := ret_effect (hp t) (mem_seen.1 hr)
  obtain ⟨a, b, rfl⟩ := List.append_of_mem m
  have hv := hl.value
  cases op with
  | write p => cases hv
  | fail p => cases hv
  | reset => cases hv
  | copy =>
    cases hv
    obtain ⟨ps, e, hps⟩ := since_payloads (done a)
    refine ⟨ps, e, fun p hp' => ?_⟩
    obtain ⟨⟨o, v⟩, m1, rfl⟩ := List.mem_map.1 (hps p hp')
    obtain ⟨u, m2⟩ := mem_effects.1 m1
    exact ⟨u, mem_seen.2 (effect_called (hp u) (List.mem_append_left _ m2))⟩

end SMC.Http
