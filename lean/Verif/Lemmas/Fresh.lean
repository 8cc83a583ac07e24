import Verif.Spec.Fresh
import Verif.Lemmas.HttpLoss
/-!
# Lemmas about operations one after the other
-/

namespace SMC.Http

theorem snocRec {α : Type} {P : List α → Prop} (nil : P []) (snoc : ∀ l a, P l → P (l ++ [a])) (l : List α) : P l := by
  have : ∀ l : List α, P l.reverse := by
    intro l
    induction l with
    | nil => exact nil
    | cons a l ih => simpa using snoc _ a ih
  simpa using this l.reverse

theorem observed_split {h : List SysPoint} {a b : List SysEvent} (e : observed h = a ++ b) :
    ∃ A B, h = A ++ B ∧ observed A = a ∧ observed B = b := by
  obtain ⟨A, B, rfl, e1, e2⟩ := List.filterMap_eq_append_iff.1 e
  exact ⟨A, B, rfl, e1, e2⟩

theorem observed_cons {h : List SysPoint} {e : Event} {b : List SysEvent} (he : observed h = .buf e :: b) :
    ∃ A B, h = A ++ .pt (.seen e) :: B ∧ observed A = [] ∧ observed B = b := by
  obtain ⟨A, x, B, rfl, hn, hx, e2⟩ := List.filterMap_eq_cons_iff.1 he
  refine ⟨A, B, ?_, List.filterMap_eq_nil_iff.2 hn, e2⟩
  split at hx
  · cases hx; rfl
  · cases hx
  · cases hx

theorem observed_response {h : List SysPoint} {t : Nat} {w : Bytes} {b : List SysEvent}
    (he : observed h = .response t w :: b) :
    ∃ A B, h = A ++ .response t w :: B ∧ observed A = [] ∧ observed B = b := by
  obtain ⟨A, x, B, rfl, hn, hx, e2⟩ := List.filterMap_eq_cons_iff.1 he
  refine ⟨A, B, ?_, List.filterMap_eq_nil_iff.2 hn, e2⟩
  split at hx
  · cases hx
  · cases hx
  · cases hx; rfl

theorem points_cons (p : Point) (h : List SysPoint) : points (.pt p :: h) = p :: points h := rfl

/-- Where a whole operation takes effect. -/
theorem Whole.effect {A S B : List SysPoint} {t : Nat} {op : Op} {v : Val} (w : Whole t op v (observed S))
    (hp : (phase t (points (A ++ (S ++ B)))).isSome) : ∃ S1 S2, S = S1 ++ .pt (.effect t op v) :: S2 := by
  obtain ⟨k, e, hk⟩ := w
  obtain ⟨C, D, rfl, -, eD⟩ := observed_cons e
  obtain ⟨K, R, rfl, eK, eR⟩ := observed_split eD
  obtain ⟨R1, R2, rfl, eR1, -⟩ := observed_cons eR
  have : .effect t op v ∈ points (K ++ R1) := by
    refine effect_between (h := points (A ++ C)) (l := points (R2 ++ B)) (t := t) ?_ ?_
    · rw [← points_cons, ← points_append, ← points_cons, ← points_append]
      simpa using hp
    · intro o m
      rw [points_append, List.mem_append] at m
      rcases m with m | m
      · have := hk (.buf (.call t o)) (eK ▸ mem_observed_buf.2 (mem_points.1 m))
        simp [SysEvent.of] at this
      · have := mem_observed_buf.2 (mem_points.1 m)
        rw [eR1] at this
        cases this
  obtain ⟨a, b, e⟩ := List.append_of_mem (mem_points.1 this)
  refine ⟨C ++ .pt (.seen (.call t op)) :: a, b ++ .pt (.seen (.ret t v)) :: R2, ?_⟩
  rw [show K ++ (R1 ++ .pt (.seen (.ret t v)) :: R2) = (K ++ R1) ++ .pt (.seen (.ret t v)) :: R2 by simp, e]
  simp

/-- What has not taken effect has been called, and nothing was seen of its goroutine since. -/
theorem called_split {t : Nat} {op : Op} {h : List SysPoint} (hp : phase t (points h) = some (.called op)) :
    ∃ a b, h = a ++ .pt (.seen (.call t op)) :: b ∧ ∀ e ∈ observed b, ¬ e.of t := by
  induction h using snocRec with
  | nil => cases hp
  | snoc h p ih =>
    rcases p with p | ⟨u, w⟩
    · rw [points_append, show points [SysPoint.pt p] = [p] from rfl, phase_snoc] at hp
      obtain ⟨ph, h1, h2⟩ := Option.bind_eq_some_iff.1 hp
      have keep : ph = .called op → (∀ e ∈ observed [.pt p], ¬ e.of t) →
          ∃ a b, h ++ [.pt p] = a ++ .pt (.seen (.call t op)) :: b ∧ ∀ e ∈ observed b, ¬ e.of t := by
        rintro rfl ho
        obtain ⟨a, b, rfl, hb⟩ := ih h1
        refine ⟨a, b ++ [.pt p], by simp, fun e m => ?_⟩
        rw [observed_append, List.mem_append] at m
        exact m.elim (hb e) (ho e)
      unfold Phase.next at h2
      split at h2
      · split at h2
        · rename_i u op' hu
          subst hu
          split at h2
          · cases h2
            exact ⟨h, [], rfl, by simp [observed]⟩
          · cases h2
        · rename_i u op' hu
          exact keep (Option.some.inj h2) (by simpa [observed, SysEvent.of] using hu)
      · split at h2
        · split at h2 <;> cases h2
        · exact keep (Option.some.inj h2) (by simp [observed])
      · split at h2
        · split at h2 <;> cases h2
        · rename_i u v hu
          exact keep (Option.some.inj h2) (by simpa [observed, SysEvent.of] using hu)
    · have e : points (h ++ [.response u w]) = points h := by
        rw [points_append]
        exact List.append_nil _
      rw [e] at hp
      obtain ⟨a, b, rfl, hb⟩ := ih hp
      refine ⟨a, b ++ [.response u w], by simp, fun e m => ?_⟩
      rw [observed_append, List.mem_append] at m
      rcases m with m | m
      · exact hb e m
      · simp only [observed, List.filterMap_cons, List.filterMap_nil, List.mem_singleton] at m
        subst m
        simp [SysEvent.of]

/-- What is returned took effect. -/
theorem returned_effect {t : Nat} {v : Val} {h k : List Point} (hp : (phase t (h ++ k)).isSome)
    (hk : ∃ l, k = .seen (.ret t v) :: l := by exact ⟨_, rfl⟩) : ∃ op, .effect t op v ∈ h := by
  obtain ⟨l, rfl⟩ := hk
  obtain ⟨qh, hq⟩ := Option.isSome_iff_exists.1 hp
  rw [phase_append] at hq
  obtain ⟨ph, h1, h2⟩ := Option.bind_eq_some_iff.1 hq
  obtain ⟨rh, h3, _⟩ := next_fold h2
  have : ph = .answered v := by
    simp only [Phase.next, if_true] at h3
    split at h3
    · assumption
    · cases h3
  subst this
  rcases answered_mem h1 with e | m
  · cases e
  · exact m

/-- A copy that took effect and has returned: its goroutine sees nothing behind the return until it takes effect again. -/
theorem returned_split {t : Nat} {x : Bytes} {E F : List SysPoint}
    (hp : phase t (points (E ++ .pt (.effect t .copy (.copied x)) :: F)) = some .idle) (hF : ∀ p ∈ F, p.apart t) :
    ∃ G J, F = G ++ .pt (.seen (.ret t (.copied x))) :: J ∧ ∀ e ∈ observed J, ¬ e.of t := by
  have key : ∀ F : List SysPoint, (∀ p ∈ F, p.apart t) → ∀ ph,
      phase t (points (E ++ .pt (.effect t .copy (.copied x)) :: F)) = some ph →
      ph = .answered (.copied x) ∨ (∃ op, ph = .called op) ∨
        (ph = .idle ∧ ∃ G J, F = G ++ .pt (.seen (.ret t (.copied x))) :: J ∧ ∀ e ∈ observed J, ¬ e.of t) := by
    intro F
    induction F using snocRec with
    | nil =>
      intro _ ph e
      rw [points_append] at e
      exact .inl (phase_effect e).2
    | snoc F p ih =>
      intro hF ph e
      have hF' : ∀ q ∈ F, q.apart t := fun q m => hF q (by simp [m])
      rw [show E ++ .pt (.effect t .copy (.copied x)) :: (F ++ [p]) =
        (E ++ .pt (.effect t .copy (.copied x)) :: F) ++ [p] by simp, points_append] at e
      -- nothing is seen of `t`
      have keep : (∀ e ∈ observed [p], ¬ e.of t) → phase t (points (E ++ .pt (.effect t .copy (.copied x)) :: F)) = some ph →
          ph = .answered (.copied x) ∨ (∃ op, ph = .called op) ∨
            (ph = .idle ∧ ∃ G J, F ++ [p] = G ++ .pt (.seen (.ret t (.copied x))) :: J ∧ ∀ e ∈ observed J, ¬ e.of t) := by
        intro ho e
        rcases ih hF' ph e with h | h | ⟨h, G, J, rfl, hJ⟩
        · exact .inl h
        · exact .inr (.inl h)
        · refine .inr (.inr ⟨h, G, J ++ [p], by simp, fun e m => ?_⟩)
          rw [observed_append, List.mem_append] at m
          exact m.elim (hJ e) (ho e)
      rcases p with p | ⟨u, w⟩
      · rw [show points [SysPoint.pt p] = [p] from rfl, phase_snoc] at e
        obtain ⟨qh, h1, h2⟩ := Option.bind_eq_some_iff.1 e
        rcases p with (⟨u, op⟩ | ⟨u, v⟩) | ⟨u, op, v⟩
        · simp only [Phase.next] at h2
          split at h2
          · split at h2
            · cases h2
              exact .inr (.inl ⟨op, rfl⟩)
            · cases h2
          · rename_i hu
            cases h2
            exact keep (by simpa [observed, SysEvent.of] using hu) h1
        · simp only [Phase.next] at h2
          split at h2
          · rename_i hu
            subst hu
            split at h2
            · rename_i hq
              subst hq
              cases h2
              rcases ih hF' _ h1 with h | ⟨op, h⟩ | ⟨h, -⟩
              · cases h
                exact .inr (.inr ⟨rfl, F, [], rfl, by simp [observed]⟩)
              · cases h
              · cases h
            · cases h2
          · rename_i hu
            cases h2
            exact keep (by simpa [observed, SysEvent.of] using hu) h1
        · have hu : u ≠ t := by
            have := hF (.pt (.effect u op v)) (by simp)
            simpa [SysPoint.apart] using this
          simp only [Phase.next, if_neg hu] at h2
          cases h2
          exact keep (by simp [observed]) h1
      · have e' : points [SysPoint.response u w] = [] := rfl
        rw [e', List.append_nil] at e
        exact keep (by simp [observed, SysEvent.of]) e
  rcases key F hF _ hp with h | ⟨op, h⟩ | ⟨-, h⟩
  · cases h
  · cases h
  · exact h

/-- What does not run in a part of a history does not take effect there. -/
theorem not_running {A B : List SysPoint} {op : Op} (hp : ∀ t, (phase t (points (A ++ B))).isSome)
    (h1 : ¬ Running op (observed A)) (h2 : ∀ t, .buf (.call t op) ∉ observed B) : op ∉ opsIn B := by
  intro m
  obtain ⟨⟨o, v⟩, m1, rfl⟩ := List.mem_map.1 m
  obtain ⟨t, m2⟩ := mem_effects.1 m1
  obtain ⟨C, D, rfl⟩ := List.append_of_mem (mem_points.1 m2)
  have hq := hp t
  rw [show A ++ (C ++ .pt (.effect t o v) :: D) = (A ++ C ++ [.pt (.effect t o v)]) ++ D by simp, points_append] at hq
  obtain ⟨ph, e⟩ := Option.isSome_iff_exists.1 (phase_prefix hq)
  rw [points_append] at e
  obtain ⟨e1, -⟩ := phase_effect e
  obtain ⟨a, b, e2, hb⟩ := called_split e1
  rcases List.append_eq_append_iff.1 e2 with ⟨c, rfl, e3⟩ | ⟨c, rfl, e3⟩
  · refine h2 t ?_
    rw [e3, observed_append, observed_append]
    simp [observed]
  · cases c with
    | nil =>
      refine h2 t ?_
      rw [List.nil_append] at e3
      rw [← e3, observed_append]
      simp [observed]
    | cons p c =>
      simp only [List.cons_append, List.cons.injEq] at e3
      obtain ⟨rfl, rfl⟩ := e3
      refine h1 ⟨t, observed a, observed c, by rw [observed_append]; rfl, fun e m => hb e ?_⟩
      rw [observed_append]
      exact List.mem_append_left _ m

theorem contents_noReset {A B : List SysPoint} (h : .reset ∉ opsIn B) :
    contentsAfter (A ++ B) = contentsAfter A ++ (opsIn B).flatMap Op.payload := by
  simp only [contentsAfter, opsIn_append, since_append]
  rw [if_neg h]

/-- Effects of an operation are no more than its calls. -/
theorem count_calls {h : List SysPoint} (hp : ∀ t, (phase t (points h)).isSome) (p : Bytes) :
    ∃ ts : List Nat, ts.Nodup ∧ (∀ t, t ∈ ts ↔ phase t (points h) = some (.called (.write p))) ∧
      callsOf p (observed h) = (opsIn h).count (.write p) + ts.length := by
  induction h using snocRec with
  | nil => exact ⟨[], .nil, fun t => by simp [points, phase], rfl⟩
  | snoc h q ih =>
    have hp' : ∀ t, (phase t (points h)).isSome := by
      intro t
      have := hp t
      rw [points_append] at this
      exact phase_prefix this
    obtain ⟨ts, hn, hm, hc⟩ := ih hp'
    have hcc : callsOf p (observed (h ++ [q])) = callsOf p (observed h) + callsOf p (observed [q]) := by
      simp [callsOf, observed_append]
    have hoo : (opsIn (h ++ [q])).count (.write p) = (opsIn h).count (.write p) + (opsIn [q]).count (.write p) := by
      simp [opsIn_append]
    rcases q with q | ⟨u, w⟩
    · have step : ∀ t, phase t (points (h ++ [.pt q])) = (phase t (points h)).bind fun ph => ph.next t q := by
        intro t
        rw [points_append, show points [SysPoint.pt q] = [q] from rfl, phase_snoc]
      rcases q with (⟨u, op⟩ | ⟨u, v⟩) | ⟨u, op, v⟩
      · -- a call
        have hu := hp u
        rw [step] at hu
        obtain ⟨ph, e⟩ := Option.isSome_iff_exists.1 (hp' u)
        rw [e] at hu
        simp only [Option.bind_some, Phase.next, if_true] at hu
        have hi : ph = .idle := Classical.byContradiction fun n => by simp [n] at hu
        subst hi
        have others : ∀ t, t ≠ u → phase t (points (h ++ [.pt (.seen (.call u op))])) = phase t (points h) := by
          intro t ht
          rw [step]
          cases phase t (points h) <;> simp [Phase.next, Ne.symm ht]
        have self : phase u (points (h ++ [.pt (.seen (.call u op))])) = some (.called op) := by
          rw [step, e]
          simp [Phase.next]
        by_cases ho : op = .write p
        · subst ho
          refine ⟨u :: ts, List.nodup_cons.2 ⟨fun m => ?_, hn⟩, fun t => ?_, ?_⟩
          · rw [hm, e] at m
            cases m
          · by_cases ht : t = u
            · subst ht
              simp [self]
            · simp [ht, others t ht, hm]
          · rw [hcc, hoo, hc]
            simp [callsOf, observed, opsIn, points, effects]
            omega
        · refine ⟨ts, hn, fun t => ?_, ?_⟩
          · by_cases ht : t = u
            · subst ht
              rw [self, hm, e]
              simp [ho]
            · rw [others t ht, hm]
          · rw [hcc, hoo, hc]
            simp [callsOf, observed, opsIn, points, effects, ho]
      · -- a return
        have hu := hp u
        rw [step] at hu
        obtain ⟨ph, e⟩ := Option.isSome_iff_exists.1 (hp' u)
        rw [e] at hu
        simp only [Option.bind_some, Phase.next, if_true] at hu
        have hi : ph = .answered v := Classical.byContradiction fun n => by simp [n] at hu
        subst hi
        refine ⟨ts, hn, fun t => ?_, ?_⟩
        · by_cases ht : t = u
          · subst ht
            rw [step, hm, e]
            simp [Phase.next]
          · rw [step, hm]
            cases phase t (points h) <;> simp [Phase.next, Ne.symm ht]
        · rw [hcc, hoo, hc]
          simp [callsOf, observed, opsIn, points, effects]
      · -- an effect
        have hu := hp u
        rw [step] at hu
        obtain ⟨ph, e⟩ := Option.isSome_iff_exists.1 (hp' u)
        rw [e] at hu
        simp only [Option.bind_some, Phase.next, if_true] at hu
        have hi : ph = .called op := Classical.byContradiction fun n => by simp [n] at hu
        subst hi
        have others : ∀ t, t ≠ u → phase t (points (h ++ [.pt (.effect u op v)])) = phase t (points h) := by
          intro t ht
          rw [step]
          cases phase t (points h) <;> simp [Phase.next, Ne.symm ht]
        have self : phase u (points (h ++ [.pt (.effect u op v)])) = some (.answered v) := by
          rw [step, e]
          simp [Phase.next]
        by_cases ho : op = .write p
        · subst ho
          have mu : u ∈ ts := (hm u).2 e
          refine ⟨ts.erase u, hn.erase u, fun t => ?_, ?_⟩
          · by_cases ht : t = u
            · subst ht
              simp [self, hn.mem_erase_iff]
            · rw [others t ht, hn.mem_erase_iff, hm]
              simp [ht]
          · rw [hcc, hoo, hc, List.length_erase_of_mem mu]
            have := List.length_pos_of_mem mu
            simp [callsOf, observed, opsIn, points, effects]
            omega
        · refine ⟨ts, hn, fun t => ?_, ?_⟩
          · by_cases ht : t = u
            · subst ht
              rw [self, hm, e]
              simp [ho]
            · rw [others t ht, hm]
          · rw [hcc, hoo, hc]
            simp [callsOf, observed, opsIn, points, effects, ho]
    · have e : points (h ++ [.response u w]) = points h := by
        rw [points_append]
        exact List.append_nil _
      refine ⟨ts, hn, by rw [e]; exact hm, ?_⟩
      rw [hcc, hoo, hc]
      simp [callsOf, observed, opsIn, points, effects]

/-- The bytes since the last reset are those of writes, each as often as it was made at most. -/
theorem since_counted (ops : List Op) :
    ∃ ps : List Bytes, since ops = ps.flatten ∧ ∀ p, ps.count p ≤ ops.count (.write p) := by
  refine ⟨((ops.reverse.takeWhile (· ≠ .reset)).reverse).filterMap
    (fun | .write p => some p | _ => none), ?_, fun p => ?_⟩
  · unfold since
    generalize (ops.reverse.takeWhile (· ≠ .reset)).reverse = l
    induction l with
    | nil => rfl
    | cons o l ih => cases o <;> simp [Op.payload, ih]
  · have h1 : ∀ l : List Op, (l.filterMap (fun | .write p => some p | _ => none)).count p = l.count (.write p) := by
      intro l
      induction l with
      | nil => rfl
      | cons o l ih => cases o <;> simp [List.count_cons, ih]
    rw [h1, List.count_reverse]
    refine Nat.le_trans ((List.takeWhile_sublist _).count_le _) ?_
    rw [List.count_reverse]
    exact Nat.le_refl _

/-- The effect of a whole operation splits the history. -/
theorem Whole.split {A H : List SysPoint} {t : Nat} {op : Op} {v : Val} {s r : List SysEvent} (w : Whole t op v s)
    (hp : (phase t (points (A ++ H))).isSome) (ho : observed H = s ++ r) :
    ∃ K L R, H = K ++ .pt (.effect t op v) :: (L ++ R) ∧ observed (K ++ L) = s ∧ observed R = r := by
  obtain ⟨S, R, rfl, rfl, eR⟩ := observed_split ho
  obtain ⟨K, L, rfl⟩ := w.effect (A := A) (B := R) hp
  exact ⟨K, L, R, by simp, by simp [observed], eR⟩

/-- Two operations one after the other, and what does not take effect in between. -/
theorem Whole.two {H : List SysPoint} (hp : ∀ t, (phase t (points H)).isSome) {a s1 b s2 c : List SysEvent}
    {t u : Nat} {op op' : Op} {v v' : Val} (h1 : Whole t op v s1) (h2 : Whole u op' v' s2)
    (ho : observed H = a ++ (s1 ++ (b ++ (s2 ++ c)))) :
    ∃ A B C, H = A ++ .pt (.effect t op v) :: (B ++ .pt (.effect u op' v') :: C) ∧
      ∀ o, ¬ Running o a → (∀ t, .buf (.call t o) ∉ s1 ++ (b ++ s2)) → o ∉ opsIn B := by
  obtain ⟨A, H1, rfl, rfl, ho1⟩ := observed_split ho
  obtain ⟨K, L, R, rfl, rfl, eR⟩ := h1.split (hp t) ho1
  obtain ⟨B, H3, rfl, rfl, ho2⟩ := observed_split eR
  obtain ⟨M, N, C, rfl, rfl, eC⟩ := h2.split (A := A ++ (K ++ .pt (.effect t op v) :: (L ++ B))) (by simpa using hp u) ho2
  refine ⟨A ++ K, L ++ (B ++ M), N ++ C, by simp, fun o hr hc m => ?_⟩
  refine not_running (A := A) (B := K ++ .pt (.effect t op v) :: (L ++ (B ++ M))) (fun t' => ?_) hr (fun t' m' => hc t' ?_) ?_
  · have := hp t'
    rw [show A ++ (K ++ .pt (.effect t op v) :: (L ++ (B ++ (M ++ .pt (.effect u op' v') :: (N ++ C))))) =
      (A ++ (K ++ .pt (.effect t op v) :: (L ++ (B ++ M)))) ++ .pt (.effect u op' v') :: (N ++ C) by simp, points_append] at this
    exact phase_prefix this
  · have e : observed (.pt (.effect t op v) :: (L ++ (B ++ M))) = observed (L ++ (B ++ M)) := rfl
    simp only [observed_append, e, List.mem_append] at m' ⊢
    rcases m' with m' | m' | m' | m'
    · exact .inl (.inl m')
    · exact .inl (.inr m')
    · exact .inr (.inl m')
    · exact .inr (.inr (.inl m'))
  · rw [opsIn_append, opsIn_effect]
    exact List.mem_append_right _ (List.mem_cons_of_mem _ m)

/-- Three operations one after the other, and what does not take effect in between. -/
theorem Whole.three {H : List SysPoint} (hp : ∀ t, (phase t (points H)).isSome) {a s1 b s2 c s3 d : List SysEvent}
    {t1 t2 t3 : Nat} {o1 o2 o3 : Op} {v1 v2 v3 : Val} (h1 : Whole t1 o1 v1 s1) (h2 : Whole t2 o2 v2 s2) (h3 : Whole t3 o3 v3 s3)
    (ho : observed H = a ++ (s1 ++ (b ++ (s2 ++ (c ++ (s3 ++ d)))))) :
    ∃ A B C D, H = A ++ .pt (.effect t1 o1 v1) :: (B ++ .pt (.effect t2 o2 v2) :: (C ++ .pt (.effect t3 o3 v3) :: D)) ∧
      ∀ o, ¬ Running o a → (∀ t, .buf (.call t o) ∉ s1 ++ (b ++ (s2 ++ (c ++ s3)))) → o ∉ opsIn (B ++ C) := by
  obtain ⟨A, H1, rfl, rfl, ho1⟩ := observed_split ho
  obtain ⟨K, L, R, rfl, rfl, eR⟩ := h1.split (hp t1) ho1
  obtain ⟨B, H3, rfl, rfl, ho2⟩ := observed_split eR
  obtain ⟨M, N, R2, rfl, rfl, eR2⟩ := h2.split (A := A ++ (K ++ .pt (.effect t1 o1 v1) :: (L ++ B))) (by simpa using hp t2) ho2
  obtain ⟨C, H4, rfl, rfl, ho3⟩ := observed_split eR2
  obtain ⟨P, Q, D, rfl, rfl, eD⟩ := h3.split
    (A := A ++ (K ++ .pt (.effect t1 o1 v1) :: (L ++ (B ++ (M ++ .pt (.effect t2 o2 v2) :: (N ++ C))))))
    (by simpa using hp t3) ho3
  refine ⟨A ++ K, L ++ (B ++ M), N ++ (C ++ P), Q ++ D, by simp, fun o hr hc m => ?_⟩
  refine not_running (A := A)
    (B := K ++ .pt (.effect t1 o1 v1) :: (L ++ (B ++ (M ++ .pt (.effect t2 o2 v2) :: (N ++ (C ++ P))))))
    (fun t' => ?_) hr (fun t' m' => hc t' ?_) ?_
  · have := hp t'
    rw [show A ++ (K ++ .pt (.effect t1 o1 v1) :: (L ++ (B ++ (M ++ .pt (.effect t2 o2 v2) ::
        (N ++ (C ++ (P ++ .pt (.effect t3 o3 v3) :: (Q ++ D)))))))) =
      (A ++ (K ++ .pt (.effect t1 o1 v1) :: (L ++ (B ++ (M ++ .pt (.effect t2 o2 v2) :: (N ++ (C ++ P))))))) ++
        .pt (.effect t3 o3 v3) :: (Q ++ D) by simp, points_append] at this
    exact phase_prefix this
  · have e : ∀ t op v h, observed (.pt (.effect t op v) :: h) = observed h := fun _ _ _ _ => rfl
    simp only [observed_append, e, List.mem_append] at m' ⊢
    rcases m' with m' | m' | m' | m' | m' | m' | m' <;> simp [m']
  · simp only [opsIn_append, opsIn_effect, List.mem_append, List.mem_cons] at m ⊢
    rcases m with (m | m | m) | m | m | m <;> simp [m]

end SMC.Http
