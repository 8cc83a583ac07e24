import Verif.Spec.Poll
import Verif.Lemmas.Fresh
/-!
# Lemmas about clients that collect the page
-/

namespace SMC.Http

/-- There was a copy and no reset behind it. -/
def opened (o : Bool) : List SysPoint → Bool
  | [] => o
  | .pt (.effect _ .copy _) :: h => opened true h
  | .pt (.effect _ .reset _) :: h => opened false h
  | _ :: h => opened o h

theorem outside_append (o : Bool) (h k : List SysPoint) : outside o (h ++ k) = outside o h ++ outside (opened o h) k := by
  induction h generalizing o with
  | nil => rfl
  | cons p h ih =>
    rcases p with (e | ⟨u, op, v⟩) | ⟨u, w⟩
    · simpa only [List.cons_append, outside, opened] using ih o
    · cases op with
      | write p => simp only [List.cons_append, outside, opened, ih]; split <;> simp
      | _ => simp only [List.cons_append, outside, opened, ih]
    · simpa only [List.cons_append, outside, opened] using ih o

theorem opened_append (o : Bool) (h k : List SysPoint) : opened o (h ++ k) = opened (opened o h) k := by
  induction h generalizing o with
  | nil => rfl
  | cons p h ih =>
    rcases p with (e | ⟨u, op, v⟩) | ⟨u, w⟩
    · simpa only [List.cons_append, opened] using ih o
    · cases op <;> simp only [List.cons_append, opened, ih]
    · simpa only [List.cons_append, opened] using ih o

theorem collected_append (a b : List SysEvent) : collected (a ++ b) = collected a ++ collected b := List.flatMap_append

/-- Everything written is in the responses, in the buffer, or was written in a window. -/
def Closed (h : List SysPoint) : Prop :=
  opened false h = false ∧ collected (observed h) ++ contentsAfter h = outside false h

/-- In a window: with `x`, the responses have everything that was written outside of windows. -/
def Opened (x : Bytes) (h : List SysPoint) : Prop :=
  opened false h = true ∧ collected (observed h) ++ x = outside false h

/-- The last copy of goroutine `t` was `x`. -/
def LastCopy (h : List SysPoint) (t : Nat) (x : Bytes) : Prop :=
  ∃ a b, h = a ++ .pt (.effect t .copy (.copied x)) :: b ∧ ∀ v, .pt (.effect t .copy v) ∉ b

theorem LastCopy.unique {h : List SysPoint} {t : Nat} {x x' : Bytes} (k : LastCopy h t x) (k' : LastCopy h t x') : x = x' := by
  obtain ⟨a, b, e, n⟩ := k
  obtain ⟨a', b', e', n'⟩ := k'
  rw [e] at e'
  rcases List.append_eq_append_iff.1 e' with ⟨c, e1, e2⟩ | ⟨c, e1, e2⟩
  · cases c with
    | nil =>
      simp only [List.nil_append, List.cons.injEq, SysPoint.pt.injEq, Point.effect.injEq, Val.copied.injEq, true_and] at e2
      exact e2.1
    | cons p c =>
      simp only [List.cons_append, List.cons.injEq] at e2
      exact absurd (e2.2 ▸ List.mem_append_right c (List.mem_cons_self ..)) (n _)
  · cases c with
    | nil =>
      simp only [List.nil_append, List.cons.injEq, SysPoint.pt.injEq, Point.effect.injEq, Val.copied.injEq, true_and] at e2
      exact e2.1.symm
    | cons p c =>
      simp only [List.cons_append, List.cons.injEq] at e2
      exact absurd (e2.2 ▸ List.mem_append_right c (List.mem_cons_self ..)) (n' _)

theorem AfterCopy.last {h : List SysPoint} {t : Nat} {x : Bytes} (k : AfterCopy h t x) : LastCopy h t x := by
  obtain ⟨a, b, e, n⟩ := k
  refine ⟨a, b, e, fun v m => ?_⟩
  have := n _ m
  simp [SysPoint.apart] at this

theorem LastCopy.more {h : List SysPoint} {t : Nat} {x : Bytes} (k : LastCopy h t x) {p : SysPoint}
    (hp : ∀ v, p ≠ .pt (.effect t .copy v)) : LastCopy (h ++ [p]) t x := by
  obtain ⟨a, b, rfl, n⟩ := k
  refine ⟨a, b ++ [p], by simp, fun v m => ?_⟩
  rcases List.mem_append.1 m with m | m
  · exact n v m
  · exact hp v (List.mem_singleton.1 m).symm

/-- Neither in `CopyBuffer` nor in `Reset`. -/
def Phase.other (ph : Phase) : Prop :=
  ph ≠ .called .copy ∧ ph ≠ .called .reset ∧ (∀ x, ph ≠ .answered (.copied x)) ∧ ph ≠ .answered .wasReset

/-- All goroutines but those in `ts` are neither in `CopyBuffer` nor in `Reset`. -/
def Others (h : List SysPoint) (ts : List Nat) : Prop := ∀ u, u ∉ ts → ∀ ph, phase u (points h) = some ph → ph.other

/-- What holds where the client is. -/
def PollOK (h : List SysPoint) : Poll → Prop
  | .rest => Others h [] ∧ Closed h
  | .asked t => Others h [t] ∧ ((phase t (points h) = some (.called .copy) ∧ Closed h) ∨
      ∃ x, phase t (points h) = some (.answered (.copied x)) ∧ Opened x h ∧ LastCopy h t x)
  | .copied t x => Others h [] ∧ Opened x h ∧ LastCopy h t x
  | .sent t => Others h [t] ∧ ((Others h [] ∧ Opened [] h) ∨ (phase t (points h) = some (.called .reset) ∧ Opened [] h) ∨
      (phase t (points h) = some (.answered .wasReset) ∧ Closed h))

theorem points_snoc (h : List SysPoint) (p : Point) : points (h ++ [.pt p]) = points h ++ [p] := points_append ..

theorem Closed.seen {h : List SysPoint} (k : Closed h) (e : Event) : Closed (h ++ [.pt (.seen e)]) := by
  refine ⟨?_, ?_⟩
  · rw [opened_append, k.1]; rfl
  · rw [observed_append, collected_append, outside_append, contentsAfter_seen, k.1]
    simpa [observed, collected, outside] using k.2

theorem Opened.seen {h : List SysPoint} {x : Bytes} (k : Opened x h) (e : Event) : Opened x (h ++ [.pt (.seen e)]) := by
  refine ⟨?_, ?_⟩
  · rw [opened_append, k.1]; rfl
  · rw [observed_append, collected_append, outside_append, k.1]
    simpa [observed, collected, outside] using k.2

/-- Goroutine `u` moves from `ph` to `ph'`, the others stay. -/
theorem phase_moves {h : List SysPoint} {p : Point} {u : Nat} (hs : (phase u (points (h ++ [.pt p]))).isSome)
    (hp : ∀ t ph, t ≠ u → Phase.next t ph p = some ph) :
    ∃ ph ph', phase u (points h) = some ph ∧ Phase.next u ph p = some ph' ∧ phase u (points (h ++ [.pt p])) = some ph' ∧
      ∀ t, t ≠ u → phase t (points (h ++ [.pt p])) = phase t (points h) := by
  rw [points_snoc] at hs ⊢
  rw [phase_snoc] at hs ⊢
  cases e : phase u (points h) with
  | none => rw [e] at hs; cases hs
  | some ph =>
    rw [e] at hs
    obtain ⟨ph', e'⟩ := Option.isSome_iff_exists.1 hs
    refine ⟨ph, ph', rfl, e', e', fun t ht => ?_⟩
    rw [phase_snoc]
    cases phase t (points h) with
    | none => rfl
    | some q => exact hp t q ht

theorem Others.move {h k : List SysPoint} {ts : List Nat} {u : Nat} (o : Others h ts)
    (hu : u ∈ ts ∨ ∀ ph, phase u (points k) = some ph → ph.other)
    (hp : ∀ t, t ≠ u → phase t (points k) = phase t (points h)) : Others k ts := by
  intro t ht ph e
  by_cases c : t = u
  · subst c
    rcases hu with hu | hu
    · exact absurd hu ht
    · exact hu ph e
  · rw [hp t c] at e
    exact o t ht ph e

theorem Others.join {h : List SysPoint} {t : Nat} (o : Others h [t]) (k : ∀ ph, phase t (points h) = some ph → ph.other) :
    Others h [] := by
  intro u _ ph e
  by_cases c : u = t
  · subst c
    exact k ph e
  · exact o u (by simpa using c) ph e

theorem Others.mono {h : List SysPoint} {ts : List Nat} (o : Others h []) : Others h ts := fun u _ ph e => o u (by simp) ph e

theorem PollOK.step {h : List SysPoint} {p : SysPoint} {s s' : Poll} (k : PollOK h s)
    (ho : (observed [p]).foldlM Poll.next s = some s') (hs : ∀ t, (phase t (points (h ++ [p]))).isSome)
    (hv : ∀ t op v, p = .pt (.effect t op v) → v = answer (opsIn h) op)
    (hr : ∀ t w, p = .response t w → ∃ x, AfterCopy h t x ∧ w <+: x) : PollOK (h ++ [p]) s' := by
  rcases p with (e | ⟨u, op, v⟩) | ⟨u, w⟩
  · simp only [observed, List.filterMap_cons, List.filterMap_nil, List.foldlM_cons, List.foldlM_nil] at ho
    have ho : Poll.next s (.buf e) = some s' := by
      cases hn : Poll.next s (.buf e) with
      | none => rw [hn] at ho; cases ho
      | some q => rw [hn] at ho; exact ho
    cases e with
    | call u op =>
      obtain ⟨ph, ph', h1, h2, h3, h4⟩ := phase_moves (u := u) (hs u) fun t ph ht => by simp [Phase.next, Ne.symm ht]
      simp only [Phase.next, if_true] at h2
      split at h2
      · rename_i hi
        subst hi
        cases h2
        -- calls of `Write`
        have wr : (Phase.called op).other → s' = s → PollOK (h ++ [.pt (.seen (.call u op))]) s' := by
          rintro hq rfl
          have hu : ∀ ph, phase u (points (h ++ [.pt (.seen (.call u op))])) = some ph → ph.other := by
            intro ph e
            rw [h3] at e
            cases e
            exact hq
          cases s' with
          | rest => exact ⟨k.1.move (.inr hu) h4, k.2.seen _⟩
          | asked t =>
            have ht : t ≠ u := by
              rintro rfl
              rcases k.2 with ⟨c, _⟩ | ⟨x, c, _⟩ <;> (rw [h1] at c; cases c)
            refine ⟨k.1.move (.inr hu) h4, ?_⟩
            rw [h4 t ht]
            rcases k.2 with ⟨c, d⟩ | ⟨x, c, d, f⟩
            · exact .inl ⟨c, d.seen _⟩
            · exact .inr ⟨x, c, d.seen _, f.more (by simp)⟩
          | copied t x => exact ⟨k.1.move (.inr hu) h4, k.2.1.seen _, k.2.2.more (by simp)⟩
          | sent t =>
            refine ⟨k.1.move (.inr hu) h4, ?_⟩
            rcases k.2 with ⟨c, d⟩ | ⟨c, d⟩ | ⟨c, d⟩
            · exact .inl ⟨c.move (.inr hu) h4, d.seen _⟩
            · have ht : t ≠ u := by
                rintro rfl
                rw [h1] at c
                cases c
              rw [h4 t ht]
              exact .inr (.inl ⟨c, d.seen _⟩)
            · have ht : t ≠ u := by
                rintro rfl
                rw [h1] at c
                cases c
              rw [h4 t ht]
              exact .inr (.inr ⟨c, d.seen _⟩)
        cases op with
        | write p =>
          refine wr (by simp [Phase.other]) ?_
          cases s <;> simpa [Poll.next] using ho.symm
        | fail p =>
          refine wr (by simp [Phase.other]) ?_
          cases s <;> simpa [Poll.next] using ho.symm
        | copy =>
          cases s with
          | rest =>
            cases ho
            refine ⟨fun t ht ph e => ?_, .inl ⟨h3, k.2.seen _⟩⟩
            rw [h4 t (by simpa using ht)] at e
            exact k.1 t (by simp) ph e
          | _ => cases ho
        | reset =>
          cases s with
          | sent t =>
            simp only [Poll.next] at ho
            split at ho
            · rename_i e
              subst e
              cases ho
              refine ⟨k.1.move (.inl (by simp)) h4, ?_⟩
              rcases k.2 with ⟨c, d⟩ | ⟨c, d⟩ | ⟨c, d⟩
              · exact .inr (.inl ⟨h3, d.seen _⟩)
              · rw [h1] at c; cases c
              · rw [h1] at c; cases c
            · cases ho
          | _ => cases ho
      · cases h2
    | ret u v =>
      obtain ⟨ph, ph', h1, h2, h3, h4⟩ := phase_moves (u := u) (hs u) fun t ph ht => by simp [Phase.next, Ne.symm ht]
      simp only [Phase.next, if_true] at h2
      split at h2
      · rename_i hi
        subst hi
        cases h2
        have hu : ∀ ph, phase u (points (h ++ [.pt (.seen (.ret u v))])) = some ph → ph.other := by
          intro ph e
          rw [h3] at e
          cases e
          simp [Phase.other]
        cases s with
        | rest =>
          have : s' = .rest := by cases v <;> simpa [Poll.next] using ho.symm
          subst this
          exact ⟨k.1.move (.inr hu) h4, k.2.seen _⟩
        | asked t =>
          by_cases ht : u = t
          · subst ht
            rcases k.2 with ⟨c, d⟩ | ⟨x, c, d, f⟩
            · rw [h1] at c; cases c
            · rw [h1] at c
              cases c
              simp only [Poll.next, if_true, Option.some.injEq] at ho
              subst ho
              exact ⟨(k.1.move (.inr hu) h4).join hu, d.seen _, f.more (by simp)⟩
          · have : s' = .asked t := by cases v <;> simpa [Poll.next, ht] using ho.symm
            subst this
            refine ⟨k.1.move (.inr hu) h4, ?_⟩
            rw [h4 t (Ne.symm ht)]
            rcases k.2 with ⟨c, d⟩ | ⟨x, c, d, f⟩
            · exact .inl ⟨c, d.seen _⟩
            · exact .inr ⟨x, c, d.seen _, f.more (by simp)⟩
        | copied t x =>
          have : s' = .copied t x := by cases v <;> simpa [Poll.next] using ho.symm
          subst this
          exact ⟨k.1.move (.inr hu) h4, k.2.1.seen _, k.2.2.more (by simp)⟩
        | sent t =>
          by_cases ht : u = t
          · subst ht
            rcases k.2 with ⟨c, d⟩ | ⟨c, d⟩ | ⟨c, d⟩
            · have hv' : v ≠ .wasReset := fun e => (c u (by simp) _ h1).2.2.2 (by rw [e])
              have : s' = .sent u := by
                cases v <;> first | exact absurd rfl hv' | simpa [Poll.next] using ho.symm
              subst this
              exact ⟨k.1.move (.inr hu) h4, .inl ⟨c.move (.inr hu) h4, d.seen _⟩⟩
            · rw [h1] at c; cases c
            · rw [h1] at c
              cases c
              simp only [Poll.next, if_true, Option.some.injEq] at ho
              subst ho
              exact ⟨(k.1.move (.inr hu) h4).join hu, d.seen _⟩
          · have : s' = .sent t := by cases v <;> simpa [Poll.next, ht] using ho.symm
            subst this
            refine ⟨k.1.move (.inr hu) h4, ?_⟩
            rw [h4 t (Ne.symm ht)]
            rcases k.2 with ⟨c, d⟩ | ⟨c, d⟩ | ⟨c, d⟩
            · exact .inl ⟨c.move (.inr hu) h4, d.seen _⟩
            · exact .inr (.inl ⟨c, d.seen _⟩)
            · exact .inr (.inr ⟨c, d.seen _⟩)
      · cases h2
  · obtain rfl : s = s' := by
      simpa [observed] using ho
    obtain ⟨ph, ph', h1, h2, h3, h4⟩ := phase_moves (u := u) (hs u) fun t ph ht => by simp [Phase.next, Ne.symm ht]
    have hv := hv u op v rfl
    simp only [Phase.next, if_true] at h2
    split at h2
    · rename_i hi
      subst hi
      cases h2
      have hob : observed (h ++ [.pt (.effect u op v)]) = observed h := by simp [observed]
      have hop : contentsAfter (h ++ [.pt (.effect u op v)]) = since (opsIn h ++ [op]) := by
        simp only [contentsAfter, opsIn_append]; rfl
      -- effects of `Write`
      have wr : (Phase.called op).other → (Phase.answered v).other → opened false (h ++ [.pt (.effect u op v)]) = opened false h →
          outside false (h ++ [.pt (.effect u op v)]) =
            outside false h ++ (if opened false h then [] else op.payload) →
          contentsAfter (h ++ [.pt (.effect u op v)]) = contentsAfter h ++ op.payload →
          (∀ t v', SysPoint.pt (.effect u op v) ≠ .pt (.effect t .copy v')) →
          PollOK (h ++ [.pt (.effect u op v)]) s := by
        intro ho1 ho2 a1 a2 a3 a4
        have hu : ∀ ph, phase u (points (h ++ [.pt (.effect u op v)])) = some ph → ph.other := by
          intro ph e
          rw [h3] at e
          cases e
          exact ho2
        have hC : Closed h → Closed (h ++ [.pt (.effect u op v)]) := by
          rintro ⟨b1, b2⟩
          refine ⟨a1.trans b1, ?_⟩
          rw [hob, a2, a3, b1, ← List.append_assoc, b2]
          simp
        have hO : ∀ x, Opened x h → Opened x (h ++ [.pt (.effect u op v)]) := by
          rintro x ⟨b1, b2⟩
          refine ⟨a1.trans b1, ?_⟩
          rw [hob, a2, b1, b2]
          simp
        cases s with
        | rest => exact ⟨k.1.move (.inr hu) h4, hC k.2⟩
        | asked t =>
          have ht : t ≠ u := by
            rintro rfl
            rcases k.2 with ⟨c, _⟩ | ⟨x, c, _⟩
            · rw [h1] at c
              exact ho1.1 (Option.some.inj c)
            · rw [h1] at c; cases c
          refine ⟨k.1.move (.inr hu) h4, ?_⟩
          rw [h4 t ht]
          rcases k.2 with ⟨c, d⟩ | ⟨x, c, d, f⟩
          · exact .inl ⟨c, hC d⟩
          · exact .inr ⟨x, c, hO x d, f.more (a4 t)⟩
        | copied t x => exact ⟨k.1.move (.inr hu) h4, hO x k.2.1, k.2.2.more (a4 t)⟩
        | sent t =>
          refine ⟨k.1.move (.inr hu) h4, ?_⟩
          rcases k.2 with ⟨c, d⟩ | ⟨c, d⟩ | ⟨c, d⟩
          · exact .inl ⟨c.move (.inr hu) h4, hO _ d⟩
          · have ht : t ≠ u := by
              rintro rfl
              rw [h1] at c
              exact ho1.2.1 (Option.some.inj c)
            rw [h4 t ht]
            exact .inr (.inl ⟨c, hO _ d⟩)
          · have ht : t ≠ u := by
              rintro rfl
              rw [h1] at c
              cases c
            rw [h4 t ht]
            exact .inr (.inr ⟨c, hC d⟩)
      cases op with
      | write p =>
        subst hv
        refine wr (by simp [Phase.other]) (by simp [Phase.other, answer]) (by rw [opened_append]; rfl) ?_ ?_ (by simp)
        · rw [outside_append]
          simp [outside, Op.payload]
        · rw [hop, since_write]; rfl
      | fail p =>
        subst hv
        refine wr (by simp [Phase.other]) (by simp [Phase.other, answer]) (by rw [opened_append]; rfl) ?_ ?_ (by simp)
        · rw [outside_append]
          simp [outside, Op.payload]
        · rw [hop, since_fail]
          simp [contentsAfter, Op.payload]
      | copy =>
        -- only the goroutine that was asked copies
        cases s with
        | asked t =>
          have ht : u = t := Classical.byContradiction fun c => (k.1 u (by simpa using c) _ h1).1 rfl
          subst ht
          rcases k.2 with ⟨c, d1, d2⟩ | ⟨x, c, _⟩
          · subst hv
            refine ⟨k.1.move (.inl (by simp)) h4, .inr ⟨contentsAfter h, h3, ⟨?_, ?_⟩, h, [], rfl, by simp⟩⟩
            · rw [opened_append]; rfl
            · rw [hob, outside_append, d2]
              simp [outside]
          · rw [h1] at c; cases c
        | rest => exact absurd rfl (k.1 u (by simp) _ h1).1
        | copied t x => exact absurd rfl (k.1 u (by simp) _ h1).1
        | sent t =>
          exfalso
          by_cases ht : u = t
          · subst ht
            rcases k.2 with ⟨c, d⟩ | ⟨c, d⟩ | ⟨c, d⟩
            · exact (c u (by simp) _ h1).1 rfl
            · rw [h1] at c; cases c
            · rw [h1] at c; cases c
          · exact (k.1 u (by simpa using ht) _ h1).1 rfl
      | reset =>
        cases s with
        | sent t =>
          have ht : u = t := Classical.byContradiction fun c => (k.1 u (by simpa using c) _ h1).2.1 rfl
          subst ht
          rcases k.2 with ⟨c, d⟩ | ⟨c, d1, d2⟩ | ⟨c, d⟩
          · exact absurd rfl (c u (by simp) _ h1).2.1
          · subst hv
            refine ⟨k.1.move (.inl (by simp)) h4, .inr (.inr ⟨h3, ?_, ?_⟩)⟩
            · rw [opened_append]; rfl
            · rw [hob, outside_append, hop, since_reset, d2]
              simp [outside]
          · rw [h1] at c; cases c
        | rest => exact absurd rfl (k.1 u (by simp) _ h1).2.1
        | copied t x => exact absurd rfl (k.1 u (by simp) _ h1).2.1
        | asked t =>
          exfalso
          by_cases ht : u = t
          · subst ht
            rcases k.2 with ⟨c, d⟩ | ⟨x, c, d⟩
            · rw [h1] at c; cases c
            · rw [h1] at c; cases c
          · exact (k.1 u (by simpa using ht) _ h1).2.1 rfl
    · cases h2
  · have ho : Poll.next s (.response u w) = some s' := by
      simp only [observed, List.filterMap_cons, List.filterMap_nil, List.foldlM_cons, List.foldlM_nil] at ho
      cases hn : Poll.next s (.response u w) with
      | none => rw [hn] at ho; cases ho
      | some q => rw [hn] at ho; exact ho
    cases s with
    | copied t x =>
      simp only [Poll.next] at ho
      split at ho
      · rename_i hl
        obtain ⟨rfl, hl⟩ := hl
        cases ho
        obtain ⟨x', ac, pf⟩ := hr u w rfl
        obtain rfl := ac.last.unique k.2.2
        obtain rfl := pf.eq_of_length hl
        have hp : points (h ++ [.response u w]) = points h := by
          rw [points_append]
          exact List.append_nil _
        have oth : Others (h ++ [.response u w]) [] := by
          intro t ht ph e
          rw [hp] at e
          exact k.1 t ht ph e
        refine ⟨oth.mono, .inl ⟨oth, ?_, ?_⟩⟩
        · rw [opened_append, k.2.1.1]; rfl
        · rw [observed_append, collected_append, outside_append, ← k.2.1.2]
          simp [observed, collected, outside]
      · cases ho
    | _ => cases ho

theorem PollOK.all {h : List SysPoint} (hs : ∀ t, (phase t (points h)).isSome) (hl : Legal (effects (points h)))
    (hr : ∀ a b t w, h = a ++ .response t w :: b → phase t (points a) = some .idle ∧ ∃ x, AfterCopy a t x ∧ w <+: x) :
    ∀ a b s, h = a ++ b → polled (observed a) = some s → PollOK a s := by
  intro a
  induction a using snocRec with
  | nil =>
    intro b s _ e
    cases e
    refine ⟨fun u _ ph e => ?_, rfl, rfl⟩
    cases e
    simp [Phase.other]
  | snoc a p ih =>
    intro b s e hp
    subst e
    rw [polled, observed_append, List.foldlM_append] at hp
    obtain ⟨s0, h0, h1⟩ := Option.bind_eq_some_iff.1 hp
    refine (ih (p :: b) s0 (by simp) h0).step h1 (fun t => ?_) ?_ ?_
    · have := hs t
      rw [points_append] at this
      exact phase_prefix this
    · rintro t op v rfl
      have e : (effects (points (a ++ [.pt (.effect t op v)] ++ b)))[(effects (points a)).length]? = some (op, v) := by
        simp [points, effects]
      have := hl _ op v e
      rw [this]
      simp [points_append, effects_append, opsIn]
    · rintro t w rfl
      exact (hr a b t w (by simp)).2

/-- The bytes written outside of windows are all that were written if none were written in one. -/
theorem outside_inside (o : Bool) (h : List SysPoint) :
    (outside o h).length + (inside o h).length = (written h).length ∧ (inside o h = [] → outside o h = written h) := by
  induction h generalizing o with
  | nil => exact ⟨rfl, fun _ => rfl⟩
  | cons p h ih =>
    rcases p with (e | ⟨u, op, v⟩) | ⟨u, w⟩
    · exact ih o
    · cases op with
      | write p =>
        have e : written (.pt (.effect u (.write p) v) :: h) = p ++ written h := rfl
        rw [e]
        cases o with
        | true =>
          simp only [outside, inside, if_true]
          refine ⟨by have := (ih true).1; simp only [List.length_append]; omega, fun hi => ?_⟩
          obtain ⟨rfl, hi⟩ := List.append_eq_nil_iff.1 hi
          exact (ih true).2 hi
        | false =>
          simp only [outside, inside, Bool.false_eq_true, if_false]
          refine ⟨by have := (ih false).1; simp only [List.length_append]; omega, fun hi => ?_⟩
          rw [(ih false).2 hi]
      | fail p => exact ih o
      | copy => exact ih true
      | reset => exact ih false
    · exact ih o

theorem inside_append (o : Bool) (h k : List SysPoint) : inside o (h ++ k) = inside o h ++ inside (opened o h) k := by
  induction h generalizing o with
  | nil => rfl
  | cons p h ih =>
    rcases p with (e | ⟨u, op, v⟩) | ⟨u, w⟩
    · simpa only [List.cons_append, inside, opened] using ih o
    · cases op with
      | write p => simp only [List.cons_append, inside, opened, ih]; split <;> simp
      | _ => simp only [List.cons_append, inside, opened, ih]
    · simpa only [List.cons_append, inside, opened] using ih o

theorem given_append (a b : List SysEvent) : given (a ++ b) = given a ++ given b := List.flatMap_append

theorem written_append (a b : List SysPoint) : written (a ++ b) = written a ++ written b := by
  simp [written, opsIn_append]

/-- The writer's steps are also those of the client. -/
theorem Poll.next_of_calm {w : Nat} {s s' : Poll} {b b' : Bool} {e : SysEvent} (h : Poll.calm w (s, b) e = some (s', b')) :
    s.next e = some s' := by
  rcases e with (⟨u, op⟩ | ⟨u, v⟩) | ⟨u, y⟩
  · cases op with
    | copy =>
      simp only [Poll.calm] at h
      split at h
      · cases h
      · obtain ⟨q, h1, h2⟩ := Option.map_eq_some_iff.1 h
        cases h2
        exact h1
    | reset =>
      obtain ⟨q, h1, h2⟩ := Option.map_eq_some_iff.1 h
      cases h2
      exact h1
    | _ =>
      simp only [Poll.calm] at h
      split at h
      · cases h
        cases s <;> rfl
      · cases h
  · cases v with
    | wrote n => cases h; cases s <;> rfl
    | failed => cases h; cases s <;> rfl
    | _ =>
      obtain ⟨q, h1, h2⟩ := Option.map_eq_some_iff.1 h
      cases h2
      exact h1
  · obtain ⟨q, h1, h2⟩ := Option.map_eq_some_iff.1 h
    cases h2
    exact h1

theorem polled_of_calm {w : Nat} {es : List SysEvent} {s : Poll} {b : Bool} (h : calm w es = some (s, b)) :
    polled es = some s := by
  have : ∀ (es : List SysEvent) s0 b0, es.foldlM (Poll.calm w) (s0, b0) = some (s, b) → es.foldlM Poll.next s0 = some s := by
    intro es
    induction es with
    | nil => intro s0 b0 h; cases h; rfl
    | cons e es ih =>
      intro s0 b0 h
      obtain ⟨⟨s1, b1⟩, h1, h2⟩ := Option.bind_eq_some_iff.1 h
      rw [List.foldlM_cons, Poll.next_of_calm h1]
      exact ih _ _ h2
  exact this _ _ _ h

/-- What the writer is about to write. -/
def Phase.pending : Phase → Bytes
  | .called (.write p) => p
  | _ => []

/-- What holds where the client and the writer `w` are. -/
structure CalmOK (w : Nat) (h : List SysPoint) (s : Poll) (b : Bool) : Prop where
  others : ∀ u, u ≠ w → ∀ p, phase u (points h) ≠ some (.called (.write p))
  writes : ∀ p, phase w (points h) = some (.called (.write p)) → b = true
  rest : b = true → s = .rest
  none : inside false h = []
  bytes : ∀ ph, phase w (points h) = some ph → given (observed h) = written h ++ ph.pending

theorem CalmOK.step {w : Nat} {h : List SysPoint} {p : SysPoint} {s s' : Poll} {b b' : Bool} (c : CalmOK w h s b)
    (k : PollOK h s) (ho : (observed [p]).foldlM (Poll.calm w) (s, b) = some (s', b'))
    (hs : ∀ t, (phase t (points (h ++ [p]))).isSome) : CalmOK w (h ++ [p]) s' b' := by
  rcases p with (e | ⟨u, op, v⟩) | ⟨u, y⟩
  · have ho : Poll.calm w (s, b) (.buf e) = some (s', b') := by
      obtain ⟨q, h1, h2⟩ := Option.bind_eq_some_iff.1 ho
      cases h2
      exact h1
    have hi : inside false (h ++ [.pt (.seen e)]) = [] := by
      rw [inside_append, c.none]; rfl
    have hw : written (h ++ [.pt (.seen e)]) = written h := by
      rw [written_append]; exact List.append_nil _
    have hg : given (observed (h ++ [.pt (.seen e)])) = given (observed h) ++ given [.buf e] := by
      rw [observed_append, given_append]; rfl
    cases e with
    | call u op =>
      obtain ⟨ph, ph', h1, h2, h3, h4⟩ := phase_moves (u := u) (hs u) fun t ph ht => by simp [Phase.next, Ne.symm ht]
      simp only [Phase.next, if_true] at h2
      split at h2
      · rename_i hi'
        subst hi'
        cases h2
        -- the calls of the writer
        have wr : u = w → s' = .rest → b' = true → CalmOK w (h ++ [.pt (.seen (.call u op))]) s' b' := by
          rintro rfl rfl rfl
          refine ⟨fun t ht p => ?_, fun _ _ => rfl, fun _ => rfl, hi, fun ph e => ?_⟩
          · rw [h4 t ht]
            exact c.others t ht p
          · rw [h3] at e
            cases e
            rw [hg, hw, c.bytes _ h1]
            cases op <;> simp [given, Phase.pending, Op.payload]
        -- the calls of the others
        have ot : (∀ p, op ≠ .write p) → (∀ p, op ≠ .fail p) → b' = b → (b' = true → s' = .rest) →
            CalmOK w (h ++ [.pt (.seen (.call u op))]) s' b' := by
          rintro n1 n2 rfl hr
          refine ⟨fun t ht p => ?_, fun p e => ?_, hr, hi, fun ph e => ?_⟩
          · by_cases htu : t = u
            · subst htu
              rw [h3]
              simpa using n1 p
            · rw [h4 t htu]
              exact c.others t ht p
          · by_cases htu : w = u
            · subst htu
              rw [h3] at e
              simp only [Option.some.injEq, Phase.called.injEq] at e
              exact absurd e (n1 p)
            · rw [h4 w htu] at e
              exact c.writes p e
          · rw [hg, hw]
            have hp : given [.buf (.call u op)] = [] := by
              cases op with
              | write p => exact absurd rfl (n1 p)
              | _ => rfl
            rw [hp, List.append_nil]
            by_cases htu : w = u
            · subst htu
              rw [h3] at e
              cases e
              rw [c.bytes _ h1]
              cases op with
              | write p => exact absurd rfl (n1 p)
              | _ => rfl
            · rw [h4 w htu] at e
              exact c.bytes ph e
        cases op with
        | write p =>
          simp only [Poll.calm] at ho
          split at ho
          · rename_i hc
            cases ho
            exact wr hc.1 hc.2 rfl
          · cases ho
        | fail p =>
          simp only [Poll.calm] at ho
          split at ho
          · rename_i hc
            cases ho
            exact wr hc.1 hc.2 rfl
          · cases ho
        | copy =>
          simp only [Poll.calm] at ho
          split at ho
          · cases ho
          · rename_i hb
            obtain ⟨q, e1, e2⟩ := Option.map_eq_some_iff.1 ho
            cases e2
            exact ot (by simp) (by simp) rfl fun e => absurd e hb
        | reset =>
          simp only [Poll.calm] at ho
          obtain ⟨q, e1, e2⟩ := Option.map_eq_some_iff.1 ho
          cases e2
          refine ot (by simp) (by simp) rfl fun e => ?_
          rw [c.rest e] at e1
          cases e1
      · cases h2
    | ret u v =>
      obtain ⟨ph, ph', h1, h2, h3, h4⟩ := phase_moves (u := u) (hs u) fun t ph ht => by simp [Phase.next, Ne.symm ht]
      simp only [Phase.next, if_true] at h2
      split at h2
      · rename_i hi'
        subst hi'
        cases h2
        have hq : Poll.next s (.buf (.ret u v)) = some s' := Poll.next_of_calm ho
        have hb : b' = true → b = true := by
          cases v <;> simp only [Poll.calm] at ho
          · cases ho; simp +contextual
          · cases ho; simp +contextual
          all_goals
            obtain ⟨q, e1, e2⟩ := Option.map_eq_some_iff.1 ho
            cases e2
            exact id
        have hr : b' = true → s' = .rest := by
          intro e
          have := c.rest (hb e)
          subst this
          cases v <;> (cases hq; rfl)
        refine ⟨fun t ht p => ?_, fun p e => ?_, hr, hi, fun ph e => ?_⟩
        · by_cases htu : t = u
          · subst htu
            rw [h3]
            simp
          · rw [h4 t htu]
            exact c.others t ht p
        · by_cases htu : w = u
          · subst htu
            rw [h3] at e
            cases e
          · rw [h4 w htu] at e
            have hbt := c.writes p e
            cases v with
            | wrote n => cases ho; simp [hbt, Ne.symm htu]
            | failed => cases ho; simp [hbt, Ne.symm htu]
            | copied x =>
              simp only [Poll.calm] at ho
              obtain ⟨q, e1, e2⟩ := Option.map_eq_some_iff.1 ho
              cases e2
              exact hbt
            | wasReset =>
              simp only [Poll.calm] at ho
              obtain ⟨q, e1, e2⟩ := Option.map_eq_some_iff.1 ho
              cases e2
              exact hbt
        · rw [hg, hw]
          have : given [.buf (.ret u v)] = [] := rfl
          rw [this, List.append_nil]
          by_cases htu : w = u
          · subst htu
            rw [h3] at e
            cases e
            exact (c.bytes _ h1).trans rfl
          · rw [h4 w htu] at e
            exact c.bytes ph e
      · cases h2
  · cases ho
    obtain ⟨ph, ph', h1, h2, h3, h4⟩ := phase_moves (u := u) (hs u) fun t ph ht => by simp [Phase.next, Ne.symm ht]
    simp only [Phase.next, if_true] at h2
    split at h2
    · rename_i hi'
      subst hi'
      cases h2
      have hob : observed (h ++ [.pt (.effect u op v)]) = observed h := by simp [observed]
      have hw : written (h ++ [.pt (.effect u op v)]) = written h ++ op.payload := by
        rw [written_append]
        simp [written, opsIn, points, effects]
      refine ⟨fun t ht p => ?_, fun p e => ?_, c.rest, ?_, fun ph e => ?_⟩
      · by_cases htu : t = u
        · subst htu
          rw [h3]
          simp
        · rw [h4 t htu]
          exact c.others t ht p
      · by_cases htu : w = u
        · subst htu
          rw [h3] at e
          cases e
        · rw [h4 w htu] at e
          exact c.writes p e
      · rw [inside_append, c.none]
        cases op with
        | write p =>
          have hu : u = w := Classical.byContradiction fun n => c.others u n p h1
          subst hu
          have := c.rest (c.writes p h1)
          subst this
          rw [k.2.1]
          rfl
        | _ => rfl
      · rw [hob, hw]
        by_cases htu : w = u
        · subst htu
          rw [h3] at e
          cases e
          rw [c.bytes _ h1]
          cases op <;> simp [Phase.pending, Op.payload]
        · rw [h4 w htu] at e
          rw [c.bytes ph e]
          cases op with
          | write p => exact absurd h1 (c.others u (Ne.symm htu) p)
          | _ => simp [Op.payload]
    · cases h2
  · have ho : Poll.calm w (s, b) (.response u y) = some (s', b') := by
      obtain ⟨q, h1, h2⟩ := Option.bind_eq_some_iff.1 ho
      cases h2
      exact h1
    obtain ⟨q, e1, e2⟩ := Option.map_eq_some_iff.1 ho
    cases e2
    have hp : points (h ++ [.response u y]) = points h := by
      rw [points_append]
      exact List.append_nil _
    refine ⟨by rw [hp]; exact c.others, by rw [hp]; exact c.writes, fun e => ?_, ?_, fun ph e => ?_⟩
    · rw [c.rest e] at e1
      cases e1
    · rw [inside_append, c.none]
      rfl
    · rw [hp] at e
      rw [observed_append, given_append, written_append, c.bytes ph e]
      simp [given, observed, written, opsIn, points, effects]

theorem CalmOK.all {w : Nat} {h : List SysPoint} (hs : ∀ t, (phase t (points h)).isSome) (hl : Legal (effects (points h)))
    (hr : ∀ a b t w, h = a ++ .response t w :: b → phase t (points a) = some .idle ∧ ∃ x, AfterCopy a t x ∧ w <+: x) :
    ∀ a b s d, h = a ++ b → calm w (observed a) = some (s, d) → CalmOK w a s d := by
  intro a
  induction a using snocRec with
  | nil =>
    intro b s d _ e
    cases e
    exact ⟨fun _ _ _ e => by (cases e), fun _ e => by (cases e), fun e => by (cases e), rfl, fun _ e => by (cases e; rfl)⟩
  | snoc a p ih =>
    intro b s d e hp
    subst e
    rw [calm, observed_append, List.foldlM_append] at hp
    obtain ⟨⟨s0, d0⟩, h0, h1⟩ := Option.bind_eq_some_iff.1 hp
    refine (ih (p :: b) s0 d0 (by simp) h0).step
      (PollOK.all hs hl hr a (p :: b) s0 (by simp) (polled_of_calm h0)) h1 fun t => ?_
    have := hs t
    rw [points_append] at this
    exact phase_prefix this

end SMC.Http
