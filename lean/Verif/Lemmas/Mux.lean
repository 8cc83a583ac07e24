import Verif.Http.Mux
import Verif.Spec.Path
/-!
# path.Clean follows the names of a path
-/

namespace SMC.Http
open SMC.Spec

/-- what is written for a directory, reversed -/
def outRev : List Bytes → Bytes
  | [] => [0x2f]
  | [e] => e.reverse ++ [0x2f]
  | e :: d :: st => e.reverse ++ 0x2f :: outRev (d :: st)

theorem outRev_ne (st : List Bytes) : outRev st ≠ [] := by
  match st with
  | [] => simp [outRev]
  | [e] => simp [outRev]
  | e :: d :: st => simp [outRev]

theorem unwind_skip (x : Bytes) (hx : (0x2f : UInt8) ∉ x) (c : UInt8) (r : Bytes) : unwind (x ++ c :: r) = unwind (c :: r) := by
  induction x with
  | nil => rfl
  | cons b x ih =>
    simp only [List.mem_cons, not_or] at hx
    cases x with
    | nil => simp only [List.cons_append, List.nil_append, unwind, if_neg (Ne.symm hx.1)]
    | cons d x =>
      simp only [List.cons_append, unwind, if_neg (Ne.symm hx.1)]
      exact ih hx.2

theorem unwind_outRev (st : List Bytes) (h : ∀ e ∈ st, (0x2f : UInt8) ∉ e) : unwind (outRev st) = outRev st.tail := by
  match st with
  | [] => rfl
  | [e] =>
    have := h e (by simp)
    simp only [outRev, List.tail_cons]
    rw [unwind_skip _ (by simpa using this)]
    rfl
  | e :: d :: st =>
    have := h e (by simp)
    simp only [outRev, List.tail_cons]
    rw [unwind_skip _ (by simpa using this)]
    cases ho : outRev (d :: st) with
    | nil => exact absurd ho (outRev_ne _)
    | cons c r => simp only [unwind, if_true]

theorem outRev_push (e : Bytes) (st : List Bytes) (h : ∀ e ∈ st, e ≠ []) :
    (e.reverse ++ if (outRev st).length ≠ 1 then 0x2f :: outRev st else outRev st) = outRev (e :: st) := by
  match st with
  | [] => simp [outRev]
  | [d] =>
    have := h d (by simp)
    rw [if_pos]
    · simp [outRev]
    · have : d.length ≠ 0 := by simpa using this
      simp only [outRev, List.length_append, List.length_reverse, List.length_cons, List.length_nil]
      omega
  | d :: f :: st =>
    rw [if_pos]
    · simp [outRev]
    · have : (outRev (f :: st)).length ≠ 0 := by simpa using outRev_ne (f :: st)
      simp only [outRev, List.length_append, List.length_reverse, List.length_cons]
      omega

theorem cleanLoop_slash (n : Nat) (out s : Bytes) : cleanLoop (n + 1) out (0x2f :: s) = cleanLoop n out s := by
  simp only [cleanLoop, if_true]

theorem takeWhile_name {e : Bytes} (h : (0x2f : UInt8) ∉ e) (es : List Bytes) :
    (e ++ pathText es).takeWhile (fun b => decide (b ≠ 0x2f)) = e ∧ (e ++ pathText es).dropWhile (fun b => decide (b ≠ 0x2f)) = pathText es := by
  have p : ∀ b ∈ e, decide (b ≠ (0x2f : UInt8)) = true := by
    intro b m
    rw [decide_eq_true_eq]
    rintro rfl
    exact h m
  rw [List.takeWhile_append_of_pos p, List.dropWhile_append_of_pos p]
  cases es with
  | nil => simp [pathText]
  | cons f fs => simp [pathText]

theorem pathText_head (es : List Bytes) : pathText es = [] ∨ (pathText es).head? = some 0x2f := by
  cases es with
  | nil => exact .inl rfl
  | cons e es => exact .inr rfl

/-- a name, whatever it is, and the rest -/
theorem cleanLoop_names (es : List Bytes) (n : Nat) (st : List Bytes) (hn : (pathText es).length ≤ n)
    (he : ∀ e ∈ es, (0x2f : UInt8) ∉ e) (hs : ∀ e ∈ st, Name e) : cleanLoop n (outRev st) (pathText es) = outRev (walk st es) := by
  induction es generalizing n st with
  | nil => cases n <;> rfl
  | cons e es ih =>
    have he0 := he e List.mem_cons_self
    have he' : ∀ x ∈ es, (0x2f : UInt8) ∉ x := fun x m => he x (List.mem_cons_of_mem _ m)
    simp only [pathText, List.cons_append, List.length_cons, List.length_append] at hn ⊢
    obtain ⟨n, rfl⟩ : ∃ m, n = m + 1 := ⟨n - 1, by omega⟩
    rw [cleanLoop_slash]
    unfold walk
    by_cases c0 : e = []
    · subst c0
      rw [if_pos (.inl rfl)]
      exact ih n st (by simp at hn; omega) he' hs
    by_cases c1 : e = go! "."
    · subst c1
      rw [if_pos (.inr rfl)]
      simp only [List.length_cons, List.length_nil] at hn
      obtain ⟨n, rfl⟩ : ∃ m, n = m + 1 := ⟨n - 1, by omega⟩
      rw [show (go! ".") ++ pathText es = 0x2e :: pathText es from rfl]
      simp only [cleanLoop]
      rw [if_neg (by decide), if_pos ⟨trivial, pathText_head es⟩]
      exact ih n st (by omega) he' hs
    rw [if_neg (by simp [c0, c1])]
    by_cases c2 : e = go! ".."
    · subst c2
      rw [if_pos rfl]
      simp only [List.length_cons, List.length_nil] at hn
      obtain ⟨n, rfl⟩ : ∃ m, n = m + 1 := ⟨n - 1, by omega⟩
      rw [show (go! "..") ++ pathText es = 0x2e :: 0x2e :: pathText es from rfl]
      simp only [cleanLoop, List.head?_cons, List.tail_cons]
      rw [if_neg (by decide), if_neg (by simp), if_pos ⟨trivial, trivial, pathText_head es⟩,
        unwind_outRev _ fun e m => (hs e m).2.2.2]
      exact ih n _ (by omega) he' fun e m => hs e (List.mem_of_mem_tail m)
    rw [if_neg c2]
    cases e with
    | nil => exact absurd rfl c0
    | cons c e =>
      simp only [List.length_cons] at hn
      obtain ⟨n, rfl⟩ : ∃ m, n = m + 1 := ⟨n - 1, by omega⟩
      obtain ⟨t, d⟩ := takeWhile_name he0 es
      simp only [List.cons_append] at t d ⊢
      have hc : c ≠ 0x2f := by rintro rfl; exact he0 List.mem_cons_self
      simp only [cleanLoop, t, d]
      rw [if_neg hc, if_neg, if_neg, outRev_push _ _ fun e m => (hs e m).1]
      · refine ih n _ (by omega) he' fun x m => ?_
        rcases List.mem_cons.1 m with rfl | m
        · exact ⟨c0, c1, c2, he0⟩
        · exact hs x m
      · rintro ⟨rfl, h1, h2⟩
        cases e with
        | nil => exact absurd rfl c1
        | cons b e =>
          simp only [List.cons_append, List.head?_cons, Option.some.injEq, List.tail_cons] at h1 h2
          subst h1
          cases e with
          | nil => exact absurd rfl c2
          | cons a e =>
            rcases h2 with h2 | h2
            · cases h2
            · simp only [List.cons_append, List.head?_cons, Option.some.injEq] at h2
              subst h2
              simp at he0
      · rintro ⟨rfl, h1⟩
        cases e with
        | nil => exact absurd rfl c1
        | cons b e =>
          rcases h1 with h1 | h1
          · cases h1
          · simp only [List.cons_append, List.head?_cons, Option.some.injEq] at h1
            subst h1
            simp at he0

theorem pathText_append (a b : List Bytes) : pathText (a ++ b) = pathText a ++ pathText b := by
  induction a with
  | nil => rfl
  | cons e a ih => simp only [List.cons_append, pathText, ih, List.append_assoc]

theorem outRev_text (st : List Bytes) : (outRev st).reverse = if st = [] then [0x2f] else pathText st.reverse := by
  match st with
  | [] => rfl
  | [e] => simp [outRev, pathText]
  | e :: d :: st =>
    rw [if_neg (by simp), List.reverse_cons, pathText_append, outRev]
    have := outRev_text (d :: st)
    rw [if_neg (by simp)] at this
    simp [this, pathText]

theorem walk_names (es st : List Bytes) (he : ∀ e ∈ es, (0x2f : UInt8) ∉ e) (hs : ∀ e ∈ st, Name e) : ∀ e ∈ walk st es, Name e := by
  induction es generalizing st with
  | nil => exact hs
  | cons e es ih =>
    have he' : ∀ x ∈ es, (0x2f : UInt8) ∉ x := fun x m => he x (List.mem_cons_of_mem _ m)
    unfold walk
    split
    · exact ih st he' hs
    split
    · exact ih _ he' fun e m => hs e (List.mem_of_mem_tail m)
    · rename_i c1 c2
      refine ih _ he' fun x m => ?_
      rcases List.mem_cons.1 m with rfl | m
      · exact ⟨fun h => c1 (.inl h), fun h => c1 (.inr h), c2, he x List.mem_cons_self⟩
      · exact hs x m

theorem resolve_names {es : List Bytes} (he : ∀ e ∈ es, (0x2f : UInt8) ∉ e) : ∀ e ∈ resolve es, Name e := by
  intro e m
  exact walk_names es [] he (by simp) e (List.mem_reverse.1 m)

theorem walk_self (es st : List Bytes) (h : ∀ e ∈ es, Name e) : walk st es = es.reverse ++ st := by
  induction es generalizing st with
  | nil => rfl
  | cons e es ih =>
    have ⟨h1, h2, h3, _⟩ := h e List.mem_cons_self
    unfold walk
    rw [if_neg (by simp [h1, h2]), if_neg h3, ih _ fun x m => h x (List.mem_cons_of_mem _ m)]
    simp

theorem resolve_self {es : List Bytes} (h : ∀ e ∈ es, Name e) : resolve es = es := by
  simp [resolve, walk_self es [] h]

theorem walk_blank (es st : List Bytes) : walk st (es ++ [[]]) = walk st es := by
  induction es generalizing st with
  | nil => rfl
  | cons e es ih =>
    simp only [List.cons_append]
    unfold walk
    simp only [ih]

theorem pathClean_names (es : List Bytes) (h0 : es ≠ []) (he : ∀ e ∈ es, (0x2f : UInt8) ∉ e) :
    pathClean (pathText es) = if resolve es = [] then [0x2f] else pathText (resolve es) := by
  cases es with
  | nil => exact absurd rfl h0
  | cons e es =>
    have := cleanLoop_names (e :: es) ((pathText (e :: es)).length + 1) [] (by omega) he (by simp)
    have e1 : pathText (e :: es) = 0x2f :: (pathText (e :: es)).tail := rfl
    rw [e1, cleanLoop_slash] at this
    simp only [pathClean]
    rw [show (outRev [] : Bytes) = [0x2f] from rfl, ← e1] at this
    rw [this, outRev_text]
    simp [resolve]

theorem pathText_last (es : List Bytes) (he : ∀ e ∈ es, (0x2f : UInt8) ∉ e) :
    (pathText es).getLast? = some 0x2f ↔ es.getLast? = some [] := by
  rcases List.eq_nil_or_concat es with rfl | ⟨l, e, rfl⟩
  · simp [pathText]
  · have he := he e (by simp)
    rw [List.concat_eq_append, pathText_append, List.getLast?_append, List.getLast?_append]
    simp only [pathText, List.append_nil]
    rcases List.eq_nil_or_concat e with rfl | ⟨x, c, rfl⟩
    · simp
    · rw [List.concat_eq_append] at he ⊢
      rw [← List.cons_append, List.getLast?_append]
      simp only [List.mem_append, not_or, List.mem_singleton] at he
      simp [Ne.symm he.2]

theorem pathText_ne {es : List Bytes} (h : es ≠ []) : pathText es ≠ [] := by
  cases es with
  | nil => exact absurd rfl h
  | cons e es => simp [pathText]

/-- every text that begins with a slash is a path -/
theorem names_of (s : Bytes) : ∃ e es, s = e ++ pathText es ∧ ∀ x ∈ e :: es, (0x2f : UInt8) ∉ x := by
  induction s with
  | nil => exact ⟨[], [], rfl, by simp⟩
  | cons c s ih =>
    obtain ⟨e, es, rfl, h⟩ := ih
    by_cases hc : c = 0x2f
    · subst hc
      refine ⟨[], e :: es, rfl, fun x m => ?_⟩
      rcases List.mem_cons.1 m with rfl | m
      · simp
      · exact h x m
    · refine ⟨c :: e, es, rfl, fun x m => ?_⟩
      rcases List.mem_cons.1 m with rfl | m
      · simp only [List.mem_cons, not_or]
        exact ⟨Ne.symm hc, h e List.mem_cons_self⟩
      · exact h x (List.mem_cons_of_mem _ m)

theorem rooted_names (s : Bytes) : ∃ es, es ≠ [] ∧ 0x2f :: s = pathText es ∧ ∀ x ∈ es, (0x2f : UInt8) ∉ x := by
  obtain ⟨e, es, rfl, h⟩ := names_of s
  exact ⟨e :: es, by simp, by simp [pathText], h⟩

theorem canonical_text (es : List Bytes) : canonical es =
    if es.getLast? = some [] ∧ resolve es ≠ [] then pathText (resolve es) ++ [0x2f] else if resolve es = [] then [0x2f] else pathText (resolve es) := by
  unfold canonical
  by_cases c : resolve es = []
  · simp [c]
  · by_cases d : es.getLast? = some []
    · simp [c, d, pathText_append, pathText]
    · simp [c, d]

theorem cleanPath_names (es : List Bytes) (h0 : es ≠ []) (he : ∀ e ∈ es, (0x2f : UInt8) ∉ e) : cleanPath (pathText es) = canonical es := by
  unfold cleanPath
  have hh : (pathText es).head? = some 0x2f := by
    cases es with
    | nil => exact absurd rfl h0
    | cons e es => rfl
  rw [if_neg (pathText_ne h0), canonical_text]
  simp only [hh, if_true, pathText_last es he, pathClean_names es h0 he]
  have rn : resolve es ≠ [] → pathText (resolve es) ≠ [0x2f] := by
    intro c e
    have := resolve_names he
    cases hr : resolve es with
    | nil => exact c hr
    | cons x r =>
      rw [hr] at e this
      have := (this x List.mem_cons_self).1
      simp only [pathText, List.cons_append, List.cons.injEq, true_and, List.append_eq_nil_iff] at e
      exact this e.1
  by_cases c : resolve es = []
  · simp [c]
  · simp [c, rn c]

theorem canonical_clean {es : List Bytes} (he : ∀ e ∈ es, (0x2f : UInt8) ∉ e) : CleanPath (canonical es) := by
  rw [canonical_text]
  split
  · rename_i c
    exact .inr ⟨resolve es, c.2, resolve_names he, .inr rfl⟩
  · split
    · exact .inl rfl
    · rename_i c
      exact .inr ⟨resolve es, c, resolve_names he, .inl rfl⟩

theorem cleanPath_clean (p : Bytes) : CleanPath (cleanPath p) := by
  have key : ∀ s, CleanPath (cleanPath (0x2f :: s)) := by
    intro s
    obtain ⟨es, h0, e, he⟩ := rooted_names s
    rw [e, cleanPath_names es h0 he]
    exact canonical_clean he
  cases p with
  | nil => exact .inl rfl
  | cons c s =>
    by_cases h : c = 0x2f
    · subst h
      exact key s
    · have : cleanPath (c :: s) = cleanPath (0x2f :: c :: s) := by
        simp only [cleanPath, List.head?_cons, Option.some.injEq, if_neg h, if_true, reduceCtorEq, if_false]
      rw [this]
      exact key _

/-- a clean path as a path -/
theorem clean_names {p : Bytes} (h : CleanPath p) : ∃ es, es ≠ [] ∧ p = pathText es ∧ (∀ x ∈ es, (0x2f : UInt8) ∉ x) ∧ canonical es = p := by
  rcases h with rfl | ⟨es, h0, hn, rfl | rfl⟩
  · exact ⟨[[]], by simp, rfl, by simp, rfl⟩
  · refine ⟨es, h0, rfl, fun e m => (hn e m).2.2.2, ?_⟩
    rw [canonical_text, resolve_self hn, if_neg, if_neg h0]
    rintro ⟨c, _⟩
    exact (hn [] (List.mem_of_getLast? c)).1 rfl
  · refine ⟨es ++ [[]], by simp, by simp [pathText_append, pathText], ?_, ?_⟩
    · intro x m
      rcases List.mem_append.1 m with m | m
      · exact (hn x m).2.2.2
      · rw [List.mem_singleton.1 m]; simp
    · have r : resolve (es ++ [[]]) = es := by
        simp only [resolve, walk_blank, walk_self es [] hn]
        simp
      rw [canonical_text, r, if_pos ⟨by simp, h0⟩]

theorem cleanPath_iff (p : Bytes) : cleanPath p = p ↔ CleanPath p := by
  constructor
  · intro h
    rw [← h]
    exact cleanPath_clean p
  · intro h
    obtain ⟨es, h0, rfl, he, c⟩ := clean_names h
    rw [cleanPath_names es h0 he, c]

/-! ## The redirect -/

theorem flatMap_names {esc : UInt8 → Bytes} (h : Escaping esc) (es : List Bytes) :
    (pathText es).flatMap esc = pathText (es.map (·.flatMap esc)) := by
  induction es with
  | nil => rfl
  | cons e es ih => simp only [pathText, List.map_cons, List.cons_append, List.flatMap_cons, List.flatMap_append, h.1, ih, List.nil_append]

theorem esc_noSlash {esc : UInt8 → Bytes} (h : Escaping esc) {e : Bytes} (he : (0x2f : UInt8) ∉ e) : (0x2f : UInt8) ∉ e.flatMap esc := by
  intro m
  obtain ⟨c, hc, hb⟩ := List.mem_flatMap.1 m
  by_cases h1 : c = 0x2e
  · subst h1
    rw [h.2.1] at hb
    cases List.mem_singleton.1 hb
  · have h2 : c ≠ 0x2f := by rintro rfl; exact he hc
    exact ((h.2.2 c h2 h1).2 _ hb).1 rfl

theorem esc_name {esc : UInt8 → Bytes} (h : Escaping esc) {e : Bytes} (he : Name e) : Name (e.flatMap esc) := by
  obtain ⟨n0, n1, n2, ns⟩ := he
  have dots : ∀ x : Bytes, (∀ b ∈ x, b = 0x2e) → e.flatMap esc = x → e = x := by
    intro x hx hf
    have all : ∀ c ∈ e, c = 0x2e := by
      intro c hc
      refine Decidable.byContradiction fun h1 => ?_
      have h2 : c ≠ 0x2f := by rintro rfl; exact ns hc
      obtain ⟨k1, k2⟩ := h.2.2 c h2 h1
      obtain ⟨b, hb⟩ := List.exists_mem_of_ne_nil _ k1
      have : b ∈ x := by rw [← hf]; exact List.mem_flatMap.2 ⟨c, hc, hb⟩
      exact (k2 b hb).2.1 (hx b this)
    rw [← hf]
    clear hf n0 n1 n2 ns
    induction e with
    | nil => rfl
    | cons c e ih =>
      have hc := all c List.mem_cons_self
      subst hc
      rw [List.flatMap_cons, h.2.1, ← ih fun c m => all c (List.mem_cons_of_mem _ m)]
      rfl
  exact ⟨fun c => n0 (dots _ (by simp) c), fun c => n1 (dots _ (by decide) c), fun c => n2 (dots _ (by decide) c), esc_noSlash h ns⟩

theorem esc_clean {esc : UInt8 → Bytes} (h : Escaping esc) {p : Bytes} (hp : CleanPath p) : CleanPath (p.flatMap esc) := by
  rcases hp with rfl | ⟨es, h0, hn, rfl | rfl⟩
  · left
    simp [h.1]
  · refine .inr ⟨es.map (·.flatMap esc), by simpa using h0, ?_, .inl (flatMap_names h es)⟩
    intro e m
    obtain ⟨x, hx, rfl⟩ := List.mem_map.1 m
    exact esc_name h (hn x hx)
  · refine .inr ⟨es.map (·.flatMap esc), by simpa using h0, ?_, .inr ?_⟩
    · intro e m
      obtain ⟨x, hx, rfl⟩ := List.mem_map.1 m
      exact esc_name h (hn x hx)
    · rw [List.flatMap_append, flatMap_names h]
      simp [h.1]

/-- the second cleaning leaves clean paths alone -/
theorem again_clean {p : Bytes} (h : CleanPath p) :
    (if p.getLast? = some 0x2f ∧ (pathClean p).getLast? ≠ some 0x2f then pathClean p ++ [0x2f] else pathClean p) = p := by
  obtain ⟨es, h0, rfl, he, c⟩ := clean_names h
  rw [pathClean_names es h0 he]
  simp only [pathText_last es he]
  rw [canonical_text] at c
  by_cases r : resolve es = []
  · simp only [r, ne_eq, not_true_eq_false, and_false, if_false, if_true] at c
    simp only [r, if_true, List.getLast?_singleton, ne_eq, not_true_eq_false, and_false, if_false]
    exact c
  · have nl : (pathText (resolve es)).getLast? ≠ some 0x2f := by
      intro e
      have := (pathText_last _ fun e m => (resolve_names he e m).2.2.2).1 e
      exact (resolve_names he [] (List.mem_of_getLast? this)).1 rfl
    simp only [ne_eq, r, not_false_eq_true, and_true] at c
    simp only [if_neg r, ne_eq, nl, not_false_eq_true, and_true]
    exact c

theorem hexEscape_ascii {s : Bytes} (h : ∀ b ∈ s, b < 0x80) : hexEscape s = s := by
  induction s with
  | nil => rfl
  | cons c s ih =>
    have hc := h c List.mem_cons_self
    have : ¬ c ≥ 0x80 := by
      rw [ge_iff_le, UInt8.le_iff_toNat_le]
      rw [UInt8.lt_iff_toNat_lt] at hc
      omega
    simp only [hexEscape, List.flatMap_cons, if_neg this]
    exact congrArg (c :: ·) (ih fun b m => h b (List.mem_cons_of_mem _ m))

theorem hexEscape_append (a b : Bytes) : hexEscape (a ++ b) = hexEscape a ++ hexEscape b := by simp [hexEscape]

/-! ## Escaped queries mean the same -/

theorem hex_two : ∀ n, n < 256 → 128 ≤ n → (digits 16 n).length = 2 ∧ unhex ((digits 16 n)[0]?.getD 0) = some (UInt8.ofNat (n / 16)) ∧
    unhex ((digits 16 n)[1]?.getD 0) = some (UInt8.ofNat (n % 16)) ∧ (UInt8.ofNat (n / 16) <<< 4 ||| UInt8.ofNat (n % 16)) = UInt8.ofNat n ∧
    ∀ b ∈ digits 16 n, b ≠ 0x26 ∧ b ≠ 0x3b ∧ b ≠ 0x3d ∧ b ≠ 0x23 := by
  have h : ∀ n, n < 256 → (128 ≤ n → (digits 16 n).length = 2 ∧ unhex ((digits 16 n)[0]?.getD 0) = some (UInt8.ofNat (n / 16)) ∧
      unhex ((digits 16 n)[1]?.getD 0) = some (UInt8.ofNat (n % 16)) ∧ (UInt8.ofNat (n / 16) <<< 4 ||| UInt8.ofNat (n % 16)) = UInt8.ofNat n ∧
      (digits 16 n).all fun b => decide (b ≠ 0x26 ∧ b ≠ 0x3b ∧ b ≠ 0x3d ∧ b ≠ 0x23)) := by
    decide +kernel
  intro n h1 h2
  obtain ⟨k1, k2, k3, k4, k5⟩ := h n h1 h2
  exact ⟨k1, k2, k3, k4, fun b m => of_decide_eq_true (List.all_eq_true.1 k5 b m)⟩

theorem hex_byte2 {c : UInt8} (h : c ≥ 0x80) : ∃ a b x y, digits 16 c.toNat = [a, b] ∧ unhex a = some x ∧ unhex b = some y ∧ x <<< 4 ||| y = c ∧
    ∀ b ∈ digits 16 c.toNat, b ≠ 0x26 ∧ b ≠ 0x3b ∧ b ≠ 0x3d ∧ b ≠ 0x23 := by
  obtain ⟨h1, h2, h3, h4, h5⟩ := hex_two c.toNat c.toNat_lt (by rw [ge_iff_le, UInt8.le_iff_toNat_le] at h; exact h)
  match hd : digits 16 c.toNat, h1 with
  | [a, b], _ =>
    rw [hd] at h2 h3
    refine ⟨a, b, _, _, rfl, h2, h3, ?_, by rw [← hd]; exact h5⟩
    rw [h4]
    exact UInt8.ofNat_toNat

theorem unhex_high {c : UInt8} (h : c ≥ 0x80) : unhex c = none := by
  rw [ge_iff_le, UInt8.le_iff_toNat_le] at h
  have h : 128 ≤ c.toNat := h
  simp only [unhex, UInt8.le_iff_toNat_le, show (0x39 : UInt8).toNat = 57 from rfl, show (0x66 : UInt8).toNat = 102 from rfl, show (0x46 : UInt8).toNat = 70 from rfl]
  rw [if_neg (by omega), if_neg (by omega), if_neg (by omega)]

theorem hexEscape_cons (c : UInt8) (s : Bytes) : hexEscape (c :: s) = (if c ≥ 0x80 then 0x25 :: digits 16 c.toNat else [c]) ++ hexEscape s := rfl

theorem unescape_hexEscape (s : Bytes) : unescape (hexEscape s) = unescape s := by
  have pp : ∀ (r : Bytes) (a b : UInt8), unhex a = none → unescape (0x25 :: a :: b :: r) = none := by
    intro r a b ha
    simp [unescape, ha]
  have plus : ∀ r : Bytes, unescape (0x2b :: r) = (unescape r).map (0x20 :: ·) := by
    intro r
    rw [unescape.eq_def]
    simp
  have plain : ∀ (c : UInt8) (r : Bytes), c ≠ 0x25 → c ≠ 0x2b → unescape (c :: r) = (unescape r).map (c :: ·) := by
    intro c r h1 h2
    rw [unescape.eq_def]
    simp [h1, h2]
  induction s using unescape.induct with
  | case1 => rfl
  | case2 a b r ih =>
    rw [hexEscape_cons, if_neg (by decide), hexEscape_cons, hexEscape_cons]
    by_cases ha : a ≥ 0x80
    · obtain ⟨h1, h2, x, y, hd, -⟩ := hex_byte2 ha
      rw [if_pos ha, hd]
      simp only [List.cons_append, List.nil_append]
      rw [pp _ _ _ (by decide), pp _ _ _ (unhex_high ha)]
    · rw [if_neg ha]
      by_cases hb : b ≥ 0x80
      · rw [if_pos hb]
        simp only [List.cons_append, List.nil_append, unescape, if_true, unhex_high hb, show unhex 0x25 = none by decide]
        cases unhex a <;> rfl
      · rw [if_neg hb]
        simp only [List.cons_append, List.nil_append, unescape, if_true, ih]
  | case3 s h =>
    rw [hexEscape_cons, if_neg (by decide)]
    match s, h with
    | [], _ => rfl
    | [a], _ =>
      rw [hexEscape_cons]
      by_cases ha : a ≥ 0x80
      · obtain ⟨h1, h2, x, y, hd, -⟩ := hex_byte2 ha
        rw [if_pos ha, hd]
        simp only [List.cons_append, List.nil_append]
        rw [pp _ _ _ (by decide)]
        rfl
      · rw [if_neg ha]
        rfl
    | a :: b :: r, h => exact absurd rfl (h a b r)
  | case4 s h ih =>
    rw [hexEscape_cons, if_neg (by decide)]
    simp only [List.cons_append, List.nil_append]
    rw [plus, plus, ih]
  | case5 c s h1 h2 ih =>
    rw [hexEscape_cons]
    by_cases hc : c ≥ 0x80
    · obtain ⟨a, b, x, y, hd, hx, hy, he, -⟩ := hex_byte2 hc
      rw [if_pos hc, hd]
      simp only [List.cons_append, List.nil_append, plain _ _ h1 h2]
      simp only [unescape, if_true, hx, hy, ih]
      cases unescape s <;> simp [he]
    · rw [if_neg hc]
      simp only [List.cons_append, List.nil_append, plain _ _ h1 h2, ih]

/-- characters that separate parts of a query -/
def IsSep (c : UInt8) : Prop := c = 0x26 ∨ c = 0x3b ∨ c = 0x3d ∨ c = 0x23

theorem esc_sep {c : UInt8} (h : IsSep c) (b : UInt8) : c ∈ (if b ≥ 0x80 then 0x25 :: digits 16 b.toNat else [b]) ↔ c = b := by
  by_cases hb : b ≥ 0x80
  · obtain ⟨-, -, -, -, -, -, -, -, hd⟩ := hex_byte2 hb
    rw [if_pos hb]
    constructor
    · intro m
      rcases List.mem_cons.1 m with rfl | m
      · rcases h with h | h | h | h <;> cases h
      · obtain ⟨k1, k2, k3, k4⟩ := hd c m
        rcases h with h | h | h | h <;> contradiction
    · rintro rfl
      rcases h with rfl | rfl | rfl | rfl <;> exact absurd hb (by decide)
  · rw [if_neg hb]
    simp

theorem mem_hexEscape {c : UInt8} (h : IsSep c) (s : Bytes) : c ∈ hexEscape s ↔ c ∈ s := by
  induction s with
  | nil => rfl
  | cons b s ih => rw [hexEscape_cons, List.mem_append, esc_sep h, ih, List.mem_cons]

theorem hexEscape_nil {s : Bytes} : hexEscape s = [] ↔ s = [] := by
  cases s with
  | nil => simp [hexEscape]
  | cons c s =>
    rw [hexEscape_cons]
    split <;> simp

theorem pieces_prefix {sep : UInt8} {x : Bytes} (hx : sep ∉ x) (s : Bytes) :
    pieces sep (x ++ s) = match pieces sep s with | [] => [x] | p :: ps => (x ++ p) :: ps := by
  induction x with
  | nil =>
    cases hs : pieces sep s with
    | nil =>
      cases s with
      | nil => cases hs
      | cons b s =>
        simp only [pieces] at hs
        split at hs
        · cases hs
        · split at hs <;> cases hs
    | cons p ps => simp [hs]
  | cons b x ih =>
    simp only [List.mem_cons, not_or] at hx
    simp only [List.cons_append, pieces, if_neg (Ne.symm hx.1), ih hx.2]
    cases pieces sep s <;> rfl

theorem pieces_nonempty (sep : UInt8) (s : Bytes) : pieces sep s ≠ [] := by
  cases s with
  | nil => simp [pieces]
  | cons b s =>
    simp only [pieces]
    split
    · simp
    · split <;> simp

theorem pieces_hexEscape (s : Bytes) : pieces 0x26 (hexEscape s) = (pieces 0x26 s).map hexEscape := by
  induction s with
  | nil => rfl
  | cons c s ih =>
    rw [hexEscape_cons]
    by_cases h : c = 0x26
    · subst h
      rw [if_neg (by decide)]
      simp only [List.cons_append, List.nil_append, pieces, if_true, ih, List.map_cons]
      rfl
    · have := mt (esc_sep (.inl rfl) c).1 (Ne.symm h)
      rw [pieces_prefix this, ih]
      simp only [pieces, if_neg h]
      cases hp : pieces 0x26 s with
      | nil => exact absurd hp (pieces_nonempty _ _)
      | cons p ps => simp only [List.map_cons, hexEscape_cons]

theorem cut_hexEscape (s : Bytes) : cut 0x3d (hexEscape s) = (hexEscape (cut 0x3d s).1, hexEscape (cut 0x3d s).2) := by
  induction s with
  | nil => rfl
  | cons c s ih =>
    rw [hexEscape_cons]
    by_cases h : c = 0x3d
    · subst h
      rw [if_neg (by decide)]
      simp [cut, hexEscape]
    · have hn := mt (esc_sep (.inr (.inr (.inl rfl))) c).1 (Ne.symm h)
      have p : ∀ b ∈ (if c ≥ 0x80 then 0x25 :: digits 16 c.toNat else [c]), decide (b ≠ (0x3d : UInt8)) = true := by
        intro b m
        rw [decide_eq_true_eq]
        rintro rfl
        exact hn m
      simp only [cut, Prod.mk.injEq] at ih ⊢
      rw [List.takeWhile_append_of_pos p, List.dropWhile_append_of_pos p, ih.1, ih.2]
      simp only [List.takeWhile_cons, List.dropWhile_cons, ne_eq, h, not_false_eq_true, decide_true, if_true]
      exact ⟨rfl, trivial⟩

theorem parseQuery_hexEscape (q : Bytes) : parseQuery (hexEscape q) = parseQuery q := by
  have h : ∀ part, parsePair (hexEscape part) = parsePair part := by
    intro part
    simp only [parsePair, mem_hexEscape (.inr (.inl rfl)), hexEscape_nil, cut_hexEscape, unescape_hexEscape]
  simp only [parseQuery, pieces_hexEscape, List.filterMap_map]
  congr 1
  funext part
  exact h part

theorem flushes_hexEscape (q : Bytes) : flushes (hexEscape q) = flushes q := by
  unfold flushes queryGet
  rw [parseQuery_hexEscape]

end SMC.Http
