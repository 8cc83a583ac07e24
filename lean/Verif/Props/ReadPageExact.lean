import Verif.Props.ReadPage
/-!
# C104, exactly
-/

namespace SMC.Props

open SMC Spec

theorem lines_app (p r : Bytes) : lines (p ++ [10] ++ r) = lines (p ++ [10]) ++ lines r := by
  induction p with
  | nil => rfl
  | cons c p ih =>
    simp only [List.cons_append, lines] at ih ⊢
    split
    · rw [ih]; rfl
    · rw [ih]
      cases h : lines (p ++ [10]) with
      | nil => cases p <;> simp [lines] at h <;> split at h <;> try split at h
               all_goals cases h
      | cons l ls => rfl

theorem lines_lf (p : Bytes) : lines (p ++ [10]) = lines p ∨ lines (p ++ [10]) = lines p ++ [[]] := by
  induction p with
  | nil => exact .inr rfl
  | cons c p ih =>
    simp only [List.cons_append, lines]
    split
    · rcases ih with h | h
      · exact .inl (by rw [h])
      · exact .inr (by rw [h]; rfl)
    · rcases ih with h | h
      · exact .inl (by rw [h])
      · rw [h]
        cases e : lines p with
        | nil => exact .inl rfl
        | cons l ls => exact .inr rfl

theorem rows_lf (p : Bytes) : (∀ l ∈ lines (p ++ [10]), isRow l = false) ↔ ∀ l ∈ lines p, isRow l = false := by
  rcases lines_lf p with h | h
  · rw [h]
  · rw [h]
    constructor
    · exact fun a l m => a l (List.mem_append_left _ m)
    · intro a l m
      rcases List.mem_append.1 m with m | m
      · exact a l m
      · rw [List.mem_singleton.1 m]; rfl

theorem readEntries_ne {a : List Bytes} (h : a ≠ []) : readEntries a ≠ [] := by
  cases a with
  | nil => exact absurd rfl h
  | cons l a =>
    simp only [readEntries]
    split
    · split
      · split <;> simp
      · simp
    · simp

/-- What is read from lines before others is independent of them if these begin anew. -/
theorem readEntries_append (a b : List Bytes) (hb : Fresh b) : readEntries (a ++ b) = readEntries a ++ readEntries b := by
  induction a with
  | nil => rfl
  | cons l a ih =>
    simp only [List.cons_append, readEntries, ih]
    split
    · cases a with
      | nil =>
        simp only [readEntries, List.nil_append, List.singleton_append]
        split
        · rename_i bs r h
          obtain ⟨l', hl, hrow⟩ := readEntries_dump h
          simp [hl, hb l' hl hrow, h]
        · rfl
      | cons l' a =>
        have ne := readEntries_ne (a := l' :: a) (by simp)
        cases h : readEntries (l' :: a) with
        | nil => exact absurd h ne
        | cons i r =>
          cases i with
          | text t => simp
          | dump bs =>
            have e : (l' :: a ++ b).head?.any isFirstRow = (l' :: a).head?.any isFirstRow := rfl
            simp only [List.cons_append (as := r), e]
            by_cases c : (l' :: a).head?.any isFirstRow = true
            · rw [if_pos c, if_pos c]; rfl
            · rw [if_neg c, if_neg c]; rfl
    · rfl

theorem dumpsOf_append (a b : List Entry) : dumpsOf (a ++ b) = dumpsOf a ++ dumpsOf b := by
  simp [dumpsOf]

theorem dumpsOf_rows (ls : List Bytes) : dumpsOf (readEntries ls) = [] ↔ ∀ l ∈ ls, isRow l = false := by
  induction ls with
  | nil => simp [readEntries, dumpsOf]
  | cons l ls ih =>
    simp only [List.mem_cons, forall_eq_or_imp, ← ih]
    cases c : isRow l with
    | true =>
      simp only [readEntries, c, if_true, reduceCtorEq, false_and, iff_false]
      split
      · split <;> simp [dumpsOf]
      · simp [dumpsOf]
    | false => simp [readEntries, c, dumpsOf]

theorem clc_fresh (m : CLC.Message) (r : Bytes) : Fresh (lines (m.string ++ r)) := by
  obtain ⟨g, hg, t, ht⟩ := (C99_clc m).1
  have key : ∀ a ∈ topics, ∀ g ∈ headings a, (g.head?.map fun c => isDumpDigit c || c = 10) = some false := by decide
  have := key _ (topics_all _) g hg
  rw [← ht]
  cases g with
  | nil => cases this
  | cons c k =>
    simp only [List.head?_cons, Option.map_some, Option.some.injEq, Bool.or_eq_false_iff, decide_eq_false_iff_not] at this
    intro l hl hrow
    simp only [List.cons_append, lines, if_neg this.2] at hl
    have : ∃ k', l = c :: k' := by
      split at hl <;> simp only [List.head?_cons, Option.some.injEq] at hl <;> exact ⟨_, hl.symm⟩
    obtain ⟨k', rfl⟩ := this
    simp [isRow, ‹isDumpDigit c = false ∧ _›.1] at hrow

theorem clc_page (xs : List (Bytes × CLC.Message))
    (h : ∀ x ∈ xs, (∃ m l, CLC.Message.parse m ⟨x.1, []⟩ = .ret l x.2) ∧ x.1.length ≤ 2 ^ 32) :
    dumpsOf (readPage (xs.flatMap fun x => x.2.string ++ [0x0a] ++ x.2.dump)) =
      (xs.flatMap fun x => dumpsOf (readEntries (lines (x.2.string ++ [10]))) ++ [x.1]) ∧
    Fresh (lines (xs.flatMap fun x => x.2.string ++ [0x0a] ++ x.2.dump)) := by
  induction xs with
  | nil => exact ⟨rfl, fun l hl => by cases hl⟩
  | cons x xs ih =>
    obtain ⟨h1, h2⟩ := ih fun y m => h y (List.mem_cons_of_mem _ m)
    obtain ⟨⟨m, l, hp⟩, hl⟩ := h x List.mem_cons_self
    have hd : x.2.dump = hexDump x.1 := by
      have hu := undump_clc hp
      have hd : x.2.dump = hexDump x.2.raw.vis := rfl
      rw [hd, C16_undump_hexDump] at hu
      rw [hd, hu]
    have ne : x.1 ≠ [] := by
      intro e0
      obtain ⟨l', hl⟩ := (parse_needs m ⟨x.1, []⟩).panics (by simp only [Slice.len_mk]; rw [e0]; decide)
      rw [hl] at hp
      cases hp
    obtain ⟨g1, g2⟩ := fresh_written (i := .dump x.1) ⟨ne, hl⟩ h2
    simp only [List.flatMap_cons]
    refine ⟨?_, by rw [List.append_assoc, List.append_assoc]; exact clc_fresh _ _⟩
    simp only [Entry.written] at g1 g2
    rw [readPage, hd, List.append_assoc, lines_app, readEntries_append _ _ g2, dumpsOf_append]
    rw [g1, ← h1, List.append_assoc]
    rfl

theorem flat_iff {α β : Type} (f : α → List β) (g : α → β) (xs : List α) :
    (xs.flatMap fun x => f x ++ [g x]) = xs.map g ↔ ∀ x ∈ xs, f x = [] := by
  constructor
  · intro e x m
    have hlen := congrArg List.length e
    clear e
    simp only [List.length_flatMap, List.length_append, List.length_singleton, List.length_map] at hlen
    have le : ∀ ys : List α, ys.length ≤ (ys.map fun x => (f x).length + 1).sum := by
      intro ys
      induction ys with
      | nil => simp
      | cons y ys ih => simp only [List.length_cons, List.map_cons, List.sum_cons]; omega
    induction xs with
    | nil => cases m
    | cons y xs ih =>
      simp only [List.map_cons, List.sum_cons, List.length_cons] at hlen
      have := le xs
      rcases List.mem_cons.1 m with rfl | m
      · exact List.length_eq_zero_iff.1 (by omega)
      · exact ih m (by omega)
  · intro a
    induction xs with
    | nil => rfl
    | cons y xs ih =>
      rw [List.flatMap_cons, List.map_cons, a y List.mem_cons_self, ih fun x m => a x (List.mem_cons_of_mem _ m)]
      rfl

/-- **C104**, exactly: from a page with texts and dumps of CLC messages the buffers of the messages are read back if and only if no
line of their texts looks like a line of a dump. -/
theorem C104_exact (xs : List (Bytes × CLC.Message))
    (h : ∀ x ∈ xs, (∃ m l, CLC.Message.parse m ⟨x.1, []⟩ = .ret l x.2) ∧ x.1.length ≤ 2 ^ 32) :
    dumpsOf (readPage (xs.flatMap fun x => x.2.string ++ [0x0a] ++ x.2.dump)) = xs.map (·.1) ↔
      ∀ x ∈ xs, ∀ l ∈ lines x.2.string, isRow l = false := by
  rw [(clc_page xs h).1, flat_iff]
  exact forall_congr' fun x => imp_congr_right fun _ => by rw [dumpsOf_rows, rows_lf]

/-- the message of `C104_false`, and one with another line in its EID -/
example : (CLC.Message.acceptSMCDv2 {}).parse ⟨dumpedAccept, []⟩ = .ret [] dumpedMessage ∧
    ¬ (∀ l ∈ lines dumpedMessage.string, isRow l = false) ∧
    (CLC.Message.acceptSMCDv2 {}).parse ⟨forgedAccept, []⟩ = .ret [] forgedMessage ∧
    (lines forgedMessage.string).length = 3 ∧ ∀ l ∈ lines forgedMessage.string, isRow l = false := by
  refine ⟨?_, ?_, ?_, ?_, ?_⟩ <;> decide +kernel

end SMC.Props
