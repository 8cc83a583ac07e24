import Verif.Spec.Query
import Verif.Http.Server
/-!
# Query parsing meets its specification
-/

namespace SMC.Http

instance (c : UInt8) (n : Nat) : Decidable (HexDigit c n) := by unfold HexDigit; infer_instance

theorem HexDigit.lt {c : UInt8} {n : Nat} (h : HexDigit c n) : n < 16 := by
  unfold HexDigit at h; omega

theorem HexDigit.unique {c : UInt8} {n m : Nat} (h : HexDigit c n) (k : HexDigit c m) : n = m := by
  unfold HexDigit at h k; omega

theorem unhex_iff (c v : UInt8) : unhex c = some v ↔ HexDigit c v.toNat := by
  have h : ∀ i : Fin 256, ∀ n : Fin 16,
      unhex (UInt8.ofNat i) = some (UInt8.ofNat n) ↔ HexDigit (UInt8.ofNat i) n := by decide +kernel
  have k : ∀ i : Fin 256, (unhex (UInt8.ofNat i)).all (·.toNat < 16) := by decide +kernel
  have h := h ⟨c.toNat, c.toNat_lt⟩
  have k := k ⟨c.toNat, c.toNat_lt⟩
  simp only [UInt8.ofNat_toNat] at h k
  constructor
  · intro e
    rw [e] at k
    have lt : v.toNat < 16 := by simpa using k
    refine (h ⟨v.toNat, lt⟩).1 ?_
    rw [e, UInt8.ofNat_toNat]
  · intro d
    have := (h ⟨v.toNat, d.lt⟩).2 d
    rwa [UInt8.ofNat_toNat] at this

theorem unescape_plus (s : Bytes) : unescape (0x2b :: s) = (unescape s).map (0x20 :: ·) := by
  conv => lhs; unfold unescape
  rw [if_neg (by decide), if_pos rfl]

theorem unescape_plain {c : UInt8} (s : Bytes) (h1 : c ≠ 0x25) (h2 : c ≠ 0x2b) :
    unescape (c :: s) = (unescape s).map (c :: ·) := by
  conv => lhs; unfold unescape
  rw [if_neg h1, if_neg h2]

theorem hex_byte (x y : UInt8) (hx : x.toNat < 16) (hy : y.toNat < 16) :
    x <<< 4 ||| y = UInt8.ofNat (16 * x.toNat + y.toNat) := by
  have h : ∀ i j : Fin 16, (UInt8.ofNat i) <<< 4 ||| (UInt8.ofNat j) = UInt8.ofNat (16 * i + j) := by
    decide +kernel
  have := h ⟨x.toNat, hx⟩ ⟨y.toNat, hy⟩
  simpa using this

theorem decodes_of {s t : Bytes} (h : unescape s = some t) : Decodes s t := by
  induction s using unescape.induct generalizing t with
  | case1 => cases h; exact .nil
  | case2 a b r ih =>
    simp only [unescape, if_true, Option.bind_eq_bind, Option.bind_eq_some_iff, Option.pure_def,
      Option.some.injEq] at h
    obtain ⟨x, hx, y, hy, u, hu, rfl⟩ := h
    have hx := (unhex_iff _ _).1 hx
    have hy := (unhex_iff _ _).1 hy
    rw [hex_byte x y hx.lt hy.lt]
    exact .hex hx hy (ih hu)
  | case3 s hs =>
    unfold unescape at h
    rw [if_pos rfl] at h
    split at h
    · rename_i a b r
      exact absurd rfl (hs a b r)
    · cases h
  | case4 s hn ih =>
    rw [unescape_plus] at h
    obtain ⟨u, hu, rfl⟩ := Option.map_eq_some_iff.1 h
    exact .plus (ih hu)
  | case5 c s hn hn' ih =>
    rw [unescape_plain s hn hn'] at h
    obtain ⟨u, hu, rfl⟩ := Option.map_eq_some_iff.1 h
    exact .plain hn hn' (ih hu)

theorem of_decodes {s t : Bytes} (h : Decodes s t) : unescape s = some t := by
  induction h with
  | nil => rfl
  | plain h1 h2 _ ih => rw [unescape_plain _ h1 h2, ih]; rfl
  | plus _ ih => rw [unescape_plus, ih]; rfl
  | @hex a b x y s t hx hy _ ih =>
    have ex : (UInt8.ofNat x).toNat = x := by
      have := hx.lt
      simp; omega
    have ey : (UInt8.ofNat y).toNat = y := by
      have := hy.lt
      simp; omega
    have h1 : unhex a = some (UInt8.ofNat x) := (unhex_iff _ _).2 (by rw [ex]; exact hx)
    have h2 : unhex b = some (UInt8.ofNat y) := (unhex_iff _ _).2 (by rw [ey]; exact hy)
    simp only [unescape, if_true, h1, h2, ih, Option.bind_eq_bind, Option.bind_some, Option.pure_def]
    rw [hex_byte _ _ (by rw [ex]; exact hx.lt) (by rw [ey]; exact hy.lt), ex, ey]

theorem unescape_iff (s t : Bytes) : unescape s = some t ↔ Decodes s t :=
  ⟨decodes_of, of_decodes⟩

theorem cut_iff (part k w : Bytes) :
    cut 0x3d part = (k, w) ↔ (part = k ++ 0x3d :: w ∨ (part = k ∧ w = [])) ∧ 0x3d ∉ k := by
  unfold cut
  induction part generalizing k with
  | nil => cases k <;> cases w <;> simp
  | cons b part ih =>
    by_cases hb : b = 0x3d
    · subst hb
      cases k with
      | nil => simp
      | cons c k =>
        simp only [ne_eq, not_true_eq_false, decide_false, Bool.false_eq_true, not_false_eq_true,
          List.takeWhile_cons_of_neg, Prod.mk.injEq, reduceCtorEq, false_and, List.cons_append,
          List.cons.injEq, false_iff, List.mem_cons, not_and, not_or, Classical.not_not]
        rintro (⟨e, _⟩ | ⟨⟨e, _⟩, _⟩) <;> simp [← e]
    · cases k with
      | nil =>
        simp [hb]
      | cons c k =>
        have := ih k
        simp only [Prod.mk.injEq] at this
        simp only [ne_eq, hb, not_false_eq_true, decide_true, List.takeWhile_cons_of_pos,
          List.dropWhile_cons_of_pos, Prod.mk.injEq, List.cons.injEq, List.cons_append,
          List.mem_cons, not_or]
        constructor
        · rintro ⟨⟨rfl, h1⟩, h2⟩
          have := this.1 ⟨h1, h2⟩
          refine ⟨?_, fun e => hb e.symm, this.2⟩
          rcases this.1 with h | ⟨h, h'⟩
          · exact Or.inl ⟨rfl, h⟩
          · exact Or.inr ⟨⟨rfl, h⟩, h'⟩
        · rintro ⟨h, _, h'⟩
          rcases h with ⟨rfl, h⟩ | ⟨⟨rfl, h⟩, h''⟩
          · have := this.2 ⟨Or.inl h, h'⟩
            exact ⟨⟨rfl, this.1⟩, this.2⟩
          · have := this.2 ⟨Or.inr ⟨h, h''⟩, h'⟩
            exact ⟨⟨rfl, this.1⟩, this.2⟩

theorem parsePair_iff (part key value : Bytes) :
    parsePair part = some (key, value) ↔ GivesParam part key value := by
  unfold parsePair GivesParam
  by_cases h1 : (0x3b : UInt8) ∈ part
  · simp [h1]
  by_cases h2 : part = []
  · simp [h2]
  rw [if_neg h1, if_neg h2]
  simp only [Option.bind_eq_bind, Option.bind_eq_some_iff, Option.pure_def, Option.some.injEq,
    Prod.mk.injEq, unescape_iff]
  constructor
  · rintro ⟨k, hk, v, hv, rfl, rfl⟩
    obtain ⟨a, b⟩ := (cut_iff part _ _).1 rfl
    exact ⟨h1, h2, _, _, a, b, hk, hv⟩
  · rintro ⟨_, _, k, w, a, b, hk, hw⟩
    have := (cut_iff part k w).2 ⟨a, b⟩
    rw [this]
    exact ⟨_, hk, _, hw, rfl, rfl⟩

theorem pieces_ne_nil (sep : UInt8) (s : Bytes) : pieces sep s ≠ [] := by
  induction s with
  | nil => simp [pieces]
  | cons b s ih =>
    unfold pieces
    split
    · simp
    · split <;> simp

theorem pieces_join (sep : UInt8) (s : Bytes) : List.intercalate [sep] (pieces sep s) = s := by
  induction s with
  | nil => rfl
  | cons b s ih =>
    unfold pieces
    split
    · rename_i e
      subst e
      cases h : pieces b s with
      | nil => exact absurd h (pieces_ne_nil _ _)
      | cons p ps => rw [h] at ih; rw [← ih]; simp [List.intercalate]
    · cases h : pieces sep s with
      | nil => exact absurd h (pieces_ne_nil _ _)
      | cons p ps =>
        rw [h] at ih
        rw [← ih]
        cases ps <;> simp [List.intercalate]

theorem pieces_free (sep : UInt8) (s : Bytes) : ∀ p ∈ pieces sep s, sep ∉ p := by
  induction s with
  | nil => simp [pieces]
  | cons b s ih =>
    unfold pieces
    split
    · intro p hp
      rcases List.mem_cons.1 hp with rfl | hp
      · simp
      · exact ih p hp
    · rename_i hne
      cases h : pieces sep s with
      | nil => exact absurd h (pieces_ne_nil _ _)
      | cons q qs =>
        rw [h] at ih
        intro p hp
        rcases List.mem_cons.1 hp with rfl | hp
        · intro hm
          rcases List.mem_cons.1 hm with e | hm
          · exact hne e.symm
          · exact ih q (by simp) hm
        · exact ih p (by simp [hp])

theorem pieces_append (sep : UInt8) (p s : Bytes) (h : sep ∉ p) :
    pieces sep (p ++ sep :: s) = p :: pieces sep s := by
  induction p with
  | nil => simp [pieces]
  | cons b p ih =>
    have hb : b ≠ sep := fun e => h (by simp [e])
    rw [List.cons_append, pieces, if_neg hb, ih (fun m => h (by simp [m]))]

theorem pieces_self (sep : UInt8) (p : Bytes) (h : sep ∉ p) : pieces sep p = [p] := by
  induction p with
  | nil => simp [pieces]
  | cons b p ih =>
    have hb : b ≠ sep := fun e => h (by simp [e])
    unfold pieces
    rw [if_neg hb, ih (fun m => h (by simp [m]))]

theorem join_pieces (sep : UInt8) (ps : List Bytes) (hne : ps ≠ []) (h : ∀ p ∈ ps, sep ∉ p) :
    pieces sep (List.intercalate [sep] ps) = ps := by
  induction ps with
  | nil => exact absurd rfl hne
  | cons p ps ih =>
    cases ps with
    | nil => simpa [List.intercalate] using pieces_self sep p (h p (by simp))
    | cons q qs =>
      have e : List.intercalate [sep] (p :: q :: qs) = p ++ sep :: List.intercalate [sep] (q :: qs) := by
        simp [List.intercalate]
      rw [e, pieces_append sep p _ (h p (by simp)), ih (by simp) (fun x hx => h x (by simp [hx]))]

theorem find_iff (ps : List Bytes) (key value : Bytes) :
    (∃ k, (ps.filterMap parsePair).find? (·.1 = key) = some (k, value)) ↔
    ∃ pre part post, ps = pre ++ part :: post ∧ GivesParam part key value ∧
      ∀ p ∈ pre, ∀ v, ¬ GivesParam p key v := by
  induction ps with
  | nil => simp
  | cons p ps ih =>
    by_cases hp : ∃ v, parsePair p = some (key, v)
    · obtain ⟨v, hv⟩ := hp
      have : List.find? (fun x => decide (x.1 = key)) (List.filterMap parsePair (p :: ps)) = some (key, v) := by
        simp [hv]
      rw [this]
      constructor
      · rintro ⟨k, e⟩
        cases e
        exact ⟨[], p, ps, rfl, (parsePair_iff _ _ _).1 hv, by simp⟩
      · rintro ⟨pre, part, post, e, g, hpre⟩
        cases pre with
        | nil =>
          cases e
          have := (parsePair_iff _ _ _).2 g
          rw [hv] at this
          cases this
          exact ⟨key, rfl⟩
        | cons x xs =>
          cases e
          exact absurd ((parsePair_iff _ _ _).1 hv) (hpre p (by simp) v)
    · have e : List.find? (fun x => decide (x.1 = key)) (List.filterMap parsePair (p :: ps)) =
          List.find? (fun x => decide (x.1 = key)) (List.filterMap parsePair ps) := by
        cases h : parsePair p with
        | none => simp [h]
        | some kv =>
          obtain ⟨k, v⟩ := kv
          have : k ≠ key := fun e => hp ⟨v, by rw [h, e]⟩
          simp [h, this]
      rw [e, ih]
      have no : ∀ v, ¬ GivesParam p key v := fun v g => hp ⟨v, (parsePair_iff _ _ _).2 g⟩
      constructor
      · rintro ⟨pre, part, post, rfl, g, hpre⟩
        refine ⟨p :: pre, part, post, rfl, g, ?_⟩
        intro x hx
        rcases List.mem_cons.1 hx with rfl | hx
        · exact no
        · exact hpre x hx
      · rintro ⟨pre, part, post, e, g, hpre⟩
        cases pre with
        | nil =>
          cases e
          exact absurd g (no value)
        | cons x xs =>
          cases e
          exact ⟨xs, part, post, rfl, g, fun y hy => hpre y (by simp [hy])⟩

theorem firstValue_iff (query key value : Bytes) :
    (∃ k, (parseQuery query).find? (·.1 = key) = some (k, value)) ↔ FirstValue query key value := by
  unfold parseQuery FirstValue
  rw [find_iff]
  constructor
  · rintro ⟨pre, part, post, e, g, hpre⟩
    refine ⟨pre, part, post, ?_, ?_, g, hpre⟩
    · rw [← e, pieces_join]
    · rw [← e]
      exact pieces_free _ _
  · rintro ⟨pre, part, post, rfl, hf, g, hpre⟩
    exact ⟨pre, part, post, join_pieces _ _ (by simp) hf, g, hpre⟩

theorem flushes_iff (query : Bytes) :
    flushes query = true ↔ FirstValue query (go! "flush") (go! "true") := by
  rw [← firstValue_iff]
  unfold flushes queryGet
  rw [decide_eq_true_iff]
  constructor
  · intro h
    split at h
    · rename_i k v e
      exact ⟨k, by rw [e, h]⟩
    · cases h
  · rintro ⟨k, e⟩
    rw [e]

end SMC.Http
