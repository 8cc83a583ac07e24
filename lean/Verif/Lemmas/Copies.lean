import Verif.Crash.Copies
import Verif.Lemmas.Tail
/-!
# Appending to prefixes that are shared
-/

namespace SMC.CLC

/-! ## `Parse` appends -/

/-- code that does nothing to a list but append to it -/
structure Grows {σ X α : Type} (g : σ → List X) (x : SGo σ α) : Prop where
  holds : ∀ s, g s <+: g (x s).2

section
variable {σ τ X α β : Type} {g : σ → List X}

theorem Grows.keeps {x : SGo σ α} (h : ∀ s, g (x s).2 = g s) : Grows g x :=
  ⟨fun s => by rw [h]; exact List.prefix_rfl⟩

theorem Grows.bind {x : SGo σ α} {f : α → SGo σ β} (h : Grows g x) (hf : ∀ a, Grows g (f a)) : Grows g (x >>= f) := by
  refine ⟨fun s => ?_⟩
  have h1 := h.holds s
  rcases hx : x s with ⟨⟨l, a⟩ | l, t⟩
  · rw [(Tail.bind_ret hx).1]
    rw [hx] at h1
    exact h1.trans ((hf a).holds t)
  · rw [Tail.bind_panic hx]
    rwa [hx] at h1

theorem Grows.lift (x : Go α) : Grows g (liftM x : SGo σ α) := Grows.keeps fun _ => rfl
theorem Grows.pure (a : α) : Grows g (Pure.pure a : SGo σ α) := Grows.keeps fun _ => rfl
theorem Grows.gets (f : σ → α) : Grows g (SGo.gets f) := Grows.keeps fun _ => rfl
theorem Grows.assign {f : σ → σ} (h : ∀ s, g (f s) = g s) : Grows g (SGo.assign f) := Grows.keeps h
theorem Grows.within {p : σ → τ} {put : τ → σ → σ} {x : SGo τ α} (h : ∀ t s, g (put t s) = g s) :
    Grows g (SGo.within p put x) := Grows.keeps fun s => h _ s
theorem Grows.ite {c : Prop} [Decidable c] {x y : SGo σ α} (h : Grows g x) (h' : Grows g y) :
    Grows g (if c then x else y) := by split <;> assumption

end

/-- goes through a method statement by statement -/
macro "grows" : tactic => `(tactic| repeat' (first
  | intro _
  | exact Grows.lift _
  | exact Grows.pure _
  | exact Grows.gets _
  | exact Grows.assign fun _ => rfl
  | exact Grows.within fun _ _ => rfl
  | apply Grows.ite
  | apply Grows.bind))

theorem grows_prefixes (length : UInt16) (buf : Slice) : ∀ n skip, Grows (·.IPv6Prefixes) (parsePrefixesS length buf n skip)
  | 0, _ => Grows.pure _
  | n + 1, skip => by
    unfold parsePrefixesS
    grows
    · exact ⟨fun s => List.prefix_append _ _⟩
    · exact grows_prefixes length buf n _

theorem grows_proposal (buf : Slice) : Grows (·.IPv6Prefixes) (Proposal.parseS buf) := by
  unfold Proposal.parseS
  grows
  exact grows_prefixes _ _ _ _

theorem grows_prefixesV2 (length : UInt16) (buf : Slice) : ∀ n skip, Grows (·.IPv6Prefixes) (parsePrefixesV2S length buf n skip)
  | 0, _ => Grows.pure _
  | n + 1, skip => by
    unfold parsePrefixesV2S
    grows
    · exact ⟨fun s => List.prefix_append _ _⟩
    · exact grows_prefixesV2 length buf n _

theorem grows_EIDs (length : UInt16) (buf : Slice) : ∀ n i skip, Grows (·.IPv6Prefixes) (parseEIDsS length buf n i skip)
  | 0, _, _ => Grows.pure _
  | n + 1, i, skip => by
    unfold parseEIDsS
    grows
    exact grows_EIDs length buf n _ _

theorem grows_GIDs (length : UInt16) (buf : Slice) : ∀ n i skip, Grows (·.IPv6Prefixes) (parseGIDsS length buf n i skip)
  | 0, _, _ => Grows.pure _
  | n + 1, i, skip => by
    unfold parseGIDsS
    grows
    exact grows_GIDs length buf n _ _

theorem grows_proposalV2 (buf : Slice) : Grows (·.IPv6Prefixes) (ProposalV2.parseS buf) := by
  unfold ProposalV2.parseS
  grows
  · exact grows_prefixesV2 _ _ _ _
  split
  · exact Grows.pure _
  grows
  · exact grows_EIDs _ _ _ _ _
  split
  · exact Grows.pure _
  grows
  · exact grows_GIDs _ _ _ _ _
  split <;> grows

theorem prefixes_left (buf : Slice) (m : Message) : m.prefixes <+: (m.left buf).prefixes := by
  cases m with
  | proposal m => exact (grows_proposal buf).holds m
  | proposalV2 m => exact (grows_proposalV2 buf).holds m
  | _ => exact List.prefix_rfl

/-! ## Arrays -/

/-- a slice that can be appended to -/
structure PrefixSlice.Fits (h : Arrays) (s : PrefixSlice) : Prop where
  len : s.len ≤ s.cap
  some : s.len = 0 → s.cap = 0
  arr : s.cap ≠ 0 → s.arr < h.length ∧ (h.getD s.arr []).length = s.cap

theorem getD_append_left (h : Arrays) (x : List IPv6Prefix) {a : Nat} (ha : a < h.length) : (h ++ [x]).getD a [] = h.getD a [] := by
  simp [List.getD, List.getElem?_append_left ha]

theorem read_length {h : Arrays} {s : PrefixSlice} (w : s.Fits h) : (h.read s).length = s.len := by
  unfold Arrays.read
  rw [List.length_take]
  by_cases hc : s.cap = 0
  · have := w.len
    omega
  · rw [(w.arr hc).2]
    exact Nat.min_eq_left w.len

/-- what `append` does -/
theorem append_spec (grow : Nat → Nat) {h : Arrays} {s : PrefixSlice} (w : s.Fits h) (p : IPv6Prefix) :
    (append grow (h, s) p).2.Fits (append grow (h, s) p).1 ∧
    (append grow (h, s) p).1.read (append grow (h, s) p).2 = h.read s ++ [p] ∧
    (append grow (h, s) p).2.len = s.len + 1 ∧
    h.length ≤ (append grow (h, s) p).1.length ∧
    (s.len < s.cap → (append grow (h, s) p).2.arr = s.arr ∧ (append grow (h, s) p).2.cap = s.cap) ∧
    (¬ s.len < s.cap → (append grow (h, s) p).2.arr = h.length) ∧
    ∀ a < h.length, ((append grow (h, s) p).1.getD a []).length = (h.getD a []).length ∧
      ∀ k : Nat, ((append grow (h, s) p).1.getD a [])[k]? =
        if a = s.arr ∧ s.len = k ∧ s.len < s.cap then some p else (h.getD a [])[k]? := by
  by_cases hc : s.len < s.cap
  · have hc0 : s.cap ≠ 0 := by omega
    obtain ⟨ha, hl⟩ := w.arr hc0
    have e : append grow (h, s) p = (h.modify s.arr (·.set s.len p), { s with len := s.len + 1 }) := if_pos hc
    have g : ∀ a < h.length, (h.modify s.arr (·.set s.len p)).getD a [] =
        if a = s.arr then (h.getD a []).set s.len p else h.getD a [] := by
      intro a ha
      by_cases hs : a = s.arr
      · subst hs
        simp [List.getD, List.getElem?_eq_getElem ha]
      · simp [List.getD, List.getElem?_eq_getElem ha, hs, Ne.symm hs]
    rw [e]
    refine ⟨⟨hc, fun h => (by cases h), fun _ => ⟨by simpa using ha, ?_⟩⟩, ?_, rfl, by simp, fun _ => ⟨rfl, rfl⟩,
      fun h => absurd hc h, ?_⟩
    · dsimp only
      rw [g _ ha, if_pos rfl, List.length_set, hl]
    · unfold Arrays.read
      dsimp only
      rw [g _ ha, if_pos rfl, List.take_add_one, List.take_set_of_le (Nat.le_refl _),
        List.getElem?_set_self (by omega)]
      rfl
    · intro a ha'
      dsimp only
      rw [g a ha']
      split
      · rename_i hs
        refine ⟨List.length_set, fun k => ?_⟩
        rw [List.getElem?_set]
        by_cases hk : s.len = k
        · rw [if_pos hk, if_pos (by rw [hs, hl]; exact hc), if_pos ⟨hs, hk, hc⟩]
        · rw [if_neg hk, if_neg (fun h => hk h.2.1)]
      · rename_i hs
        exact ⟨rfl, fun k => by rw [if_neg (fun h => hs h.1)]⟩
  · have e : append grow (h, s) p = (h ++ [h.read s ++ p :: List.replicate (max (s.len + 1) (grow s.cap) - (s.len + 1)) {}],
        ⟨h.length, s.len + 1, max (s.len + 1) (grow s.cap)⟩) := if_neg hc
    rw [e]
    have hr := read_length w
    refine ⟨⟨by dsimp only; omega, fun h => (by cases h), fun _ => ⟨by simp, ?_⟩⟩, ?_, rfl, by simp, fun h => absurd h hc,
      fun _ => rfl, ?_⟩
    · simp [List.getD, hr]
      omega
    · unfold Arrays.read
      simp only [List.getD, List.getElem?_append_right (Nat.le_refl _), Nat.sub_self, List.getElem?_cons_zero, Option.getD_some]
      rw [show List.take s.len (h[s.arr]?.getD []) = h.read s from rfl, ← hr, List.take_length_add_append]
      rfl
    · intro a ha
      dsimp only
      rw [getD_append_left h _ ha]
      exact ⟨rfl, fun k => by rw [if_neg (fun h => hc h.2.2)]⟩

/-- what several `append` do: to the slice, and to the arrays there were before -/
theorem appends_spec (grow : Nat → Nat) (new : List IPv6Prefix) {h : Arrays} {s : PrefixSlice} (w : s.Fits h) :
    (new.foldl (append grow) (h, s)).2.Fits (new.foldl (append grow) (h, s)).1 ∧
    (new.foldl (append grow) (h, s)).1.read (new.foldl (append grow) (h, s)).2 = h.read s ++ new ∧
    h.length ≤ (new.foldl (append grow) (h, s)).1.length ∧
    ∀ a < h.length, ((new.foldl (append grow) (h, s)).1.getD a []).length = (h.getD a []).length ∧
      ∀ k : Nat, ((new.foldl (append grow) (h, s)).1.getD a [])[k]? =
        if a = s.arr ∧ s.len ≤ k ∧ k < s.cap ∧ k < s.len + new.length then new[k - s.len]? else (h.getD a [])[k]? := by
  induction new generalizing h s with
  | nil =>
    refine ⟨w, by simp, Nat.le_refl _, fun a _ => ⟨rfl, fun k => ?_⟩⟩
    rw [if_neg (by simp; omega)]
    rfl
  | cons p new ih =>
    obtain ⟨a1, a2, a3, a4, a5, a6, a7⟩ := append_spec grow w p
    rw [List.foldl_cons]
    generalize append grow (h, s) p = x at a1 a2 a3 a4 a5 a6 a7
    obtain ⟨h1, s1⟩ := x
    dsimp only at a1 a2 a3 a4 a5 a6 a7
    obtain ⟨i1, i2, i3, i4⟩ := ih a1
    refine ⟨i1, by rw [i2, a2]; simp, Nat.le_trans a4 i3, fun a ha => ?_⟩
    obtain ⟨b1, b2⟩ := i4 a (by omega)
    obtain ⟨c1, c2⟩ := a7 a ha
    refine ⟨b1.trans c1, fun k => ?_⟩
    rw [b2, c2]
    by_cases hc : s.len < s.cap
    · obtain ⟨e1, e2⟩ := a5 hc
      rw [e1, e2, a3, List.length_cons]
      by_cases hk : a = s.arr ∧ s.len = k
      · rw [if_neg (by omega), if_pos ⟨hk.1, hk.2, hc⟩, if_pos (by omega), ← hk.2, Nat.sub_self]
        rfl
      · by_cases hk' : a = s.arr ∧ s.len + 1 ≤ k ∧ k < s.cap ∧ k < s.len + 1 + new.length
        · rw [if_pos hk', if_pos (by omega), show k - s.len = k - (s.len + 1) + 1 by omega, List.getElem?_cons_succ]
        · rw [if_neg hk', if_neg (fun h => hk ⟨h.1, h.2.1⟩), if_neg (by omega)]
    · rw [if_neg (fun h => by have := a6 hc; omega), if_neg (fun h => hc h.2.2), if_neg (by omega)]

/-- slices still fit when others have been appended to -/
theorem PrefixSlice.Fits.mono {h h' : Arrays} {s : PrefixSlice} (w : s.Fits h) (hl : h.length ≤ h'.length)
    (hs : ∀ a < h.length, (h'.getD a []).length = (h.getD a []).length) : s.Fits h' :=
  ⟨w.len, w.some, fun hc => ⟨Nat.lt_of_lt_of_le (w.arr hc).1 hl, (hs _ (w.arr hc).1).trans (w.arr hc).2⟩⟩

/-! ## Programs -/

/-- the slices of all variables fit -/
def Mem.Ok (s : Mem) : Prop := ∀ v ∈ s.vars, v.pre.Fits s.arrays

theorem fits_nil (h : Arrays) : PrefixSlice.Fits h {} := ⟨Nat.le_refl 0, fun _ => rfl, fun h => absurd rfl h⟩

theorem Mem.Ok.init (ms : List Message) : (Mem.init ms).Ok := by
  intro v hv
  obtain ⟨m, _, rfl⟩ := List.mem_map.1 hv
  exact fits_nil _

/-- what `Parse` appends to the prefixes of a variable -/
def Mem.added (s : Mem) (v : Holder) (buf : Slice) : List IPv6Prefix :=
  ((s.view v).left buf).prefixes.drop (s.view v).prefixes.length

theorem step_parse {grow : Nat → Nat} {s s' : Mem} {i : Nat} {buf : Slice} (h : s.step grow (.parse i buf) = some s') :
    ∃ v, s.vars[i]? = some v ∧ s' = ⟨((s.added v buf).foldl (append grow) (s.arrays, v.pre)).1,
      s.vars.set i ⟨(s.view v).left buf, ((s.added v buf).foldl (append grow) (s.arrays, v.pre)).2⟩⟩ := by
  simp only [Mem.step] at h
  rcases hv : s.vars[i]? with _ | v
  · rw [hv] at h
    cases h
  · rw [hv] at h
    cases h
    exact ⟨v, rfl, rfl⟩

theorem step_copy {grow : Nat → Nat} {s s' : Mem} {i j : Nat} (h : s.step grow (.copy i j) = some s') :
    ∃ v w, s.vars[i]? = some v ∧ s.vars[j]? = some w ∧ v.msg.zero = w.msg.zero ∧ s' = { s with vars := s.vars.set j v } := by
  simp only [Mem.step] at h
  rcases hv : s.vars[i]? with _ | v <;> rcases hw : s.vars[j]? with _ | w <;> rw [hv, hw] at h
  · cases h
  · cases h
  · cases h
  · dsimp only at h
    split at h
    · rename_i e
      cases h
      exact ⟨v, w, rfl, rfl, e, rfl⟩
    · cases h

theorem step_clear {grow : Nat → Nat} {s s' : Mem} {i : Nat} (h : s.step grow (.clear i) = some s') :
    ∃ v, s.vars[i]? = some v ∧ s' = { s with vars := s.vars.set i ⟨v.msg.zero, {}⟩ } := by
  simp only [Mem.step] at h
  rcases hv : s.vars[i]? with _ | v <;> rw [hv] at h
  · cases h
  · cases h
    exact ⟨v, rfl, rfl⟩

theorem Mem.Ok.step {grow : Nat → Nat} {s s' : Mem} (o : s.Ok) {u : Use} (h : s.step grow u = some s') : s'.Ok := by
  cases u with
  | parse i buf =>
    obtain ⟨v, hv, rfl⟩ := step_parse h
    obtain ⟨a1, a2, a3, a4⟩ := appends_spec grow (s.added v buf) (o v (List.mem_of_getElem? hv))
    intro v' hv'
    rcases List.mem_or_eq_of_mem_set hv' with hm | rfl
    · exact (o v' hm).mono a3 fun a ha => (a4 a ha).1
    · exact a1
  | copy i j =>
    obtain ⟨v, w, hv, hw, _, rfl⟩ := step_copy h
    intro v' hv'
    rcases List.mem_or_eq_of_mem_set hv' with hm | rfl
    · exact o v' hm
    · exact o _ (List.mem_of_getElem? hv)
  | clear i =>
    obtain ⟨v, hv, rfl⟩ := step_clear h
    intro v' hv'
    rcases List.mem_or_eq_of_mem_set hv' with hm | rfl
    · exact o v' hm
    · exact fits_nil _

theorem Mem.Ok.run {grow : Nat → Nat} {us : List Use} : ∀ {s s' : Mem}, s.Ok → s.run grow us = some s' → s'.Ok := by
  induction us with
  | nil =>
    intro s s' o h
    cases h
    exact o
  | cons u us ih =>
    intro s s' o h
    obtain ⟨t, ht, h⟩ := Option.bind_eq_some_iff.1 h
    exact ih (o.step ht) h

theorem prefixes_with (ps : List IPv6Prefix) (m : Message) :
    (m.withPrefixes ps).prefixes = ps ∨ (∀ qs, m.withPrefixes qs = m) ∧ m.prefixes = [] := by
  cases m with
  | proposal m => exact .inl rfl
  | proposalV2 m => exact .inl rfl
  | _ => exact .inr ⟨fun _ => rfl, rfl⟩

theorem with_prefixes (m : Message) : m.withPrefixes m.prefixes = m := by
  cases m <;> rfl

end SMC.CLC
