import Verif.Spec.Socket
/-!
# Addresses
-/

namespace SMC.Socket

theorem lastCut_none {c : UInt8} {s : Bytes} : lastCut c s = none ↔ c ∉ s := by
  induction s with
  | nil => simp [lastCut]
  | cons b s ih =>
    simp only [lastCut]
    cases e : lastCut c s with
    | some p =>
      have : c ∈ s := by
        apply Decidable.byContradiction
        intro h
        rw [ih.2 h] at e
        cases e
      simp [this]
    | none =>
      have := ih.1 e
      by_cases hb : b = c
      · simp [hb]
      · simp [hb, this, Ne.symm hb]

theorem lastCut_split {c : UInt8} {x y : Bytes} (h : c ∉ y) :
    lastCut c (x ++ c :: y) = some (x, y) := by
  induction x with
  | nil => simp [lastCut, lastCut_none.2 h]
  | cons b x ih => simp only [List.cons_append, lastCut, ih]

theorem lastCut_some {c : UInt8} {s x y : Bytes} :
    lastCut c s = some (x, y) ↔ s = x ++ c :: y ∧ c ∉ y := by
  constructor
  · intro h
    induction s generalizing x with
    | nil => cases h
    | cons b s ih =>
      simp only [lastCut] at h
      split at h
      · rename_i x' y' e
        cases h
        obtain ⟨e1, e2⟩ := ih e
        exact ⟨by rw [e1]; rfl, e2⟩
      · rename_i e
        split at h
        · rename_i hb
          cases h
          exact ⟨by rw [hb]; rfl, lastCut_none.1 e⟩
        · cases h
  · rintro ⟨rfl, h⟩
    exact lastCut_split h

theorem firstCut_some {c : UInt8} {s x y : Bytes} :
    firstCut c s = some (x, y) ↔ s = x ++ c :: y ∧ c ∉ x := by
  induction s generalizing x with
  | nil => simp [firstCut]
  | cons b s ih =>
    simp only [firstCut]
    by_cases hb : b = c
    · subst hb
      rw [if_pos rfl]
      constructor
      · intro h
        cases h
        exact ⟨rfl, by simp⟩
      · rintro ⟨h1, h2⟩
        cases x with
        | nil => cases h1; rfl
        | cons z x =>
          cases h1
          exact absurd (by simp) h2
    · rw [if_neg hb]
      cases x with
      | nil =>
        constructor
        · intro h
          split at h <;> cases h
        · rintro ⟨h1, _⟩
          cases h1
          exact absurd rfl hb
      | cons z x =>
        have := ih (x := x)
        constructor
        · intro h
          split at h
          · rename_i x' y' e
            cases h
            obtain ⟨e1, e2⟩ := this.1 e
            exact ⟨by rw [e1]; rfl, by simp [e2, Ne.symm hb]⟩
          · cases h
        · rintro ⟨h1, h2⟩
          cases h1
          rw [this.2 ⟨rfl, fun m => h2 (by simp [m])⟩]

/-- `net.SplitHostPort` accepts exactly the addresses "host:port" and "[host]:port". -/
theorem splitHostPort_iff {a h p : Bytes} : splitHostPort a = some (h, p) ↔ HostPort a h p := by
  unfold splitHostPort
  constructor
  · intro e
    split at e
    · cases e
    · rename_i before port hl
      obtain ⟨ha, hp⟩ := lastCut_some.1 hl
      split at e
      · rename_i rest
        split at e
        · cases e
        · rename_i host behind hf
          obtain ⟨hr, hh⟩ := firstCut_some.1 hf
          split at e
          · cases e
          · rename_i c1
            split at e
            · cases e
            · rename_i c2
              split at e
              · cases e
              · rename_i c3
                cases e
                have c1 : 0x5b :: (h ++ [0x5d]) = before := Decidable.not_not.1 c1
                subst c1
                have e1 : rest = h ++ 0x5d :: 0x3a :: p := by
                  simp only [List.cons_append, List.append_assoc, List.nil_append, List.cons.injEq,
                    true_and] at ha
                  exact ha
                have e2 : behind = 0x3a :: p := by
                  rw [hr] at e1
                  simpa using e1
                rw [e1] at c2
                rw [e2] at c3
                simp only [List.mem_append, List.mem_cons, not_or] at c2 c3
                exact ⟨Or.inr (by rw [e1]), c2.1, hh, hp, c2.2.2.2, c3.2⟩
      · split at e
        · cases e
        · rename_i c1
          split at e
          · cases e
          · rename_i c2
            split at e
            · cases e
            · rename_i c3
              cases e
              rw [ha] at c2 c3
              simp only [List.mem_append, List.mem_cons, not_or] at c2 c3
              exact ⟨Or.inl ⟨ha, c1⟩, c2.1, c3.1, hp, c2.2.2, c3.2.2⟩
  · rintro ⟨e | rfl, n1, n2, n3, n4, n5⟩
    · obtain ⟨rfl, n0⟩ := e
      rw [lastCut_split n3]
      have hb : ∀ r, h ++ 0x3a :: p ≠ 0x5b :: r := by
        intro r e
        cases h with
        | nil => cases e
        | cons b h =>
          cases e
          exact n1 (by simp)
      dsimp only
      split
      · rename_i r e
        exact absurd e (hb r)
      · rw [if_neg n0, if_neg (by simp [n1, n4]), if_neg (by simp [n2, n5])]
    · have e : (0x5b : UInt8) :: (h ++ 0x5d :: 0x3a :: p) = (0x5b :: (h ++ [0x5d])) ++ 0x3a :: p := by simp
      rw [e, lastCut_split n3, ← e]
      dsimp only
      split
      · rename_i r e'
        cases e'
        rw [firstCut_some.2 ⟨rfl, n2⟩]
        dsimp only
        rw [if_neg (by simp), if_neg (by simp [n1, n4]), if_neg (by simp [n5])]
      · rename_i hn
        exact absurd rfl (hn _)

theorem splitHostPort_none {a : Bytes} : splitHostPort a = none ↔ ∀ h p, ¬ HostPort a h p := by
  constructor
  · intro e h p hp
    rw [splitHostPort_iff.2 hp] at e
    cases e
  · intro h
    cases e : splitHostPort a with
    | none => rfl
    | some x => exact absurd ((splitHostPort_iff (h := x.1) (p := x.2)).1 e) (h _ _)

theorem to4_iff {ip v : Bytes} : to4 ip = some v ↔ IsIPv4 ip v := by
  unfold to4 IsIPv4
  constructor
  · intro e
    split at e
    · rename_i h
      cases e
      exact ⟨h, Or.inl rfl⟩
    · split at e
      · rename_i h
        cases e
        obtain ⟨hl, h1, h2⟩ := h
        refine ⟨by simp [hl], Or.inr ?_⟩
        have e1 : ip = ip.take 10 ++ ((ip.drop 10).take 2 ++ (ip.drop 10).drop 2) := by
          rw [List.take_append_drop, List.take_append_drop]
        rw [h1, h2, List.drop_drop] at e1
        exact e1
      · cases e
  · rintro ⟨hl, rfl | rfl⟩
    · rw [if_pos hl]
    · rw [if_neg (by simp), if_pos]
      · rfl
      · simp [hl, zeros]

theorem to16_some {ip : Bytes} (h : ip.length = 16) : to16 ip = some ip := by
  unfold to16
  rw [if_neg (by omega), if_pos h]

theorem to16_none {ip : Bytes} (h4 : ip.length ≠ 4) (h : ip.length ≠ 16) : to16 ip = none := by
  unfold to16
  rw [if_neg h4, if_neg h]

end SMC.Socket
