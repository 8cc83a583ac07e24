import Verif.Spec.Hopeless
import Verif.Props.CLCSpare
import Verif.Props.LocalExact
/-!
# C83: for which buffers the spare capacity does not matter
-/

namespace SMC.Props

open SMC Spec CLC

/-- the same result, apart from the raw bytes: both calls panic, or both return the same message after the same log -/
def SameResult (x y : Go Message) : Prop :=
  (x.Panics ∧ y.Panics) ∨
    ∃ l a b, x = .ret l a ∧ y = .ret l b ∧ withRawHdr a ⟨[], []⟩ a.hdr = withRawHdr b ⟨[], []⟩ b.hdr

theorem declared_lt (v : Bytes) : declared v < 65536 := num_lt (w := 16)

theorem num_most {v e : Bytes} (hv : v.length < 40) (he : 40 ≤ v.length + e.length) :
    num (v ++ e) 38 0 16 ≤ num (v ++ List.replicate 40 255) 38 0 16 := by
  have l1 : (v ++ e).length = v.length + e.length := List.length_append
  have l2 : (v ++ List.replicate 40 (255 : UInt8)).length = v.length + 40 := by simp
  rw [num_16 _ _ (by omega), num_16 _ _ (by omega)]
  have b1 := ((v ++ e)[38]'(by omega)).toNat_lt
  have b2 := ((v ++ e)[38+1]'(by omega)).toNat_lt
  have e2 : ((v ++ List.replicate 40 (255 : UInt8))[38+1]'(by omega)) = 255 := by
    rw [List.getElem_append_right (by omega), List.getElem_replicate]
  rw [e2]
  have : (255 : UInt8).toNat = 255 := rfl
  by_cases h : v.length = 39
  · rw [List.getElem_append_left (show 38 < v.length from by omega), List.getElem_append_left (show 38 < v.length from by omega)]
    omega
  · have e1 : ((v ++ List.replicate 40 (255 : UInt8))[38]'(by omega)) = 255 := by
      rw [List.getElem_append_right (by omega), List.getElem_replicate]
    rw [e1]
    omega

theorem num_there {v e : Bytes} (hv : 40 ≤ v.length) : num (v ++ e) 38 0 16 = num v 38 0 16 :=
  (behind_agree v e).num 38 0 16 (by omega) |>.symm

theorem hopelessV1_iff (v : Bytes) : (∀ e, CrashesV1 v e) ↔ HopelessV1 v := by
  have hd := declared_lt v
  unfold CrashesV1 HopelessV1
  constructor
  · intro h
    have h := h (List.replicate 40 255 ++ List.replicate 65536 255)
    have hn : num (v ++ (List.replicate 40 255 ++ List.replicate 65536 255)) 38 0 16 =
        num (v ++ List.replicate 40 255) 38 0 16 := by
      rw [← List.append_assoc]
      exact num_there (by simp)
    simp only [hn, Overdump, List.length_append, List.length_replicate] at h ⊢
    generalize 40 + num (v ++ List.replicate 40 255) 38 0 16 = at_ at h ⊢
    generalize entries (declared v) (at_ + 8) 17 (num v (at_ + 7) 0 8) = c at h ⊢
    generalize num v (at_ + 7) 0 8 = n at h
    split at h
    · omega
    · rcases h with h | h | h
      · omega
      · omega
      · split at h
        · omega
        · omega
  · intro ⟨h1, h2, h3⟩ e
    dsimp only
    rw [if_neg (by omega)]
    by_cases hc : v.length + e.length < 40
    · exact .inl hc
    refine .inr (.inr ?_)
    by_cases hv : 40 ≤ v.length
    · rw [num_there hv]
      rw [num_there hv] at h2 h3
      rw [if_neg (by omega)]
      exact .inl h3
    · have := num_most (v := v) (e := e) (by omega) (by omega)
      rw [if_neg (by omega)]
      exact .inl (by omega)

theorem hopelessV2_iff (v : Bytes) : (∀ e, CrashesV2 v e) ↔ HopelessV2 v := by
  have hd := declared_lt v
  constructor
  · intro h
    have h := h (List.replicate 65536 0)
    have smcd : ∀ n k, CrashesSMCD v (List.replicate 65536 0) n k → HopelessSMCD v n k := by
      intro n k h
      simp only [CrashesSMCD, Overdump, List.length_replicate] at h
      unfold HopelessSMCD
      split at h
      · rename_i c
        split at h
        · omega
        · refine ⟨c, by omega, ?_⟩
          rcases h with h | h | h
          · exact h
          · unfold entries at h; omega
          · omega
      · exact absurd h not_false
    have ext : ∀ k, CrashesExt v (List.replicate 65536 0) k (CrashesSMCD v (List.replicate 65536 0)) → HopelessExt v k := by
      intro k h
      simp only [CrashesExt, Overdump, List.length_replicate] at h
      unfold HopelessExt
      split at h
      · exact absurd h not_false
      · rename_i c
        split at h
        · omega
        · refine ⟨c, by omega, ?_⟩
          rcases h with h | h | h | h | h
          · exact .inl h
          · exact .inr (.inl h)
          · exfalso; unfold entries at h; omega
          · omega
          · exact .inr (.inr (smcd _ _ h))
    simp only [CrashesV2, CrashesIP, Overdump, List.length_replicate] at h
    unfold HopelessV2
    split at h
    · omega
    · refine ⟨by omega, ?_⟩
      rcases h with h | h
      · omega
      · split at h
        · rename_i c
          rw [if_pos c]
          exact ext _ h
        · rename_i c
          rw [if_neg c]
          split at h
          · omega
          · refine ⟨by omega, ?_⟩
            rcases h with h | h | h
            · exact .inl h
            · omega
            · exact .inr (ext _ h)
  · intro h e
    have smcd : ∀ n k, HopelessSMCD v n k → CrashesSMCD v e n k := by
      intro n k ⟨h1, h2, h3⟩
      unfold CrashesSMCD
      dsimp only
      rw [if_pos h1, if_neg (by omega)]
      exact .inl h3
    have ext : ∀ k, HopelessExt v k → CrashesExt v e k (CrashesSMCD v e) := by
      intro k ⟨h1, h2, h3⟩
      unfold CrashesExt
      dsimp only
      rw [if_neg h1, if_neg (by omega)]
      rcases h3 with h | h | h
      · exact .inl h
      · exact .inr (.inl h)
      · exact .inr (.inr (.inr (.inr (smcd _ _ h))))
    obtain ⟨h1, h⟩ := h
    unfold CrashesV2 CrashesIP
    rw [if_neg (by omega)]
    refine .inr ?_
    dsimp only
    split at h
    · rename_i c
      rw [if_pos c]
      exact ext _ h
    · rename_i c
      rw [if_neg c, if_neg (by omega)]
      rcases h.2 with h | h
      · exact .inl h
      · exact .inr (.inr (ext _ h))

theorem hopeless_fixed (k : CLCKind) (v : Bytes) (h1 : k ≠ .proposal) (h2 : k ≠ .proposalV2) :
    (∀ e, ParseCrashes k ⟨v, e⟩) ↔ Hopeless k v := by
  have hd := declared_lt v
  constructor
  · intro h
    have h := h (List.replicate 65536 0)
    rcases h with h | h
    · exact .inl h
    · refine .inr ?_
      cases k <;> first | exact absurd rfl h1 | exact absurd rfl h2 | skip
      all_goals
        dsimp only [FixedCrashes, Slice.len, Slice.cap] at h
        simp only [List.length_replicate] at h
        have c : ¬ declared v < minLen _ := fun c => by rw [if_pos c] at h; omega
        rw [if_neg c] at h
        simp only [minLen] at h c ⊢
        omega
  · intro h e
    rcases h with h | h
    · exact .inl h
    · refine .inr ?_
      cases k <;> first | exact absurd rfl h1 | exact absurd rfl h2 | skip
      all_goals
        dsimp only [FixedCrashes, Slice.len, Slice.cap]
        rw [if_neg (by simp only [minLen] at h ⊢; omega)]
        simp only [minLen] at h ⊢
        omega

/-- the buffers on which `Parse` panics whatever their capacity and what is in it -/
theorem hopeless_iff (k : CLCKind) (v : Bytes) : (∀ e, ParseCrashes k ⟨v, e⟩) ↔ Hopeless k v := by
  by_cases h8 : v.length < 8
  · exact ⟨fun _ => .inl h8, fun _ _ => .inl h8⟩
  by_cases h1 : k = .proposal
  · subst h1
    exact ⟨fun h => .inr ((hopelessV1_iff v).1 fun e => (h e).resolve_left h8),
      fun h e => .inr ((hopelessV1_iff v).2 (h.resolve_left h8) e)⟩
  by_cases h2 : k = .proposalV2
  · subst h2
    exact ⟨fun h => .inr ((hopelessV2_iff v).1 fun e => (h e).resolve_left h8),
      fun h e => .inr ((hopelessV2_iff v).2 (h.resolve_left h8) e)⟩
  exact hopeless_fixed k v h1 h2

/-- C83, exactly: the spare capacity of a buffer does not matter if and only if parsing it succeeds without any, or if it
panics with all. -/
theorem C83_exact (m : Message) (hm : Sized m) (v : Bytes) :
    (∀ e e', SameResult (m.parse ⟨v, e⟩) (m.parse ⟨v, e'⟩)) ↔
      ¬ ParseCrashes (clcKind m) ⟨v, []⟩ ∨ Hopeless (clcKind m) v := by
  constructor
  · intro h
    by_cases hc : ParseCrashes (clcKind m) ⟨v, []⟩
    · refine .inr ((hopeless_iff _ v).1 fun e => ?_)
      rw [← C45_crashes m hm] at hc ⊢
      rcases h [] e with h | ⟨l, a, b, h, -⟩
      · exact h.2
      · obtain ⟨l', h'⟩ := hc
        rw [h'] at h
        cases h
    · exact .inl hc
  · intro h e e'
    rcases h with h | h
    · obtain ⟨l, x, -, hx⟩ := C83_spare_partial m hm v h
      refine .inr ⟨l, _, _, hx e, hx e', ?_⟩
      cases x <;> rfl
    · have h := (hopeless_iff _ v).2 h
      exact .inl ⟨(C45_crashes m hm _).2 (h e), (C45_crashes m hm _).2 (h e')⟩

/-- a Decline of 28 bytes of which 20 are in the buffer, and a Proposal of 1000 bytes of which 39 are, so that only half of its
offset is known, are never parsed; if 100 bytes are declared, the Proposal is parsed if the spare capacity says that its IP
area is far behind -/
example :
    let v := hex! "e2 d4 c3 d9 01 00 64 10" ++ zeros 31
    Hopeless .decline (hex! "e2 d4 c3 d9 04 00 1c 10" ++ zeros 12) ∧
    Hopeless .proposal (hex! "e2 d4 c3 d9 01 03 e8 10" ++ zeros 31) ∧
    ParseCrashes .proposal ⟨v, []⟩ ∧ ¬ Hopeless .proposal v ∧ ¬ ParseCrashes .proposal ⟨v, hex! "50" ++ zeros 60⟩ := by
  refine ⟨.inr (by decide +kernel), .inr ?_, .inr ?_, ?_, ?_⟩
  · dsimp only [HopelessV1]; decide +kernel
  · dsimp only [CrashesV1, Overdump]; decide +kernel
  · dsimp only [Hopeless, HopelessV1]; decide +kernel
  · dsimp only [ParseCrashes, CrashesV1, Overdump]; decide +kernel

end SMC.Props
