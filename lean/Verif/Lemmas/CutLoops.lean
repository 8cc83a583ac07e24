import Verif.Lemmas.Held
/-!
# The values of the numbers that LLC messages read in loops, after a crash
-/

namespace SMC.Tail
open SGo Left LLC

variable {σ ρ τ α β γ : Type}

theorem Held.fill_last {ι ξ M : Type} {C : M → ι → Prop} {m : M} (m' : M) {S : Sight σ ρ (ι → ξ)} (Q : ι → Prop) {r : Prop}
    {u : σ → σ} (hput : ∀ q s, u (S.put q s) = S.put q (u s)) (hQ : ∀ i, C m i → ¬ Q i) (hC : ∀ i, C m' i ↔ C m i ∨ Q i)
    (hu : ∀ s i, ¬ Q i → S.get (u s) i = S.get s i) : Held S (entries C m) r (SGo.assign u) (SGo.assign u) := by
  have := Held.fill_assign (r := r) (f := fun _ => pure ()) (g := fun _ => pure ()) m' hput hQ hC hu
    (Held.done (fun _ _ h => by cases h) fun _ => rfl)
  simpa only [bind_pure'] using this

/-- the numbers of one part -/
def numbersOf (row : τ → List Nat) : Sight τ Unit (Nat → Option Nat) where
  get t j := (row t)[j]?
  put _ t := t
  get_put _ _ := rfl
  put_put _ _ _ := rfl

/-- the numbers of a list -/
def numbersIn (row : τ → List Nat) (L : σ → List τ) (put : ρ → σ → σ) (h : ∀ q s, L (put q s) = L s)
    (h' : ∀ r r' s, put r (put r' s) = put r s) : Sight σ ρ (Nat × Nat → Option Nat) where
  get s ij := entry (some (.nums ((L s).map row))) ij.1 ij.2
  put := put
  get_put q s := by rw [h]
  put_put := h'

theorem entry_set_ne {row : τ → List Nat} {l : List τ} {t : τ} {i n j : Nat} (h : n ≠ i) :
    entry (some (.nums ((l.set i t).map row))) n j = entry (some (.nums (l.map row))) n j := by
  unfold entry
  dsimp only
  rw [List.map_set, List.getElem?_set_ne (Ne.symm h)]

theorem entry_set_self {row : τ → List Nat} {l : List τ} {t : τ} {i j : Nat} (h : i < l.length) :
    entry (some (.nums ((l.set i t).map row))) i j = (row t)[j]? := by
  unfold entry
  dsimp only
  rw [List.map_set, List.getElem?_set_self (by rwa [List.length_map])]
  rfl

theorem entry_getD {row : τ → List Nat} {l : List τ} {d : τ} {i j : Nat} (h : i < l.length) :
    entry (some (.nums (l.map row))) i j = (row (l.getD i d))[j]? := by
  unfold entry
  dsimp only
  rw [List.getElem?_map, List.getElem?_eq_getElem h, List.getD_eq_getElem?_getD, List.getElem?_eq_getElem h]
  rfl

/-- One part of the list is read. -/
theorem Held.piece {row : τ → List Nat} {L : σ → List τ} {put : ρ → σ → σ} {h h'} {i : Nat} {d : τ} {set : τ → σ → σ} {r : Prop}
    {x y : SGo τ Unit} {f : Unit → SGo σ β} {g : Unit → SGo σ γ} (hset : ∀ t s, L (set t s) = (L s).set i t)
    (hput : ∀ q t s, set t (put q s) = put q (set t s))
    (hs : Same r x y)
    (hxy : Held (numbersOf row) (entries before 0) r x y)
    (next : Held (numbersIn row L put h h') (entries before2 (i + 1, 0)) r (f ()) (g ())) :
    Held (numbersIn row L put h h') (entries before2 (i, 0)) r
      (within (fun s => (L s).getD i d) set x >>= f) (within (fun s => (L s).getD i d) set y >>= g) := by
  have others : ∀ (x : SGo τ Unit) s (ij : Nat × Nat), ¬ ij.1 = i →
      (numbersIn row L put h h').get (within (fun s => (L s).getD i d) set x s).2 ij = (numbersIn row L put h h').get s ij := by
    intro x s ij hij
    show entry (some (.nums ((L (set (x ((L s).getD i d)).2 s)).map row))) ij.1 ij.2 = entry (some (.nums ((L s).map row))) ij.1 ij.2
    rw [hset, entry_set_ne hij]
  refine Held.fill (Q := fun ij => ij.1 = i) (m' := (i + 1, 0)) (fun _ _ => r) ?_ ?_ ?_ (others x) (others y) ?_ fun _ _ => next
  · intro hr s q l a hx
    have e := hs hr ((L s).getD i d) l a hx
    refine ⟨l, a, ?_, hr⟩
    show ((y ((L (put q s)).getD i d)).1, set (y ((L (put q s)).getD i d)).2 (put q s)) = _
    rw [h, e, hput]
    exact congrArg (·, put q (set (x ((L s).getD i d)).2 s)) hx
  · intro ij h1 h2
    unfold before2 at h1
    omega
  · intro ij
    unfold before2
    omega
  · intro hr s q l l' b h1 h2
    have h2 : (y ((L (put q s)).getD i d)).1 = .ret l' b := h2
    rw [h] at h2
    by_cases hn : i < (L s).length
    · obtain ⟨k, _, hk⟩ := hxy.2 hr _ () l l' b h1 h2
      refine ⟨(i, k), fun ij => ?_, fun ij => ?_, ?_⟩
      · unfold before2
        omega
      · unfold before2
        omega
      rintro ⟨n, j⟩ hij
      obtain rfl : n = i := hij
      have hk := hk j
      constructor
      · intro hb
        show entry (some (.nums ((L (set (x ((L s).getD n d)).2 s)).map row))) n j =
          entry (some (.nums ((L (set (y ((L (put q s)).getD n d)).2 (put q s))).map row))) n j
        rw [hset, hset, h, entry_set_self hn, entry_set_self hn]
        refine hk.1 ?_
        unfold before2 at hb
        unfold before
        omega
      · intro hb
        show entry (some (.nums ((L (set (x ((L s).getD n d)).2 s)).map row))) n j = entry (some (.nums ((L s).map row))) n j
        rw [hset, entry_set_self hn, entry_getD (d := d) hn]
        refine hk.2 fun hb' => hb ?_
        unfold before at hb'
        unfold before2
        omega
    · refine ⟨(i, 0), fun ij h => h, fun ij => ?_, ?_⟩
      · unfold before2
        omega
      rintro ⟨n, j⟩ hij
      obtain rfl : n = i := hij
      refine ⟨fun hb => ?_, fun _ => ?_⟩
      · unfold before2 at hb
        omega
      · show entry (some (.nums ((L (set (x ((L s).getD n d)).2 s)).map row))) n j = entry (some (.nums ((L s).map row))) n j
        rw [hset, List.set_eq_of_length_le (by omega)]

/-- an assignment to number `n` of a list -/
macro "held_number" n:num : tactic => `(tactic|
  ((with_reducible refine Held.fill_assign ($n + 1) (Q := fun j => j = $n) ?_ ?_ ?_ ?_ ?_)
   · exact fun _ _ => rfl
   · intro j h1 h2
     unfold before at h1
     omega
   · intro j
     unfold before
     omega
   · rintro s (_ | _ | _ | j) hj
     all_goals first | rfl | exact absurd rfl hj))

macro "held_number_last" n:num : tactic => `(tactic|
  ((with_reducible refine Held.fill_last ($n + 1) (fun j => j = $n) ?_ ?_ ?_ ?_)
   · exact fun _ _ => rfl
   · intro j h1 h2
     unfold before at h1
     omega
   · intro j
     unfold before
     omega
   · rintro s (_ | _ | _ | j) hj
     all_goals first | rfl | exact absurd rfl hj))

theorem _root_.SMC.LLC.RKeyPair.held_parseS {len off : Nat} {a b : Slice} :
    Held (numbersOf rkeyPair) (entries before 0) (Rest len off a b) (RKeyPair.parseS a) (RKeyPair.parseS b) := by
  unfold RKeyPair.parseS
  held_read
  held_number 0
  held_read
  held_number 1
  held_read
  held_number_last 2

theorem _root_.SMC.LLC.RMBSpec.held_parseS {len off : Nat} {a b : Slice} :
    Held (numbersOf rmbSpec) (entries before 0) (Rest len off a b) (RMBSpec.parseS a) (RMBSpec.parseS b) := by
  unfold RMBSpec.parseS
  held_read
  held_number 0
  held_read
  held_number 1
  held_read
  held_number_last 2

/-! ## `AddLinkCont` -/

def addLinkContNumbers : Sight AddLinkCont Bytes (Nat × Nat → Option Nat) :=
  numbersIn rkeyPair (·.RKeyPairs) addLinkContView.put (fun _ _ => rfl) addLinkContView.put_put

theorem cut_parsePairsS {W : Nat → Way → Prop} {f g : Slice → SGo AddLinkCont Unit} {len : Nat} :
    ∀ (n i off : Nat) (a b : Slice),
    (∀ a b, Cut (without addLinkContView [8]) W 8 (Rest len (off + 16 * n) a b) (f a) (g b)) →
    Cut (without addLinkContView [8]) W 8 (Rest len off a b) (parsePairsS n i a >>= f) (parsePairsS n i b >>= g) := by
  intro n
  induction n with
  | zero =>
    intro i off a b h
    unfold parsePairsS
    rw [pure_bind', pure_bind']
    exact h a b
  | succ n ih =>
    intro i off a b h
    unfold parsePairsS
    simp only [bind_assoc']
    refine Cut.silent (fun _ _ => Rest len off a b) (fun _ => rfl) (fun _ => rfl) ?_ fun _ _ => ?_
    · intro hr s q l x hx
      have e := RKeyPair.same_parseS off hr (s.RKeyPairs.getD i {}) l x hx
      refine ⟨l, x, ?_, hr⟩
      show ((RKeyPair.parseS b (s.RKeyPairs.getD i {})).1,
        addLinkContView.put q { s with RKeyPairs := s.RKeyPairs.set i (RKeyPair.parseS b (s.RKeyPairs.getD i {})).2 }) = _
      rw [e]
      exact congrArg (·, _) hx
    refine Cut.sfrom fun a' b' => ?_
    refine ih _ _ _ _ fun a b => ?_
    have := h a b
    rwa [show off + 16 * (n + 1) = off + 16 + 16 * n by omega] at this

theorem held_parsePairsS {f g : Slice → SGo AddLinkCont Unit} {len : Nat} (h : ∀ m off a b, Held addLinkContNumbers (entries before2 m) (Rest len off a b) (f a) (g b)) :
    ∀ (n i off : Nat) (a b : Slice),
    Held addLinkContNumbers (entries before2 (i, 0)) (Rest len off a b) (parsePairsS n i a >>= f) (parsePairsS n i b >>= g) := by
  intro n
  induction n with
  | zero =>
    intro i off a b
    unfold parsePairsS
    rw [pure_bind', pure_bind']
    exact h _ _ a b
  | succ n ih =>
    intro i off a b
    unfold parsePairsS
    simp only [bind_assoc']
    refine Held.piece ?_ ?_ (RKeyPair.same_parseS off) RKeyPair.held_parseS ?_
    · exact fun _ _ => rfl
    · exact fun _ _ _ => rfl
    refine Held.sfrom fun a' b' => ?_
    exact ih _ _ _ _

theorem addLinkCont_between {m s' m' : AddLinkCont} {short long : Slice} {l l' : List Bytes} (h : Part short long)
    (hs : AddLinkCont.parseS short m = (.panic l, s')) (hl : m.parse long = .ret l' m') :
    Between addLinkContWays (addLinkCont m) (addLinkCont m') (addLinkCont s') := by
  rw [← AddLinkCont.final_parseS] at hl
  unfold AddLinkCont.parseS at hs hl
  rw [within_setBaseMsgS] at hs hl
  · refine between_without (V := addLinkContView) (ks := [8]) (ways := []) ?_ (fun _ h => by cases h) ?_
    · refine cut_whole (V := without addLinkContView [8]) h ?_ hs hl
      repeat cut_step
      cut_root h
      repeat cut_step
      refine cut_parsePairsS _ 0 _ _ _ fun a b => ?_
      refine Cut.weaken (j := 9) (by decide) id ?_
      cut_end
    · have key := held_whole (S := addLinkContNumbers) (k := entries before2 (0, 0)) h ?_ hs hl
      · intro k hk
        obtain rfl := List.mem_singleton.1 hk
        exact ⟨.numbers, List.mem_singleton.2 rfl, numbers_after key⟩
      repeat held_step
      held_root h
      repeat held_step
      refine held_parsePairsS (fun P off a b => ?_) _ _ _ _ _
      exact Held.done (fun _ _ h => by cases h) fun _ => rfl
  all_goals (intros; rfl)

/-! ## `ConfirmRKey` -/

def confirmRKeyNumbers : Sight ConfirmRKey Bytes (Nat × Nat → Option Nat) :=
  numbersIn rmbSpec (·.OtherRMBs) confirmRKeyView.put (fun _ _ => rfl) confirmRKeyView.put_put

theorem cut_parseRMBsS {W : Nat → Way → Prop} {f g : Slice → SGo ConfirmRKey Unit} {len : Nat} :
    ∀ (n i off : Nat) (a b : Slice),
    (∀ a b, Cut (without confirmRKeyView [11]) W 11 (Rest len (off + 13 * n) a b) (f a) (g b)) →
    Cut (without confirmRKeyView [11]) W 11 (Rest len off a b) (parseRMBsS n i a >>= f) (parseRMBsS n i b >>= g) := by
  intro n
  induction n with
  | zero =>
    intro i off a b h
    unfold parseRMBsS
    rw [pure_bind', pure_bind']
    exact h a b
  | succ n ih =>
    intro i off a b h
    unfold parseRMBsS
    simp only [bind_assoc']
    refine Cut.silent (fun _ _ => Rest len off a b) (fun _ => rfl) (fun _ => rfl) ?_ fun _ _ => ?_
    · intro hr s q l x hx
      have e := RMBSpec.same_parseS off hr (s.OtherRMBs.getD i {}) l x hx
      refine ⟨l, x, ?_, hr⟩
      show ((RMBSpec.parseS b (s.OtherRMBs.getD i {})).1,
        confirmRKeyView.put q { s with OtherRMBs := s.OtherRMBs.set i (RMBSpec.parseS b (s.OtherRMBs.getD i {})).2 }) = _
      rw [e]
      exact congrArg (·, _) hx
    refine Cut.sfrom fun a' b' => ?_
    refine ih _ _ _ _ fun a b => ?_
    have := h a b
    rwa [show off + 13 * (n + 1) = off + 13 + 13 * n by omega] at this

theorem held_parseRMBsS {f g : Slice → SGo ConfirmRKey Unit} {len : Nat} (h : ∀ m off a b, Held confirmRKeyNumbers (entries before2 m) (Rest len off a b) (f a) (g b)) :
    ∀ (n i off : Nat) (a b : Slice),
    Held confirmRKeyNumbers (entries before2 (i, 0)) (Rest len off a b) (parseRMBsS n i a >>= f) (parseRMBsS n i b >>= g) := by
  intro n
  induction n with
  | zero =>
    intro i off a b
    unfold parseRMBsS
    rw [pure_bind', pure_bind']
    exact h _ _ a b
  | succ n ih =>
    intro i off a b
    unfold parseRMBsS
    simp only [bind_assoc']
    refine Held.piece ?_ ?_ (RMBSpec.same_parseS off) RMBSpec.held_parseS ?_
    · exact fun _ _ => rfl
    · exact fun _ _ _ => rfl
    refine Held.sfrom fun a' b' => ?_
    exact ih _ _ _ _

theorem confirmRKey_between {m s' m' : ConfirmRKey} {short long : Slice} {l l' : List Bytes} (h : Part short long)
    (hs : ConfirmRKey.parseS short m = (.panic l, s')) (hl : m.parse long = .ret l' m') :
    Between confirmRKeyWays (confirmRKey m) (confirmRKey m') (confirmRKey s') := by
  rw [← ConfirmRKey.final_parseS] at hl
  unfold ConfirmRKey.parseS at hs hl
  rw [within_setBaseMsgS] at hs hl
  · refine between_without (V := confirmRKeyView) (ks := [11]) (ways := []) ?_ (fun _ h => by cases h) ?_
    · refine cut_whole (V := without confirmRKeyView [11]) h ?_ hs hl
      repeat cut_step
      cut_root h
      repeat cut_step
      refine cut_parseRMBsS _ 0 _ _ _ fun a b => ?_
      refine Cut.weaken (j := 12) (by decide) id ?_
      cut_step
      cut_end
    · have key := held_whole (S := confirmRKeyNumbers) (k := entries before2 (0, 0)) h ?_ hs hl
      · intro k hk
        obtain rfl := List.mem_singleton.1 hk
        exact ⟨.numbers, List.mem_singleton.2 rfl, numbers_after key⟩
      repeat held_step
      held_root h
      repeat held_step
      refine held_parseRMBsS (fun P off a b => ?_) _ _ _ _ _
      held_step
      exact Held.done (fun _ _ h => by cases h) fun _ => rfl
  all_goals (intros; rfl)

/-! ## `ConfirmRKeyCont` -/

def confirmRKeyContNumbers : Sight ConfirmRKeyCont Bytes (Nat × Nat → Option Nat) :=
  numbersIn rmbSpec (·.OtherRMBs) confirmRKeyContView.put (fun _ _ => rfl) confirmRKeyContView.put_put

theorem cut_parseRMBsContS {W : Nat → Way → Prop} {f g : Slice → SGo ConfirmRKeyCont Unit} {len : Nat} :
    ∀ (n i off : Nat) (a b : Slice),
    (∀ a b, Cut (without confirmRKeyContView [8]) W 8 (Rest len (off + 13 * n) a b) (f a) (g b)) →
    Cut (without confirmRKeyContView [8]) W 8 (Rest len off a b) (parseRMBsContS n i a >>= f) (parseRMBsContS n i b >>= g) := by
  intro n
  induction n with
  | zero =>
    intro i off a b h
    unfold parseRMBsContS
    rw [pure_bind', pure_bind']
    exact h a b
  | succ n ih =>
    intro i off a b h
    unfold parseRMBsContS
    simp only [bind_assoc']
    refine Cut.silent (fun _ _ => Rest len off a b) (fun _ => rfl) (fun _ => rfl) ?_ fun _ _ => ?_
    · intro hr s q l x hx
      have e := RMBSpec.same_parseS off hr (s.OtherRMBs.getD i {}) l x hx
      refine ⟨l, x, ?_, hr⟩
      show ((RMBSpec.parseS b (s.OtherRMBs.getD i {})).1,
        confirmRKeyContView.put q { s with OtherRMBs := s.OtherRMBs.set i (RMBSpec.parseS b (s.OtherRMBs.getD i {})).2 }) = _
      rw [e]
      exact congrArg (·, _) hx
    refine Cut.sfrom fun a' b' => ?_
    refine ih _ _ _ _ fun a b => ?_
    have := h a b
    rwa [show off + 13 * (n + 1) = off + 13 + 13 * n by omega] at this

theorem held_parseRMBsContS {f g : Slice → SGo ConfirmRKeyCont Unit} {len : Nat} (h : ∀ m off a b, Held confirmRKeyContNumbers (entries before2 m) (Rest len off a b) (f a) (g b)) :
    ∀ (n i off : Nat) (a b : Slice),
    Held confirmRKeyContNumbers (entries before2 (i, 0)) (Rest len off a b) (parseRMBsContS n i a >>= f) (parseRMBsContS n i b >>= g) := by
  intro n
  induction n with
  | zero =>
    intro i off a b
    unfold parseRMBsContS
    rw [pure_bind', pure_bind']
    exact h _ _ a b
  | succ n ih =>
    intro i off a b
    unfold parseRMBsContS
    simp only [bind_assoc']
    refine Held.piece ?_ ?_ (RMBSpec.same_parseS off) RMBSpec.held_parseS ?_
    · exact fun _ _ => rfl
    · exact fun _ _ _ => rfl
    refine Held.sfrom fun a' b' => ?_
    exact ih _ _ _ _

theorem confirmRKeyCont_between {m s' m' : ConfirmRKeyCont} {short long : Slice} {l l' : List Bytes} (h : Part short long)
    (hs : ConfirmRKeyCont.parseS short m = (.panic l, s')) (hl : m.parse long = .ret l' m') :
    Between confirmRKeyContWays (confirmRKeyCont m) (confirmRKeyCont m') (confirmRKeyCont s') := by
  rw [← ConfirmRKeyCont.final_parseS] at hl
  unfold ConfirmRKeyCont.parseS at hs hl
  rw [within_setBaseMsgS] at hs hl
  · refine between_without (V := confirmRKeyContView) (ks := [8]) (ways := []) ?_ (fun _ h => by cases h) ?_
    · refine cut_whole (V := without confirmRKeyContView [8]) h ?_ hs hl
      repeat cut_step
      cut_root h
      repeat cut_step
      refine cut_parseRMBsContS _ 0 _ _ _ fun a b => ?_
      refine Cut.weaken (j := 9) (by decide) id ?_
      cut_step
      cut_end
    · have key := held_whole (S := confirmRKeyContNumbers) (k := entries before2 (0, 0)) h ?_ hs hl
      · intro k hk
        obtain rfl := List.mem_singleton.1 hk
        exact ⟨.numbers, List.mem_singleton.2 rfl, numbers_after key⟩
      repeat held_step
      held_root h
      repeat held_step
      refine held_parseRMBsContS (fun P off a b => ?_) _ _ _ _ _
      held_step
      exact Held.done (fun _ _ h => by cases h) fun _ => rfl
  all_goals (intros; rfl)

/-! ## `DeleteRKey` -/

def deleteRKeyNumbers : Sight DeleteRKey Bytes (Nat × Nat → Option Nat) :=
  numbersIn (fun r => [r.toNat]) (·.rkeys) deleteRKeyView.put (fun _ _ => rfl) deleteRKeyView.put_put

theorem cut_parseRKeysS {W : Nat → Way → Prop} {f g : Slice → SGo DeleteRKey Unit} {len : Nat} :
    ∀ (n i off : Nat) (a b : Slice),
    (∀ a b, Cut (without deleteRKeyView [10]) W 10 (Rest len (off + 4 * n) a b) (f a) (g b)) →
    Cut (without deleteRKeyView [10]) W 10 (Rest len off a b) (parseRKeysS n i a >>= f) (parseRKeysS n i b >>= g) := by
  intro n
  induction n with
  | zero =>
    intro i off a b h
    unfold parseRKeysS
    rw [pure_bind', pure_bind']
    exact h a b
  | succ n ih =>
    intro i off a b h
    unfold parseRKeysS
    simp only [bind_assoc']
    cut_read
    cut_keep
    refine Cut.sfrom fun a' b' => ?_
    refine ih _ _ _ _ fun a b => ?_
    have := h a b
    rwa [show off + 4 * (n + 1) = off + 4 + 4 * n by omega] at this

theorem held_parseRKeysS {f g : Slice → SGo DeleteRKey Unit} {len : Nat} (h : ∀ m off a b, Held deleteRKeyNumbers (entries before2 m) (Rest len off a b) (f a) (g b)) :
    ∀ (n i off : Nat) (a b : Slice),
    Held deleteRKeyNumbers (entries before2 (i, 0)) (Rest len off a b) (parseRKeysS n i a >>= f) (parseRKeysS n i b >>= g) := by
  intro n
  induction n with
  | zero =>
    intro i off a b
    unfold parseRKeysS
    rw [pure_bind', pure_bind']
    exact h _ _ a b
  | succ n ih =>
    intro i off a b
    unfold parseRKeysS
    simp only [bind_assoc']
    held_read
    refine Held.fill_assign (i + 1, 0) (Q := fun ij => ij.1 = i) (fun _ _ => rfl) ?_ ?_ (fun s ij hij => entry_set_ne hij) ?_
    · intro ij h1 h2
      unfold before2 at h1
      omega
    · intro ij
      unfold before2
      omega
    refine Held.sfrom fun a' b' => ?_
    exact ih _ _ _ _

theorem deleteRKey_between {m s' m' : DeleteRKey} {short long : Slice} {l l' : List Bytes} (h : Part short long)
    (hs : DeleteRKey.parseS short m = (.panic l, s')) (hl : m.parse long = .ret l' m') :
    Between deleteRKeyWays (deleteRKey m) (deleteRKey m') (deleteRKey s') := by
  rw [← DeleteRKey.final_parseS] at hl
  unfold DeleteRKey.parseS at hs hl
  rw [within_setBaseMsgS] at hs hl
  · refine between_without (V := deleteRKeyView) (ks := [10]) (ways := []) ?_ (fun _ h => by cases h) ?_
    · refine cut_whole (V := without deleteRKeyView [10]) h ?_ hs hl
      repeat cut_step
      cut_root h
      repeat cut_step
      refine cut_parseRKeysS _ 0 _ _ _ fun a b => ?_
      refine Cut.weaken (j := 11) (by decide) id ?_
      cut_end
    · have key := held_whole (S := deleteRKeyNumbers) (k := entries before2 (0, 0)) h ?_ hs hl
      · intro k hk
        obtain rfl := List.mem_singleton.1 hk
        exact ⟨.numbers, List.mem_singleton.2 rfl, numbers_after key⟩
      repeat held_step
      held_root h
      repeat held_step
      refine held_parseRKeysS (fun P off a b => ?_) _ _ _ _ _
      exact Held.done (fun _ _ h => by cases h) fun _ => rfl
  all_goals (intros; rfl)

end SMC.Tail
