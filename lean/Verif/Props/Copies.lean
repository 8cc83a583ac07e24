import Verif.Lemmas.Copies
import Verif.Lemmas.CrashCLC
import Verif.Spec.CLC
/-!
# C118: copies of messages are independent of one another

The model is in `Verif/Crash/Copies.lean`: several variables with messages, which a program assigns to one another and parses
into, and the arrays with their IPv6 prefixes. `grow` is how `append` chooses capacities.
-/

namespace SMC.CLC

/-! ## What `Parse` does to other variables -/

theorem message_cases (m : Message) :
    (∀ ps qs, m.withPrefixes ps = m.withPrefixes qs ↔ ps = qs) ∧ (∀ ps, (m.withPrefixes ps).prefixes = ps) ∨
    (∀ ps, m.withPrefixes ps = m) ∧ m.prefixes = [] ∧ ∀ b, (m.left b).prefixes = [] := by
  cases m with
  | proposal m => exact .inl ⟨fun _ _ => by simp [Message.withPrefixes], fun _ => rfl⟩
  | proposalV2 m => exact .inl ⟨fun _ _ => by simp [Message.withPrefixes], fun _ => rfl⟩
  | _ => exact .inr ⟨fun _ => rfl, rfl, fun _ => rfl⟩

theorem with_left (ps : List IPv6Prefix) (m : Message) (h : ∀ qs, m.withPrefixes qs = m) (b : Slice) :
    (m.left b).withPrefixes ps = m.left b := by
  cases m with
  | proposal m => exact absurd ((h [{}]).trans (h []).symm) (by simp [Message.withPrefixes])
  | proposalV2 m => exact absurd ((h [{}]).trans (h []).symm) (by simp [Message.withPrefixes])
  | _ => rfl

theorem left_added (s : Mem) (v : Holder) (buf : Slice) :
    ((s.view v).left buf).prefixes = (s.view v).prefixes ++ s.added v buf := by
  obtain ⟨t, ht⟩ := prefixes_left buf (s.view v)
  unfold Mem.added
  rw [← ht, List.drop_left]

/-- the prefixes of another variable afterwards -/
theorem read_other (grow : Nat → Nat) {h : Arrays} {s t : PrefixSlice} (ws : s.Fits h) (wt : t.Fits h) (new : List IPv6Prefix)
    (k : Nat) : ((new.foldl (append grow) (h, s)).1.read t)[k]? =
      if t.arr = s.arr ∧ s.len ≤ k ∧ k < s.cap ∧ k < t.len ∧ k < s.len + new.length then new[k - s.len]?
      else (h.read t)[k]? := by
  unfold Arrays.read
  rw [List.getElem?_take, List.getElem?_take]
  by_cases hk : k < t.len
  · have hc : t.cap ≠ 0 := by
      have := wt.len
      omega
    obtain ⟨_, _, _, a4⟩ := appends_spec grow new ws
    rw [if_pos hk, if_pos hk, (a4 _ (wt.arr hc).1).2 k]
    by_cases hq : t.arr = s.arr ∧ s.len ≤ k ∧ k < s.cap ∧ k < s.len + new.length
    · rw [if_pos hq, if_pos ⟨hq.1, hq.2.1, hq.2.2.1, hk, hq.2.2.2⟩]
    · rw [if_neg hq, if_neg (fun h => hq ⟨h.1, h.2.1, h.2.2.1, h.2.2.2.2⟩)]
  · rw [if_neg hk, if_neg hk, if_neg (fun h => hk h.2.2.2.1)]

end SMC.CLC

namespace SMC.Props

open SMC CLC Spec

/-- C118: a message after a `Parse` that returned is the message that `Parse` returns in the other model. -/
theorem C118_left (m m' : Message) (buf : Slice) (l : List Bytes) (h : m.parse buf = .ret l m') : m.left buf = m' := by
  have key : ∀ {σ : Type} (x : SGo σ Unit) (s : σ) (f : σ → Message) (g : Go σ), SGo.final x s = g →
      (g >>= fun a => pure (f a)) = .ret l m' → f (x s).2 = m' := by
    intro σ x s f g e hg
    subst e
    unfold SGo.final at hg
    generalize x s = y at hg
    rcases y with ⟨⟨l1, a⟩ | l1, t⟩
    · cases hg
      rfl
    · cases hg
  cases m with
  | proposal m => exact key _ m .proposal _ (Proposal.final_parseS buf m) h
  | proposalV2 m => exact key _ m .proposalV2 _ (ProposalV2.final_parseS buf m) h
  | acceptSMCR m => exact key _ m .acceptSMCR _ (AcceptSMCR.final_parseS buf m) h
  | acceptSMCD m => exact key _ m .acceptSMCD _ (AcceptSMCD.final_parseS buf m) h
  | acceptSMCDv2 m => exact key _ m .acceptSMCDv2 _ (AcceptSMCDv2.final_parseS buf m) h
  | confirmSMCR m => exact key _ m .confirmSMCR _ (AcceptSMCR.final_parseS buf m) h
  | confirmSMCD m => exact key _ m .confirmSMCD _ (AcceptSMCD.final_parseS buf m) h
  | confirmSMCDv2 m => exact key _ m .confirmSMCDv2 _ (AcceptSMCDv2.final_parseS buf m) h
  | decline m => exact key _ m .decline _ (Decline.final_parseS buf m) h
  | declineV2 m => exact key _ m .declineV2 _ (DeclineV2.final_parseS buf m) h

/-- C118: the variable that a statement is about shows what it should: after `Parse` what `Parse` leaves in the message it showed
before, after an assignment what the other one shows, after clearing a zero value. Assignments and clearing change no other
variable. -/
theorem C118_target (grow : Nat → Nat) (ms : List Message) (us : List Use) (s s' : Mem) (h : (Mem.init ms).run grow us = some s) :
    (∀ i buf, s.step grow (.parse i buf) = some s' → s'.shows i = (s.shows i).map (Message.left buf)) ∧
    (∀ i j, s.step grow (.copy i j) = some s' → s'.shows j = s.shows i ∧ ∀ k ≠ j, s'.shows k = s.shows k) ∧
    (∀ i, s.step grow (.clear i) = some s' →
      s'.shows i = (s.shows i).map Message.zero ∧ ∀ k ≠ i, s'.shows k = s.shows k) := by
  have o := (Mem.Ok.init ms).run h
  refine ⟨fun i buf hs => ?_, fun i j hs => ?_, fun i hs => ?_⟩
  · obtain ⟨v, hv, rfl⟩ := step_parse hs
    have w := o v (List.mem_of_getElem? hv)
    obtain ⟨_, a2, _⟩ := appends_spec grow (s.added v buf) w
    have hi : i < s.vars.length := (List.getElem?_eq_some_iff.1 hv).1
    have e : s.shows i = some (s.view v) := by simp [Mem.shows, hv]
    rw [e]
    unfold Mem.shows
    rw [List.getElem?_set_self hi]
    simp only [Option.map_some, Option.some.injEq]
    show ((s.view v).left buf).withPrefixes _ = _
    rw [a2]
    rcases message_cases v.msg with ⟨_, c⟩ | ⟨c, _, _⟩
    · rw [show s.arrays.read v.pre = (s.view v).prefixes from (c _).symm, ← left_added]
      exact with_prefixes _
    · rw [show s.view v = v.msg from c _]
      exact with_left _ _ c _
  · obtain ⟨v, w, hv, hw, _, rfl⟩ := step_copy hs
    have hj : j < s.vars.length := (List.getElem?_eq_some_iff.1 hw).1
    refine ⟨?_, fun k hk => ?_⟩ <;> unfold Mem.shows
    · rw [hv, List.getElem?_set_self hj]
      rfl
    · rw [List.getElem?_set_ne (Ne.symm hk)]
      rfl
  · obtain ⟨v, hv, rfl⟩ := step_clear hs
    have hi : i < s.vars.length := (List.getElem?_eq_some_iff.1 hv).1
    refine ⟨?_, fun k hk => ?_⟩ <;> unfold Mem.shows
    · rw [hv, List.getElem?_set_self hi]
      obtain ⟨m, p⟩ := v
      cases m <;> rfl
    · rw [List.getElem?_set_ne (Ne.symm hk)]
      rfl

/-- C118 exactly: `Parse` into one variable changes what another one shows if and only if their prefixes are in the same array,
and there is an element behind the prefixes of the first and within the array that belongs to the second and is not what
`Parse` puts there. -/
theorem C118_exact (grow : Nat → Nat) (ms : List Message) (us : List Use) (s s' : Mem) (i j : Nat) (v w : Holder) (buf : Slice)
    (h : (Mem.init ms).run grow us = some s) (hs : s.step grow (.parse i buf) = some s') (hv : s.vars[i]? = some v)
    (hw : s.vars[j]? = some w) (hij : j ≠ i) :
    s'.shows j ≠ s.shows j ↔ w.pre.arr = v.pre.arr ∧ ∃ k, v.pre.len ≤ k ∧ k < v.pre.cap ∧
      ∃ p q, ((s.view v).left buf).prefixes[k]? = some p ∧ (s.view w).prefixes[k]? = some q ∧ p ≠ q := by
  have o := (Mem.Ok.init ms).run h
  obtain ⟨v', hv', rfl⟩ := step_parse hs
  obtain rfl : v' = v := Option.some.inj (hv'.symm.trans hv)
  have ov := o v' (List.mem_of_getElem? hv)
  have ow := o w (List.mem_of_getElem? hw)
  have key := read_other grow ov ow (s.added v' buf)
  generalize hnew : s.added v' buf = new at key ⊢
  have e1 : s.shows j = some (s.view w) := by simp [Mem.shows, hw]
  rw [e1]
  unfold Mem.shows
  rw [List.getElem?_set_ne (Ne.symm hij), hw]
  simp only [Option.map_some, ne_eq, Option.some.injEq]
  show ¬ w.msg.withPrefixes ((new.foldl (append grow) (s.arrays, v'.pre)).1.read w.pre) =
    w.msg.withPrefixes (s.arrays.read w.pre) ↔ _
  rcases message_cases w.msg with ⟨c1, c2⟩ | ⟨c1, c2, _⟩
  · rw [c1, show (s.view w).prefixes = s.arrays.read w.pre from c2 _]
    have hl : ∀ k p, v'.pre.len ≤ k → (((s.view v').left buf).prefixes[k]? = some p ↔ new[k - v'.pre.len]? = some p) := by
      intro k p hk
      rw [left_added, hnew]
      rcases message_cases v'.msg with ⟨_, d⟩ | ⟨d1, d2, d3⟩
      · have hn : (s.view v').prefixes.length = v'.pre.len := by
          rw [show (s.view v').prefixes = s.arrays.read v'.pre from d _]
          exact read_length ov
        rw [List.getElem?_append_right (by omega), hn]
      · have hz : new = [] := by
          rw [← hnew]
          unfold Mem.added
          rw [show s.view v' = v'.msg from d1 _, d3]
          exact List.drop_nil
        rw [show s.view v' = v'.msg from d1 _, d2, hz]
        simp
    have hr := read_length ow
    constructor
    · intro hne
      have : ∃ k : Nat, ((new.foldl (append grow) (s.arrays, v'.pre)).1.read w.pre)[k]? ≠ (s.arrays.read w.pre)[k]? :=
        Classical.not_forall.1 fun h => hne (List.ext_getElem? h)
      obtain ⟨k, hk⟩ := this
      rw [key] at hk
      split at hk
      · rename_i q
        obtain ⟨q1, q2, q3, q4, q5⟩ := q
        refine ⟨q1, k, q2, q3, new[k - v'.pre.len]'(by omega), (s.arrays.read w.pre)[k]'(by omega), ?_, ?_, ?_⟩
        · rw [hl k _ q2]
          exact List.getElem?_eq_getElem _
        · exact List.getElem?_eq_getElem _
        · intro e
          apply hk
          rw [List.getElem?_eq_getElem (by omega : k - v'.pre.len < new.length),
            List.getElem?_eq_getElem (by omega : k < (s.arrays.read w.pre).length), e]
      · exact absurd rfl hk
    · rintro ⟨q1, k, q2, q3, p, q, q4, q5, q6⟩ e
      rw [hl k p q2] at q4
      have h1 := (List.getElem?_eq_some_iff.1 q4).1
      have h2 := (List.getElem?_eq_some_iff.1 q5).1
      have := key k
      rw [if_pos ⟨q1, q2, q3, by omega, by omega⟩, e, q4, q5] at this
      exact q6 (Option.some.inj this).symm
  · rw [c1, c1, show (s.view w).prefixes = [] by rw [show s.view w = w.msg from c1 _, c2]]
    simp

/-- The full statement of **C118** as a proposition, for programs with messages of some types only: `Parse` into a variable
changes what no other variable shows. -/
def CopiesApart (grow : Nat → Nat) (types : Message → Prop) : Prop :=
  ∀ (ms : List Message) (us : List Use) (s s' : Mem) (i j : Nat) (buf : Slice), (∀ m ∈ ms, types m) →
    (Mem.init ms).run grow us = some s → s.step grow (.parse i buf) = some s' → j ≠ i → s'.shows j = s.shows j

/-- a Proposal with `n` prefixes of which all bytes are `b` -/
def proposalWith (n : Nat) (b : UInt8) : Bytes :=
  hex! "e2 d4 c3 d9 01 00" ++ [(52 + 17 * n).toUInt8, 0x10] ++ zeros 32 ++ zeros 7 ++ [n.toUInt8] ++
    List.replicate (17 * n) b ++ hex! "e2 d4 c3 d9"

/-- a Proposal of version 2 with `n` prefixes of which all bytes are `b` -/
def proposalV2With (n : Nat) (b : UInt8) : Bytes :=
  hex! "e2 d4 c3 d9 01 00" ++ [(92 + 17 * n).toUInt8, 0x23] ++ zeros 72 ++ zeros 7 ++ [n.toUInt8] ++
    List.replicate (17 * n) b ++ hex! "e2 d4 c3 d9"

/-- a message with three prefixes is copied, and one with one prefix is parsed into the first of the two -/
def sharing (message : Nat → UInt8 → Bytes) : List Use :=
  [.parse 0 ⟨message 3 1, []⟩, .copy 0 1, .parse 0 ⟨message 1 2, []⟩]

/-- the last bytes of the prefixes that a variable shows -/
def lasts (s : Mem) (i : Nat) : Option (List UInt8) := (s.shows i).map fun m => m.prefixes.map (·.prefixLen)

theorem overwritten (types : Message → Prop) (m : Message) (ht : types m) (message : Nat → UInt8 → Bytes) (s s' : Mem)
    (h1 : (Mem.init [m, m]).run (2 * ·) (sharing message) = some s)
    (h2 : s.step (2 * ·) (.parse 1 ⟨message 1 3, []⟩) = some s') (h3 : lasts s 0 = some [1, 1, 1, 2])
    (h4 : lasts s' 0 = some [1, 1, 1, 3]) : ¬ CopiesApart (2 * ·) types := by
  intro h
  have := h _ _ _ _ 1 0 _ (by simpa using ht) h1 h2 (by decide)
  unfold lasts at h3 h4
  rw [this, h3] at h4
  exact absurd h4 (by decide)

/-- C118 is false: `append` doubles the capacity of three prefixes to four, and two copies both take the fourth for theirs. This
is so in every program with Proposals, and in every program with Proposals of version 2. -/
theorem C118_false (types : Message → Prop) (h : types (.proposal {}) ∨ types (.proposalV2 {})) :
    ¬ CopiesApart (2 * ·) types := by
  rcases h with h | h
  · exact overwritten types (.proposal {}) h proposalWith _ _ (Option.eq_some_of_isSome (by decide +kernel))
      (Option.eq_some_of_isSome (by decide +kernel)) (by decide +kernel) (by decide +kernel)
  · exact overwritten types (.proposalV2 {}) h proposalV2With _ _ (Option.eq_some_of_isSome (by decide +kernel))
      (Option.eq_some_of_isSome (by decide +kernel)) (by decide +kernel) (by decide +kernel)

/-- C118, what holds of it: `Parse` leaves another variable as it is if its own variable shows no prefixes before, or no more
afterwards, or at least as many as the other one. -/
theorem C118_partial (grow : Nat → Nat) (ms : List Message) (us : List Use) (s s' : Mem) (i j : Nat) (m n : Message) (buf : Slice)
    (h : (Mem.init ms).run grow us = some s) (hs : s.step grow (.parse i buf) = some s') (hm : s.shows i = some m)
    (hn : s.shows j = some n) (hij : j ≠ i)
    (hc : m.prefixes = [] ∨ (m.left buf).prefixes = m.prefixes ∨ n.prefixes.length ≤ m.prefixes.length) :
    s'.shows j = s.shows j := by
  obtain ⟨v, hv, rfl⟩ := Option.map_eq_some_iff.1 hm
  obtain ⟨w, hw, rfl⟩ := Option.map_eq_some_iff.1 hn
  refine Decidable.byContradiction fun hne => ?_
  obtain ⟨_, k, q2, q3, p, q, q4, q5, _⟩ := (C118_exact grow ms us s s' i j v w buf h hs hv hw hij).1 hne
  have ov := (Mem.Ok.init ms).run h v (List.mem_of_getElem? hv)
  have l1 := (List.getElem?_eq_some_iff.1 q4).1
  have l2 := (List.getElem?_eq_some_iff.1 q5).1
  rcases message_cases v.msg with ⟨_, d⟩ | ⟨d1, _, d3⟩
  · have hl : (s.view v).prefixes.length = v.pre.len := by
      rw [show (s.view v).prefixes = s.arrays.read v.pre from d _]
      exact read_length ov
    rcases hc with hc | hc | hc
    · rw [hc] at hl
      have := ov.some hl.symm
      omega
    · rw [hc] at l1
      omega
    · omega
  · rw [show s.view v = v.msg from d1 _, d3] at l1
    cases l1

theorem zero_withPrefixes {m n : Message} (h : m.zero = n.zero) (hn : ∀ ps, n.withPrefixes ps = n) : ∀ ps, m.withPrefixes ps = m := by
  cases m with
  | proposal m =>
    cases n with
    | proposal n => exact absurd ((hn [{}]).trans (hn []).symm) (by simp [Message.withPrefixes])
    | _ => cases h
  | proposalV2 m =>
    cases n with
    | proposalV2 n => exact absurd ((hn [{}]).trans (hn []).symm) (by simp [Message.withPrefixes])
    | _ => cases h
  | _ => exact fun _ => rfl

theorem zero_left (buf : Slice) (m : Message) : (m.left buf).zero = m.zero := by cases m <;> rfl
theorem zero_with (ps : List IPv6Prefix) (m : Message) : (m.withPrefixes ps).zero = m.zero := by cases m <;> rfl
theorem zero_zero (m : Message) : m.zero.zero = m.zero := by cases m <;> rfl

/-- variables keep their types -/
theorem types_run {grow : Nat → Nat} {us : List Use} : ∀ {s s' : Mem}, s.run grow us = some s' →
    s'.vars.map (·.msg.zero) = s.vars.map (·.msg.zero) := by
  have one : ∀ {s s' : Mem} {u : Use}, s.step grow u = some s' → s'.vars.map (·.msg.zero) = s.vars.map (·.msg.zero) := by
    have set : ∀ (l : List Holder) (i : Nat) (v w : Holder), l[i]? = some v → w.msg.zero = v.msg.zero →
        (l.set i w).map (·.msg.zero) = l.map (·.msg.zero) := by
      intro l i v w hv e
      apply List.ext_getElem?
      intro k
      rw [List.map_set, List.getElem?_set]
      split
      · rename_i hk
        subst hk
        rw [List.length_map, if_pos (List.getElem?_eq_some_iff.1 hv).1, List.getElem?_map, hv, e]
        rfl
      · rfl
    intro s s' u h
    cases u with
    | parse i buf =>
      obtain ⟨v, hv, rfl⟩ := step_parse h
      exact set _ _ v _ hv ((zero_left _ _).trans (zero_with _ _))
    | copy i j =>
      obtain ⟨v, w, hv, hw, e, rfl⟩ := step_copy h
      exact set _ _ w _ hw e
    | clear i =>
      obtain ⟨v, hv, rfl⟩ := step_clear h
      exact set _ _ v _ hv (zero_zero _)
  induction us with
  | nil =>
    intro s s' h
    cases h
    rfl
  | cons u us ih =>
    intro s s' h
    obtain ⟨t, ht, h⟩ := Option.bind_eq_some_iff.1 h
    exact (ih h).trans (one ht)

/-- C118, what holds of it: everything in programs without Proposals of either version, and nothing else by `C118_false`. -/
theorem C118_types_partial (grow : Nat → Nat) (types : Message → Prop)
    (h : ∀ m, types m → clcKind m ≠ .proposal ∧ clcKind m ≠ .proposalV2) : CopiesApart grow types := by
  intro ms us s s' i j buf hm hr hs hij
  obtain ⟨v, hv, _⟩ := step_parse hs
  rcases hw : s.vars[j]? with _ | w
  · obtain ⟨v', hv', rfl⟩ := step_parse hs
    unfold Mem.shows
    rw [List.getElem?_set_ne (Ne.symm hij), hw]
    rfl
  refine Decidable.byContradiction fun hne => ?_
  obtain ⟨_, k, q2, q3, p, q, q4, q5, _⟩ := (C118_exact grow ms us s s' i j v w buf hr hs hv hw hij).1 hne
  have ht := types_run hr
  have h1 : (s.vars.map (·.msg.zero))[i]? = some v.msg.zero := by rw [List.getElem?_map, hv]; rfl
  rw [ht] at h1
  unfold Mem.init at h1
  rw [List.getElem?_map, List.getElem?_map] at h1
  rcases hmi : ms[i]? with _ | m
  · rw [hmi] at h1
    cases h1
  · rw [hmi] at h1
    have e : m.zero.zero = v.msg.zero := Option.some.inj h1
    rw [zero_zero] at e
    have hk := h m (hm m (List.mem_of_getElem? hmi))
    have hn : ∀ ps, m.withPrefixes ps = m := by
      intro ps
      cases m with
      | proposal m => exact absurd rfl hk.1
      | proposalV2 m => exact absurd rfl hk.2
      | _ => rfl
    have hv' := zero_withPrefixes e.symm hn
    rcases message_cases v.msg with ⟨c, _⟩ | ⟨c1, _, c3⟩
    · exact absurd ((c [{}] []).1 ((hv' _).trans (hv' _).symm)) (by simp)
    · rw [show s.view v = v.msg from c1 _, c3] at q4
      cases q4

/-- the variable that a statement changes -/
def changedVar : Use → Nat
  | .parse i _ => i
  | .copy _ j => j
  | .clear i => i

/-- every `Parse` of a program is into a variable that has been cleared just before -/
def ClearsFirst (us : List Use) : Prop := ∀ a i buf b, us = a ++ .parse i buf :: b → ∃ a', a = a' ++ [.clear i]

theorem mem_run_append (grow : Nat → Nat) (a b : List Use) (s : Mem) :
    s.run grow (a ++ b) = (s.run grow a).bind (·.run grow b) := by
  induction a generalizing s with
  | nil => rfl
  | cons u a ih =>
    simp only [List.cons_append, Mem.run]
    cases s.step grow u with
    | none => rfl
    | some t => exact ih t

/-- C118, what holds of it: in programs that clear variables before they parse into them, every statement changes what its own
variable shows and no other. -/
theorem C118_careful_partial (grow : Nat → Nat) (ms : List Message) (us a b : List Use) (u : Use) (s s' : Mem) (hc : ClearsFirst us)
    (hu : us = a ++ u :: b) (h : (Mem.init ms).run grow a = some s) (hs : s.step grow u = some s') :
    ∀ j ≠ changedVar u, s'.shows j = s.shows j := by
  intro j hj
  have ht := C118_target grow ms a s s' h
  cases u with
  | copy i k => exact (ht.2.1 i k hs).2 j hj
  | clear i => exact (ht.2.2 i hs).2 j hj
  | parse i buf =>
    replace hj : j ≠ i := hj
    obtain ⟨a', rfl⟩ := hc a i buf b hu
    obtain ⟨v, hv, e⟩ := step_parse hs
    have hm : s.shows i = some (s.view v) := by simp [Mem.shows, hv]
    rcases hw : s.shows j with _ | n
    · have : s.vars[j]? = none := by simpa [Mem.shows] using hw
      rw [e]
      unfold Mem.shows
      rw [List.getElem?_set_ne (Ne.symm hj), this]
      rfl
    rw [mem_run_append] at h
    obtain ⟨t, h1, h2⟩ := Option.bind_eq_some_iff.1 h
    obtain ⟨t', h3, h4⟩ := Option.bind_eq_some_iff.1 h2
    cases h4
    have hz := ((C118_target grow ms a' t s h1).2.2 i h3).1
    rw [hm] at hz
    obtain ⟨m, _, hz⟩ := Option.map_eq_some_iff.1 hz.symm
    rw [← hw]
    refine C118_partial grow ms (a' ++ [.clear i]) s s' i j _ n buf (by rw [mem_run_append]; exact h) hs hm hw hj (.inl ?_)
    rw [← hz]
    cases m <;> rfl

/-- The hypotheses of `C118_exact` hold with the same array and with different arrays: of the two variables with three prefixes
the first gets a fourth, then a fifth, for which there is no room; the second gets its own fourth. -/
example : ((Mem.init [.proposal {}, .proposal {}]).run (2 * ·) (sharing proposalWith)).map (fun s => (lasts s 0, lasts s 1)) =
      some (some [1, 1, 1, 2], some [1, 1, 1]) ∧
    ((Mem.init [.proposal {}, .proposal {}]).run (2 * ·) (sharing proposalWith)).map (·.vars.map (·.pre)) =
      some [⟨2, 4, 4⟩, ⟨2, 3, 4⟩] ∧
    ((Mem.init [.proposal {}, .proposal {}]).run (2 * ·) (sharing proposalWith ++ [.parse 0 ⟨proposalWith 1 4, []⟩])).map
      (·.vars.map (·.pre)) = some [⟨3, 5, 8⟩, ⟨2, 3, 4⟩] ∧
    ((Mem.init [.proposal {}, .proposal {}]).run (2 * ·) (sharing proposalWith ++ [.parse 0 ⟨proposalWith 1 4, []⟩,
      .parse 1 ⟨proposalWith 1 3, []⟩])).map (fun s => (lasts s 0, lasts s 1)) =
      some (some [1, 1, 1, 2, 4], some [1, 1, 1, 3]) := by decide +kernel

/-- `C118_partial`: the three cases, each with two prefixes or more in both variables or in the other one. -/
example : ((Mem.init [.proposalV2 {}, .proposalV2 {}]).run (2 * ·) (sharing proposalV2With ++ [.clear 1])).map
      (fun s => (lasts s 0, lasts s 1)) = some (some [1, 1, 1, 2], some []) ∧
    ((Mem.init [.proposalV2 {}, .proposalV2 {}]).run (2 * ·) (sharing proposalV2With ++
      [.parse 1 ⟨proposalV2With 0 0, []⟩])).map (fun s => (lasts s 0, lasts s 1)) = some (some [1, 1, 1, 2], some [1, 1, 1]) ∧
    ((Mem.init [.proposalV2 {}, .proposalV2 {}]).run (2 * ·) (sharing proposalV2With ++
      [.parse 0 ⟨proposalV2With 2 5, []⟩])).map (fun s => (lasts s 0, lasts s 1)) =
      some (some [1, 1, 1, 2, 5, 5], some [1, 1, 1]) := by decide +kernel

/-- `C118_types_partial`: there are programs with the other messages in which the variables differ. -/
example : ((Mem.init [.decline {}, .decline {}, .acceptSMCD {}]).run (2 * ·)
      [.parse 0 ⟨hex! "e2 d4 c3 d9 04 00 1c 10" ++ List.replicate 16 7 ++ hex! "e2 d4 c3 d9", []⟩, .copy 0 1, .clear 0]).map
      (fun s => (s.shows 0 == s.shows 1, (s.shows 1).map clcKind, s.shows 2)) =
      some (false, some .decline, some (.acceptSMCD {})) := by decide +kernel

/-- a careful program with copies -/
example : ClearsFirst [.clear 0, .parse 0 ⟨proposalWith 3 1, []⟩, .copy 0 1, .clear 0, .parse 0 ⟨proposalWith 1 2, []⟩, .copy 1 2] ∧
    ((Mem.init [.proposal {}, .proposal {}, .proposal {}]).run (2 * ·) [.clear 0, .parse 0 ⟨proposalWith 3 1, []⟩, .copy 0 1,
      .clear 0, .parse 0 ⟨proposalWith 1 2, []⟩, .copy 1 2]).map (fun s => (lasts s 0, lasts s 1, lasts s 2)) =
      some (some [2], some [1, 1, 1], some [1, 1, 1]) := by
  refine ⟨?_, by decide +kernel⟩
  intro a i buf b e
  rcases a with _ | ⟨a1, _ | ⟨a2, _ | ⟨a3, _ | ⟨a4, _ | ⟨a5, _ | ⟨a6, a⟩⟩⟩⟩⟩⟩ <;> simp at e
  · obtain ⟨rfl, ⟨rfl, _⟩, _⟩ := e
    exact ⟨[], rfl⟩
  · obtain ⟨rfl, rfl, rfl, rfl, ⟨rfl, _⟩, _⟩ := e
    exact ⟨[_, _, _], rfl⟩

/-- `C118_target` and `C118_left`: what the variable shows is what `Parse` returns; a message of which the end is missing leaves
the prefixes that were read. -/
example : ((Mem.init [.proposal {}]).run (2 * ·) [.parse 0 ⟨proposalWith 3 1, []⟩]).map (·.shows 0) =
      some (some ((Message.proposal {}).left ⟨proposalWith 3 1, []⟩)) ∧
    (Message.proposal {}).parse ⟨proposalWith 3 1, []⟩ = .ret [] ((Message.proposal {}).left ⟨proposalWith 3 1, []⟩) ∧
    ((Mem.init [.proposal {}]).run (2 * ·) [.parse 0 ⟨(proposalWith 3 1).take 90, []⟩]).map (lasts · 0) = some (some [1, 1]) := by
  decide +kernel

end SMC.Props
