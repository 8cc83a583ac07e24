import Verif.Lemmas.Segments
import Verif.Props.SpareExact
import Verif.Props.CLCStream
/-!
# C117: segments of a connection
-/

namespace SMC.Props
open SMC Spec CLC

/-- **C117** for readers that give `Parse` a buffer without spare capacity: whatever the bytes are, and however they are
cut into segments, the reader logs the same, has the same messages and leaves the same bytes, or panics. -/
theorem C117_clipped (segs segs' : List (Bytes × Bytes)) (h : joined segs = joined segs') :
    feed true segs (some []) = feed true segs' (some []) := by
  have one : ∀ segs : List (Bytes × Bytes), feed true segs (some []) = drain true [] (joined segs).length (joined segs) := by
    intro segs
    have := feed_joined [] segs []
    rw [show drain true [] ([] : Bytes).length [] = .ret [] ([], some []) from rfl, goOn_nothing] at this
    simpa using this
  rw [one, one, h]

/-! ## Readers that do not care about the capacity -/

theorem result_found {v : Bytes} {k : CLCKind} (h : classify v = some k) :
    newMessageResult v = (some (freshCLC k), UInt16.ofNat (declared v)) ∧
      (UInt16.ofNat (declared v)).toNat = declared v := by
  refine ⟨by simp only [newMessageResult, h], ?_⟩
  unfold classify at h
  split at h
  · rename_i c
    exact UInt16.toNat_ofNat_of_lt' (by have := c.2; show _ < 65536; omega)
  · cases h

/-- One round, told by the kind of message. -/
theorem drain_round (clip : Bool) (e : Bytes) (n : Nat) (a : Bytes) (h8 : 8 ≤ a.length) :
    (classify a = none → drain clip e (n + 1) a = .ret (newMessageLog a) ([], none)) ∧
    (∀ k, classify a = some k → a.length < declared a → drain clip e (n + 1) a = .ret [] ([], some a)) ∧
    ∀ k, classify a = some k → declared a ≤ a.length → drain clip e (n + 1) a =
      match (freshCLC k).parse ⟨a.take (declared a), if clip then [] else a.drop (declared a) ++ e⟩ with
        | .panic lg => .panic lg
        | .ret lg m' => match drain clip e n (a.drop (declared a)) with
          | .panic lg' => .panic (lg ++ lg')
          | .ret lg' r => .ret (lg ++ lg') (m' :: r.1, r.2) := by
  rw [drain_succ]
  unfold round
  rw [if_neg (by omega)]
  refine ⟨fun h => ?_, fun k h hl => ?_, fun k h hl => ?_⟩
  · simp only [newMessageResult, h]
  · obtain ⟨e1, e2⟩ := result_found h
    simp only [e1, e2, if_pos hl]
  · obtain ⟨e1, e2⟩ := result_found h
    simp only [e1, e2, if_neg (Nat.not_lt.2 hl)]
    rfl

theorem classify_more {a b : Bytes} (h : 8 ≤ a.length) :
    classify (a ++ b) = classify a ∧ declared (a ++ b) = declared a := by
  have hv : 8 ≤ (a ++ b).length := by simp; omega
  have h1 := hdrOf_wire (a ++ b) hv
  have h2 := hdrOf_wire a h
  have h3 : hdrOf (a ++ b) hv = hdrOf a h := by
    simp [hdrOf, List.take_append_of_le_length (show 4 ≤ a.length by omega),
      List.getElem_append_left (show 4 < a.length by omega), List.getElem_append_left (show 5 < a.length by omega),
      List.getElem_append_left (show 6 < a.length by omega), List.getElem_append_left (show 7 < a.length by omega)]
  have hd : declared (a ++ b) = declared a := by rw [declared, declared, ← h1.length, ← h2.length, h3]
  have hp : pathOf (a ++ b) = pathOf a := by rw [pathOf, pathOf, ← h1.path, ← h2.path, h3]
  have he : raw (a ++ b) 0 4 = raw a 0 4 := by rw [← h1.eyecatcher, ← h2.eyecatcher, h3]
  refine ⟨?_, hd⟩
  unfold classify
  rw [hd, hp, he, ← h1.typ, ← h2.typ, ← h1.version, ← h2.version, h3]

theorem clipped_spare (x : Message) (s : Slice) (h : s.vis = x.raw.vis) : clipped (withRawHdr x s x.hdr) = clipped x := by
  cases x <;> simp only [clipped, withRawHdr, Message.raw, Message.hdr] at h ⊢ <;> rw [h]

theorem fresh_sure {k : CLCKind} {v : Bytes} (h : ¬ ParseCrashes k ⟨v, []⟩) :
    ∃ l x, 8 ≤ v.length ∧ (freshCLC k).parse ⟨v, []⟩ = .ret l x ∧
      ∀ e, ∃ y, (freshCLC k).parse ⟨v, e⟩ = .ret l y ∧ clipped y = clipped x := by
  obtain ⟨l, x, h1, h2⟩ := C83_spare_partial (freshCLC k) (sized_fresh k) v (by rw [kind_fresh]; exact h)
  have h3 : x = withRawHdr x ⟨v, []⟩ x.hdr := (Go.ret.inj (h1.symm.trans (h2 []))).2
  have h4 : x.raw.vis = v := by rw [h3]; cases x <;> rfl
  refine ⟨l, x, ?_, h1, fun e => ⟨_, h2 e, clipped_spare x _ h4.symm⟩⟩
  have := parse_needs _ _ _ _ h1
  simpa using this

theorem fresh_panics {k : CLCKind} {v : Bytes} (h : Hopeless k v) (e : Bytes) : ((freshCLC k).parse ⟨v, e⟩).Panics := by
  rw [C45_crashes _ (sized_fresh k), kind_fresh]
  exact (hopeless_iff k v).2 h e

/-- Both readers panic, or go on with the same bytes. -/
def Along (b : Bytes) (x y : Go (List Message × Option Bytes)) : Prop :=
  (x.Panics ∧ y.Panics) ∨
    ∃ l r r', x = .ret l r ∧ y = .ret l r' ∧ r.1.map clipped = r'.1.map clipped ∧ r.2 = r'.2 ∧
      ∀ p, r.2 = some p → PlainStream (p ++ b)

theorem plain_drain (b e e' : Bytes) (n : Nat) (a : Bytes) (h : PlainStream (a ++ b)) :
    Along b (drain false e n a) (drain true e' n a) := by
  induction n generalizing a with
  | zero => exact .inr ⟨[], _, _, rfl, rfl, rfl, rfl, fun p hp => by cases hp; exact h⟩
  | succ n ih =>
    by_cases h8 : a.length < 8
    · refine .inr ⟨[], ([], some a), ([], some a), ?_, ?_, rfl, rfl, fun p hp => by cases hp; exact h⟩ <;>
        (rw [drain_succ]; unfold round; rw [if_pos h8])
    obtain ⟨f1, f2, f3⟩ := drain_round false e n a (by omega)
    obtain ⟨t1, t2, t3⟩ := drain_round true e' n a (by omega)
    obtain ⟨c1, c2⟩ := classify_more (a := a) (b := b) (by omega)
    cases hc : classify a with
    | none => exact .inr ⟨_, _, _, f1 hc, t1 hc, rfl, rfl, fun p hp => by cases hp⟩
    | some k =>
      by_cases hl : a.length < declared a
      · exact .inr ⟨_, _, _, f2 k hc hl, t2 k hc hl, rfl, rfl, fun p hp => by cases hp; exact h⟩
      have hl' : declared a ≤ a.length := by omega
      rw [f3 k hc hl', t3 k hc hl']
      have tk : (a ++ b).take (declared a) = a.take (declared a) := List.take_append_of_le_length hl'
      have dr : (a ++ b).drop (declared a) = a.drop (declared a) ++ b := List.drop_append_of_le_length hl'
      cases h with
      | ends g =>
        rcases g with g | g | g
        · simp at g; omega
        · rw [c1, hc] at g; cases g
        · rw [c2] at g; simp at g; omega
      | message g1 g2 g3 g4 =>
        rw [c1, hc] at g1
        cases g1
        rw [c2, tk] at g3
        rw [c2, dr] at g4
        obtain ⟨l, x, -, p1, p2⟩ := fresh_sure g3
        obtain ⟨y, p3, p4⟩ := p2 (a.drop (declared a) ++ e)
        simp only [if_true, if_false, Bool.false_eq_true, p1, p3]
        rcases ih _ g4 with ⟨⟨l1, q1⟩, ⟨l2, q2⟩⟩ | ⟨l1, r, r', q1, q2, q3, q4, q5⟩
        · rw [q1, q2]
          exact .inl ⟨⟨_, rfl⟩, ⟨_, rfl⟩⟩
        · rw [q1, q2]
          exact .inr ⟨_, _, _, rfl, rfl, by simp [p4, q3], q4, q5⟩
      | panics g1 g2 g3 =>
        rw [c1, hc] at g1
        cases g1
        rw [c2, tk] at g3
        obtain ⟨l1, p1⟩ := fresh_panics g3 (a.drop (declared a) ++ e)
        obtain ⟨l2, p2⟩ := fresh_panics g3 []
        simp only [if_true, if_false, Bool.false_eq_true, p1, p2]
        exact .inl ⟨⟨_, rfl⟩, ⟨_, rfl⟩⟩

theorem plain_feed (segs : List (Bytes × Bytes)) (p : Bytes) (h : PlainStream (p ++ joined segs)) :
    SameReading (feed false segs (some p)) (feed true segs (some p)) := by
  induction segs generalizing p with
  | nil => exact .inr ⟨[], _, _, rfl, rfl, rfl, rfl⟩
  | cons s segs ih =>
    obtain ⟨s, e⟩ := s
    rw [feed_cons, feed_cons]
    have hj : p ++ joined ((s, e) :: segs) = (p ++ s) ++ joined segs := by simp [joined]
    rw [hj] at h
    rcases plain_drain (joined segs) e e (p ++ s).length (p ++ s) h with ⟨⟨l1, q1⟩, ⟨l2, q2⟩⟩ |
      ⟨l1, ⟨r1, r⟩, ⟨r1', r'⟩, q1, q2, q3, q4, q5⟩
    · rw [q1, q2]
      exact .inl ⟨⟨_, rfl⟩, ⟨_, rfl⟩⟩
    · rw [q1, q2]
      obtain rfl : r = r' := q4
      simp only [goOn]
      cases r with
      | none =>
        rw [feed_none, feed_none]
        exact .inr ⟨_, _, _, rfl, rfl, by simpa using q3, rfl⟩
      | some r =>
        rcases ih r (q5 r rfl) with ⟨⟨l3, i1⟩, ⟨l4, i2⟩⟩ | ⟨l3, u, u', i1, i2, i3, i4⟩
        · rw [i1, i2]
          exact .inl ⟨⟨_, rfl⟩, ⟨_, rfl⟩⟩
        · rw [i1, i2]
          exact .inr ⟨_, _, _, rfl, rfl, by simp only [List.map_append, i3]; rw [q3], i4⟩

theorem SameReading.symm {x y} (h : SameReading x y) : SameReading y x := by
  rcases h with ⟨h1, h2⟩ | ⟨l, r, r', h1, h2, h3, h4⟩
  · exact .inl ⟨h2, h1⟩
  · exact .inr ⟨l, r', r, h2, h1, h3.symm, h4.symm⟩

theorem SameReading.trans {x y z} (h : SameReading x y) (h' : SameReading y z) : SameReading x z := by
  rcases h with ⟨h1, l, h2⟩ | ⟨l, r, r', h1, h2, h3, h4⟩
  · rcases h' with ⟨_, h3⟩ | ⟨_, _, _, g1, _⟩
    · exact .inl ⟨h1, h3⟩
    · rw [h2] at g1; cases g1
  · rcases h' with ⟨⟨_, g1⟩, _⟩ | ⟨_, r2, r3, g1, g2, g3, g4⟩
    · rw [h2] at g1; cases g1
    · rw [h2] at g1
      cases g1
      exact .inr ⟨_, _, _, h1, g2, h3.trans g3, h4.trans g4⟩

/-- **C117** holds for the streams that are `PlainStream`: what is behind a message in the array does not matter. Missing: other
streams, for which it is false, see `C117_exact`. -/
theorem C117_segments_partial (segs segs' : List (Bytes × Bytes)) (h : joined segs = joined segs')
    (hp : PlainStream (joined segs)) :
    SameReading (feed false segs (some [])) (feed false segs' (some [])) := by
  have h1 := plain_feed segs [] hp
  have h2 := plain_feed segs' [] (by rw [← h]; exact hp)
  rw [← C117_clipped segs segs' h] at h2
  exact SameReading.trans h1 (SameReading.symm h2)

/-! ## Exactly -/

theorem plain_prefix {s t : Bytes} (h : PlainStream s) (ht : t <+: s) : PlainStream t := by
  induction h generalizing t with
  | ends g =>
    obtain ⟨u, rfl⟩ := ht
    by_cases h8 : t.length < 8
    · exact .ends (.inl h8)
    obtain ⟨c1, c2⟩ := classify_more (a := t) (b := u) (by omega)
    rw [c1, c2] at g
    refine .ends (g.imp (fun g => ?_) (Or.imp id fun g => ?_)) <;> simp at g <;> omega
  | message g1 g2 g3 g4 ih =>
    obtain ⟨u, rfl⟩ := ht
    by_cases h8 : t.length < 8
    · exact .ends (.inl h8)
    obtain ⟨c1, c2⟩ := classify_more (a := t) (b := u) (by omega)
    rw [c1] at g1
    rw [c2] at g3 ih
    by_cases hl : t.length < declared t
    · exact .ends (.inr (.inr hl))
    rw [List.take_append_of_le_length (by omega)] at g3
    exact .message g1 (by omega) g3 (ih (by rw [List.drop_append_of_le_length (by omega)]; exact List.prefix_append _ _))
  | panics g1 g2 g3 =>
    obtain ⟨u, rfl⟩ := ht
    by_cases h8 : t.length < 8
    · exact .ends (.inl h8)
    obtain ⟨c1, c2⟩ := classify_more (a := t) (b := u) (by omega)
    rw [c1] at g1
    rw [c2] at g3
    by_cases hl : t.length < declared t
    · exact .ends (.inr (.inr hl))
    rw [List.take_append_of_le_length (by omega)] at g3
    exact .panics g1 (by omega) g3

/-- One message and nothing else. -/
theorem drain_one {k : CLCKind} {v : Bytes} (e : Bytes) (h8 : 8 ≤ v.length) (hc : classify v = some k)
    (hd : declared v = v.length) : drain false e v.length v = match (freshCLC k).parse ⟨v, e⟩ with
      | .panic l => .panic l
      | .ret l m => .ret l ([m], some []) := by
  obtain ⟨n, hn⟩ : ∃ n, v.length = n + 1 := ⟨v.length - 1, by omega⟩
  obtain ⟨-, -, f3⟩ := drain_round false e n v h8
  have := f3 k hc (by omega)
  rw [hd, List.take_length, List.drop_length] at this
  rw [hn, this]
  simp only [Bool.false_eq_true, if_false, List.nil_append]
  cases (freshCLC k).parse ⟨v, e⟩ with
  | panic l => rfl
  | ret l m =>
    have : drain false e n [] = .ret [] ([], some []) := by
      cases n with
      | zero => rfl
      | succ n => rw [drain_succ]; rfl
    simp [this]

/-- **C117**, exactly: wherever the connection ends, the readers agree however its bytes are cut, if and only if the stream
is `PlainStream`. -/
theorem C117_exact (s : Bytes) :
    (∀ t, t <+: s → ∀ segs segs', joined segs = t → joined segs' = t →
      SameReading (feed false segs (some [])) (feed false segs' (some []))) ↔ PlainStream s := by
  constructor
  · intro h
    generalize hn : s.length = n
    induction n using Nat.strongRecOn generalizing s with
    | ind n ih =>
    by_cases h8 : s.length < 8
    · exact .ends (.inl h8)
    cases hc : classify s with
    | none => exact .ends (.inr (.inl hc))
    | some k =>
      by_cases hl : s.length < declared s
      · exact .ends (.inr (.inr hl))
      by_cases hh : Hopeless k (s.take (declared s))
      · exact .panics hc (by omega) hh
      have hv8 : 8 ≤ (s.take (declared s)).length := Nat.le_of_not_lt fun c => hh (.inl c)
      have hd8 : 8 ≤ declared s := by simp at hv8; omega
      obtain ⟨c1, c2⟩ := classify_more (a := s.take (declared s)) (b := s.drop (declared s)) hv8
      rw [List.take_append_drop] at c1 c2
      have hlen : (s.take (declared s)).length = declared s := by simp; omega
      have one := fun e => drain_one (k := k) (v := s.take (declared s)) e hv8 (by rw [← c1, hc]) (by rw [← c2, hlen])
      have hpre : s.take (declared s) <+: s := List.take_prefix _ _
      have feed1 : ∀ e segs, feed false ((s.take (declared s), e) :: segs) (some []) =
          match (freshCLC k).parse ⟨s.take (declared s), e⟩ with
            | .panic l => .panic l
            | .ret l m => goOn (.ret l ([m], some [])) (feed false segs) := by
        intro e segs
        rw [feed_cons]
        simp only [List.nil_append]
        rw [one e]
        cases (freshCLC k).parse ⟨s.take (declared s), e⟩ <;> rfl
      by_cases hcr : ParseCrashes k ⟨s.take (declared s), []⟩
      · exfalso
        rw [← hopeless_iff] at hh
        obtain ⟨e, he⟩ := Classical.not_forall.1 hh
        have q1 : ((freshCLC k).parse ⟨s.take (declared s), []⟩).Panics := by
          rw [C45_crashes _ (sized_fresh k), kind_fresh]; exact hcr
        have q2 : ¬ ((freshCLC k).parse ⟨s.take (declared s), e⟩).Panics := by
          rw [C45_crashes _ (sized_fresh k), kind_fresh]; exact he
        have := h _ hpre [(s.take (declared s), [])] [(s.take (declared s), e)] (by simp [joined]) (by simp [joined])
        rw [feed1, feed1] at this
        obtain ⟨l, q1⟩ := q1
        cases q3 : (freshCLC k).parse ⟨s.take (declared s), e⟩ with
        | panic l' => exact q2 ⟨l', q3⟩
        | ret l' m =>
          rw [q1, q3] at this
          rcases this with ⟨_, l2, h2⟩ | ⟨_, _, _, h1, _⟩
          · simp [goOn, feed, Go.pure_eq] at h2
          · cases h1
      · obtain ⟨l, x, -, p1, -⟩ := fresh_sure hcr
        refine .message hc (by omega) hcr (ih (s.drop (declared s)).length (by simp at hn ⊢; omega) _ ?_ rfl)
        intro t ht segs segs' j1 j2
        have := h (s.take (declared s) ++ t) (by
          obtain ⟨u, hu⟩ := ht
          exact ⟨u, by rw [List.append_assoc, hu, List.take_append_drop]⟩)
          ((s.take (declared s), []) :: segs) ((s.take (declared s), []) :: segs')
          (by rw [← j1]; simp [joined]) (by rw [← j2]; simp [joined])
        rw [feed1, feed1, p1] at this
        simp only [goOn] at this
        cases u1 : feed false segs (some []) with
        | panic l1 =>
          cases u2 : feed false segs' (some []) with
          | panic l2 => exact .inl ⟨⟨_, rfl⟩, ⟨_, rfl⟩⟩
          | ret l2 r2 =>
            rw [u1, u2] at this
            rcases this with ⟨_, _, h2⟩ | ⟨_, _, _, h1, _⟩
            · cases h2
            · cases h1
        | ret l1 r1 =>
          cases u2 : feed false segs' (some []) with
          | panic l2 =>
            rw [u1, u2] at this
            rcases this with ⟨⟨_, h1⟩, _⟩ | ⟨_, _, _, _, h2, _⟩
            · cases h1
            · cases h2
          | ret l2 r2 =>
            rw [u1, u2] at this
            rcases this with ⟨⟨_, h1⟩, _⟩ | ⟨_, _, _, h1, h2, h3, h4⟩
            · cases h1
            · simp only [Go.ret.injEq] at h1 h2
              obtain ⟨h1, rfl⟩ := h1
              obtain ⟨h2, rfl⟩ := h2
              obtain rfl : l1 = l2 := List.append_cancel_left (h1.trans h2.symm)
              exact .inr ⟨_, _, _, rfl, rfl, by simpa using h3, h4⟩
  · rintro h t ht segs segs' j1 j2
    exact C117_segments_partial segs segs' (j1.trans j2.symm) (by rw [j1]; exact plain_prefix h ht)

/-- **C117** is false of readers that slice with `buf[:l]`: the SMC-D info of this Proposal is taken from the bytes behind
it if these are there already. -/
theorem C117_false : ∃ segs segs' : List (Bytes × Bytes), joined segs = joined segs' ∧
    (feed false segs (some [])).Panics ∧ ¬ (feed false segs' (some [])).Panics := by
  refine ⟨[(shortSMCD, []), (zeros 28, [])], [(shortSMCD ++ zeros 28, [])], by decide +kernel, ?_, ?_⟩
  · obtain ⟨l, h⟩ : ((freshCLC .proposal).parse ⟨shortSMCD, []⟩).Panics := by
      rw [C45_crashes _ (sized_fresh _), kind_fresh]
      dsimp only [ParseCrashes, CrashesV1, Overdump]
      decide +kernel
    rw [feed_cons, List.nil_append, drain_one (k := .proposal) [] (by decide) (by decide +kernel) (by decide +kernel), h]
    exact ⟨l, rfl⟩
  · obtain ⟨l, m, h⟩ : ∃ l m, (freshCLC .proposal).parse ⟨shortSMCD, zeros 28⟩ = .ret l m := by
      have h : ¬ ((freshCLC .proposal).parse ⟨shortSMCD, zeros 28⟩).Panics := by
        rw [C45_crashes _ (sized_fresh _), kind_fresh]
        dsimp only [ParseCrashes, CrashesV1, Overdump]
        decide +kernel
      cases hp : (freshCLC .proposal).parse ⟨shortSMCD, zeros 28⟩ with
      | panic l => exact absurd ⟨l, hp⟩ h
      | ret l m => exact ⟨l, m, rfl⟩
    rw [feed_cons, List.nil_append, show (shortSMCD ++ zeros 28).length = 79 + 1 from rfl,
      (drain_round false [] 79 (shortSMCD ++ zeros 28) (by decide)).2.2 .proposal (by decide +kernel) (by decide +kernel),
      show (shortSMCD ++ zeros 28).take (declared (shortSMCD ++ zeros 28)) = shortSMCD by decide +kernel,
      show (shortSMCD ++ zeros 28).drop (declared (shortSMCD ++ zeros 28)) = zeros 28 by decide +kernel]
    simp only [Bool.false_eq_true, if_false, List.append_nil, h]
    rw [(drain_round false [] 78 (zeros 28) (by decide)).1 (by decide +kernel)]
    rintro ⟨_, h⟩
    simp [goOn, feed, Go.pure_eq] at h

/-! ## Streams of messages -/

theorem stream_drain (ms : List Message) (hf : ∀ m ∈ ms, FitsCLC m) (hk : ∀ m ∈ ms, Known m) :
    PlainStream (stream ms) ∧ ∀ n, (stream ms).length ≤ n →
      ∃ ms', drain true [] n (stream ms) = .ret (ms.flatMap trailerLines) (ms', some []) ∧ ms'.map core = ms.map core ∧
        ms'.map (·.trailer) = ms.map (·.trailer) := by
  induction ms with
  | nil =>
    refine ⟨.ends (.inl (by decide)), fun n _ => ⟨[], ?_, rfl, rfl⟩⟩
    cases n with
    | zero => rfl
    | succ n => rw [drain_succ]; rfl
  | cons m ms ih =>
    have fm := hf m (by simp)
    obtain ⟨h1, h2⟩ := C82_recognised m fm (hk m (by simp)) (stream ms) []
    obtain ⟨m', h3, h4, h5⟩ := C81_roundtrip m fm []
    obtain ⟨i1, i2⟩ := ih (fun x hx => hf x (by simp [hx])) (fun x hx => hk x (by simp [hx]))
    have hst : stream (m :: ms) = pack (bitsCLC m) ++ stream ms := rfl
    have hv8 := parse_needs _ _ _ _ h3
    rw [Slice.len_mk] at hv8
    have h8 : 8 ≤ (pack (bitsCLC m) ++ stream ms).length := by simp; omega
    rw [newMessage_eq _ _ h8] at h1
    have hr := (Go.ret.inj h1).2
    obtain ⟨hc, hd⟩ : classify (pack (bitsCLC m) ++ stream ms) = some (clcKind m) ∧
        declared (pack (bitsCLC m) ++ stream ms) = (pack (bitsCLC m)).length := by
      cases hc : classify (pack (bitsCLC m) ++ stream ms) with
      | none => simp [newMessageResult, hc] at hr
      | some k =>
        obtain ⟨r1, r2⟩ := result_found hc
        rw [r1] at hr
        simp only [Prod.mk.injEq, Option.some.injEq] at hr
        have := congrArg clcKind hr.1
        rw [kind_fresh, kind_fresh] at this
        exact ⟨by rw [this], by rw [← r2, hr.2, h2]⟩
    rw [hst]
    constructor
    · refine .message hc (by rw [hd]; simp) ?_ (by rw [hd, List.drop_left]; exact i1)
      rw [hd, List.take_left]
      intro hcr
      have := (C45_crashes (freshCLC (clcKind m)) (sized_fresh _) ⟨pack (bitsCLC m), []⟩).2 (by rw [kind_fresh]; exact hcr)
      obtain ⟨l, hl⟩ := this
      rw [h3] at hl
      cases hl
    · intro n hn
      obtain ⟨n, rfl⟩ : ∃ k, n = k + 1 := ⟨n - 1, by omega⟩
      obtain ⟨ms', j1, j2, j3⟩ := i2 n (by simp at hn; omega)
      refine ⟨m' :: ms', ?_, by rw [List.map_cons, List.map_cons, h4, j2], by rw [List.map_cons, List.map_cons, h5, j3]⟩
      rw [(drain_round true [] n _ h8).2.2 _ hc (by rw [hd]; simp), hd, List.take_left, List.drop_left]
      simp only [if_true, h3, j1]
      rfl

theorem core_clipped (m : Message) : core (clipped m) = core m ∧ (clipped m).trailer = m.trailer := by
  cases m <;> exact ⟨rfl, rfl⟩

/-- **C117** for messages sent one after the other: however the connection cuts them, and whatever is in the arrays behind
the segments, both readers have all of them when the last byte is there, and report nothing but trailers that are no
eyecatchers. -/
theorem C117_stream (ms : List Message) (hf : ∀ m ∈ ms, FitsCLC m) (hk : ∀ m ∈ ms, Known m) (clip : Bool)
    (segs : List (Bytes × Bytes)) (hs : joined segs = stream ms) :
    ∃ ms', feed clip segs (some []) = .ret (ms.flatMap trailerLines) (ms', some []) ∧ ms'.map core = ms.map core ∧
      ms'.map (·.trailer) = ms.map (·.trailer) := by
  obtain ⟨h1, h2⟩ := stream_drain ms hf hk
  obtain ⟨ms', h3, h4, h5⟩ := h2 _ (Nat.le_refl _)
  have hone : feed true segs (some []) = .ret (ms.flatMap trailerLines) (ms', some []) := by
    rw [C117_clipped segs [(stream ms, [])] (hs.trans (by simp [joined])), feed_cons, List.nil_append, h3]
    simp [goOn, feed, Go.pure_eq]
  cases clip with
  | true => exact ⟨ms', hone, h4, h5⟩
  | false =>
    rcases plain_feed segs [] (by rw [List.nil_append, hs]; exact h1) with
      ⟨_, l, q⟩ | ⟨l, ⟨r1, r⟩, r', q1, q2, q3, q4⟩
    · rw [hone] at q; cases q
    · rw [hone] at q2
      cases q2
      obtain rfl : r = some [] := q4
      refine ⟨r1, q1, ?_, ?_⟩
      · rw [← h4]
        have := congrArg (List.map core) q3
        simpa [List.map_map, Function.comp_def, core_clipped] using this
      · rw [← h5]
        have := congrArg (List.map (·.trailer)) q3
        simpa [List.map_map, Function.comp_def, core_clipped] using this

/-- a Decline, cut behind its header and again two bytes before its end, with another one in the arrays -/
example :
    let d : Bytes := hex! "e2 d4 c3 d9 04 00 1c 10" ++ zeros 16 ++ hex! "e2 d4 c3 d9"
    let segs := [(d.take 8, d), (d.drop 8 |>.take 18, []), (d.drop 26, [1, 2])]
    joined segs = joined [(d, [])] ∧ PlainStream (joined segs) := by
  refine ⟨by decide +kernel, .message (k := .decline) (by decide +kernel) (by decide +kernel) ?_ (.ends ?_)⟩
  · rintro (h | h)
    · exact absurd h (by decide +kernel)
    · dsimp only at h
      unfold FixedCrashes at h
      rw [if_neg (by decide +kernel)] at h
      exact absurd h (by decide +kernel)
  · exact .inl (by decide +kernel)

/-- the stream of `C117_false` is not `PlainStream` -/
example : ¬ PlainStream (shortSMCD ++ zeros 28) := by
  intro h
  cases h with
  | ends g => revert g; decide +kernel
  | message g1 g2 g3 g4 =>
    have : classify (shortSMCD ++ zeros 28) = some .proposal := by decide +kernel
    rw [this] at g1
    cases g1
    apply g3
    dsimp only [ParseCrashes, CrashesV1, Overdump]
    decide +kernel
  | panics g1 g2 g3 =>
    have : classify (shortSMCD ++ zeros 28) = some .proposal := by decide +kernel
    rw [this] at g1
    cases g1
    revert g3
    dsimp only [Hopeless, HopelessV1]
    decide +kernel

/-- two Proposals, the second byte by byte -/
example :
    let p := pack (bitsCLC (.proposalV2 sampleProposal))
    FitsCLC (.proposalV2 sampleProposal) ∧ Known (.proposalV2 sampleProposal) ∧
      joined ((p, p) :: p.map fun x => ([x], [])) = stream [.proposalV2 sampleProposal, .proposalV2 sampleProposal] := by
  refine ⟨sample_fits, by unfold Known; decide, by decide +kernel⟩

end SMC.Props
