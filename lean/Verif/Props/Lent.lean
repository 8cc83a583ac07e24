import Verif.Lemmas.LentBytes
import Verif.Lemmas.HttpHistory
import Verif.Fmt
/-!
# C112: the buffer and the memory of its callers
-/

namespace SMC.Props
open SMC.Http

/-- **C112** As long as nobody writes to a slice while a `Write` of it is running, all calls return what they would if each of
them happened at one point between its call and its return, with the bytes that were in the slices when the `Write`s were
called, whatever callers do to their slices and copies at all other times. -/
theorem C112_linearizable (n : Nat) (as : List LentAct) (l : Lent) (es : List Event)
    (h : (Lent.init n).run as = some (l, es)) (hc : Careful (.init n) as) : Linearizable es := by
  obtain ⟨pts, i, e⟩ := Inv.careful_run (.init n) (Cur.init n) (Inv.init n) hc h
  refine ⟨pts, by simpa [seen] using e, ?_, i.legal⟩
  intro t
  rw [i.phases t]
  rfl

/-- **C112** If slices are changed while they are written, all calls return what they would with `Write`s of other bytes: each
byte of a `Write` is one that was at its place in the slice at some time in that `Write`. -/
theorem C112_mixed (n : Nat) (as : List LentAct) (l : Lent) (es : List Event)
    (h : (Lent.init n).run as = some (l, es)) : ∃ es', Mixed (.init n) as es es' ∧ Linearizable es' := by
  obtain ⟨g, es', m, _, k⟩ := Busy.run (.init n) (.init n) h
  have hi : (Lent.init n).patch g = .init n := by
    simp only [Lent.patch, Lent.init, State.init, State.mk.injEq, true_and]
    apply List.ext_getElem?
    intro t
    simp only [List.getElem?_mapIdx, List.getElem?_replicate]
    split <;> rfl
  obtain ⟨s, pts, i, e⟩ := k [] (hi ▸ Inv.init n)
  refine ⟨es', m, pts, by simpa [seen] using e, ?_, i.legal⟩
  intro t
  rw [i.phases t]
  rfl

/-- **C112** That is: the bytes of a `Write` are those its slice had when it was called, unless its slice is changed in that
`Write`, whatever happens to the slices of others. -/
theorem C112_kept (n : Nat) (as bs : List LentAct) (l : Lent) (es : List Event) (h : (Lent.init n).run as = some (l, es))
    (t : Nat) (r : Part) (hu : Untouched t r l bs) (i : Nat) (b : UInt8) (hh : Held t r i b l bs) :
    (l.s.part r)[i]? = some b :=
  hu.held ((Lend.init n).run h) hh

/-- **C112** The memory of callers changes by their own writes only, also the copies they got. -/
theorem C112_memory (n : Nat) (as : List LentAct) (l l' : Lent) (es e : List Event) (a : LentAct)
    (h : (Lent.init n).run as = some (l, es)) (hs : l.step a = some (l', e)) (x : Nat) (hx : x ∈ l.owned)
    (ha : ∀ i b, a ≠ .poke x i b) : l'.s.array x = l.s.array x :=
  ((((Lend.init n).run h).step hs).2 x hx).2 ha

/-- **C112** What callers write to their memory does not change the buffer, which has an array of its own. -/
theorem C112_private (n : Nat) (as : List LentAct) (l l' : Lent) (es e : List Event) (x i : Nat) (b : UInt8)
    (h : (Lent.init n).run as = some (l, es)) (hs : l.step (.poke x i b) = some (l', e)) :
    l'.s.contents = l.s.contents ∧ l'.s.arr = l.s.arr ∧ ∀ y ∈ l.owned, l.s.arr ≠ some y := by
  have k := (Lend.init n).run h
  simp only [Lent.step, Option.bind_eq_bind, Option.bind_eq_some_iff, Option.pure_def, Option.some.injEq, Prod.mk.injEq,
    State.poke] at hs
  obtain ⟨_, hg, s, h2, rfl, rfl⟩ := hs
  split at h2
  · cases h2
    refine ⟨?_, rfl, fun y hy => (k.own y hy).2.1⟩
    simp only [State.contents]
    cases ha : l.s.arr with
    | none => rfl
    | some a =>
      have e : x ≠ a := fun e => (k.own x (guard_some hg)).2.1 (e ▸ ha)
      simp only [State.array]
      rw [array_modify_ne _ _ _ _ e]
  · cases h2

/-- A caller that uses its slice again after `Write` has returned, and writes to the copy it got. -/
def again : List LentAct :=
  [.alloc [0x61, 0x62, 0x63], .write 0 false ⟨0, 1, 2⟩, .poke 0 0 0x78] ++ List.replicate 7 (.run 0 0) ++
  [.poke 0 1 0x79, .copy 1] ++ List.replicate 8 (.run 1 0) ++ [.poke 2 0 0x7a, .write 0 false ⟨0, 0, 2⟩] ++
  List.replicate 7 (.run 0 5) ++ [.copy 1] ++ List.replicate 10 (.run 1 0)

example : ((Lent.init 2).run again).map (·.2) = some [.call 0 (.write (go! "bc")), .ret 0 (.wrote 2), .call 1 .copy,
    .ret 1 (.copied (go! "bc")), .call 0 (.write (go! "xy")), .ret 0 (.wrote 2), .call 1 .copy,
    .ret 1 (.copied (go! "bcxy"))] := by decide +kernel

/-- Whether callers are careful can be decided. -/
def careful (l : Lent) : List LentAct → Bool
  | [] => true
  | a :: as =>
    (match a with
      | .poke x i _ => l.args.all fun
        | none => true
        | some r => r.arr ≠ x ∨ i < r.off ∨ r.off + r.len ≤ i
      | _ => true) &&
      match l.step a with
      | none => true
      | some (l', _) => careful l' as

theorem careful_sound {l : Lent} {as : List LentAct} (h : careful l as = true) : Careful l as := by
  induction as generalizing l with
  | nil => trivial
  | cons a as ih =>
    simp only [careful, Bool.and_eq_true] at h
    refine ⟨?_, ?_⟩
    · rintro x i b rfl r hr he
      have := List.all_eq_true.1 h.1 _ hr
      simp only [decide_eq_true_eq] at this
      rcases this with c | c
      · exact absurd he c
      · exact c
    · intro l' es hs
      have := h.2
      rw [hs] at this
      exact ih this

example : Careful (.init 2) again := careful_sound (by decide +kernel)

/-- A slice can be changed while it is written. -/
example : ∃ l l' es e, (Lent.init 2).run (again.take 4) = some (l, es) ∧ l.step (.poke 0 1 0x78) = some (l', e) ∧ 0 ∈ l.owned ∧
    some ⟨0, 1, 2⟩ ∈ l.args :=
  ⟨_, _, _, _, Option.eq_some_of_isSome (by decide +kernel), Option.eq_some_of_isSome (by decide +kernel), by decide +kernel,
    by decide +kernel⟩

/-- A write next to the slice of a running `Write`. -/
example : ∃ l es, (Lent.init 2).run (again.take 2) = some (l, es) ∧ Untouched 0 ⟨0, 1, 2⟩ l [.poke 0 0 0x78] ∧
    Held 0 ⟨0, 1, 2⟩ 0 0x62 l [.poke 0 0 0x78] := by
  refine ⟨_, _, Option.eq_some_of_isSome (by decide +kernel), fun _ => ⟨?_, fun _ _ _ => trivial⟩, by decide +kernel, .inr ?_⟩
  · intro i b e
    cases e
    exact .inl (by decide)
  · exact ⟨_, _, Option.eq_some_of_isSome (by decide +kernel), by decide +kernel, by decide +kernel⟩

/-- A write to the slice of a running `Write`: it has one byte and then another. -/
example : ∃ l es, (Lent.init 2).run (again.take 2) = some (l, es) ∧ Held 0 ⟨0, 1, 2⟩ 0 0x62 l [.poke 0 1 0x78] ∧
    Held 0 ⟨0, 1, 2⟩ 0 0x78 l [.poke 0 1 0x78] ∧ ¬ Untouched 0 ⟨0, 1, 2⟩ l [.poke 0 1 0x78] := by
  refine ⟨_, _, Option.eq_some_of_isSome (by decide +kernel), ⟨by decide +kernel, .inl (by decide +kernel)⟩,
    ⟨by decide +kernel, .inr ?_⟩, fun h => ?_⟩
  · exact ⟨_, _, Option.eq_some_of_isSome (by decide +kernel), by decide +kernel, by decide +kernel⟩
  · have := (h (by decide +kernel)).1 1 0x78 rfl
    simp at this

/-- Without care: the slice held "aa", then "ba", then "bb", and "ab" is in the buffer. -/
theorem C112_torn : ∃ as l es, (Lent.init 1).run as = some (l, es) ∧ .ret 0 (.copied (go! "ab")) ∈ es ∧ ¬ Linearizable es := by
  have h : ((Lent.init 1).run ([.alloc (go! "aa"), .write 0 false ⟨0, 0, 2⟩] ++ List.replicate 3 (.run 0 0) ++
      [.poke 0 0 0x62, .poke 0 1 0x62] ++ List.replicate 4 (.run 0 0) ++ [.copy 0] ++ List.replicate 8 (.run 0 0))).map (·.2) =
      some [.call 0 (.write (go! "aa")), .ret 0 (.wrote 2), .call 0 .copy, .ret 0 (.copied (go! "ab"))] := by
    decide +kernel
  obtain ⟨⟨l, es⟩, h, rfl⟩ := Option.map_eq_some_iff.1 h
  refine ⟨_, l, _, h, by simp, ?_⟩
  intro hl
  obtain ⟨ps, e, hps⟩ := hl.whole (t := 0) (bs := go! "ab") (by simp)
  have all : ∀ p ∈ ps, p = go! "aa" := by
    intro p hp
    obtain ⟨u, m⟩ := hps p hp
    simp at m
    exact m.2
  cases ps with
  | nil => cases e
  | cons x xs =>
    rw [all x (by simp)] at e
    cases e

end SMC.Props
