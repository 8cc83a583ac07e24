import Verif.Lemmas.HttpRace
import Verif.Lemmas.HttpFootprint
/-!
# C86: no data races in pkg/http
-/

namespace SMC.Props

open SMC Http

/-- **C86** Whatever requests are handled and whatever methods of the buffer are called by whom, in
every interleaving: two accesses to the same memory by different goroutines, one of which changes
it, are ordered by the mutex. -/
theorem C86_race_free (n : Nat) (as : List SysAct) : RaceFree ((Sys.init n).trace as) := by
  simpa using (RInv.init n).trace as

/-- A write by goroutine 0 and a request by goroutine 1, and part of what they do: both use the
fields of the buffer (positions 2 and 8), and byte 0 of array 0 is written by one and read by the
other (positions 5 and 10). -/
example :
    let tr := (Sys.init 2).trace
      ([.call 0 (.write [0x61])] ++ List.replicate 6 (.run 0 0) ++ [.request 1 []] ++ List.replicate 7 (.run 1 0) ++
        [.serve 1 1])
    tr[2]? = some (0, .write .header) ∧ tr[8]? = some (1, .read .header) ∧
    tr[5]? = some (0, .write (.elem 0 0)) ∧ tr[10]? = some (1, .read (.elem 0 0)) ∧
    tr[14]? = some (1, .read (.elem 1 0)) ∧ tr.length = 15 ∧
    Conflict (.write (.elem 0 0)) (.read (.elem 0 0)) := by
  refine ⟨?_, ?_, ?_, ?_, ?_, ?_, ⟨.elem 0 0, rfl, rfl, .inl rfl⟩⟩ <;> decide +kernel

/-- **C86** The listed accesses are all there are, writes: a step changes the contents of no other
location, and it takes or releases the lock exactly if that is listed. -/
theorem C86_writes (s s' : State) (t spare : Nat) (pc : PC) (es : List Event) (ht : s.pcs[t]? = some pc)
    (hs : step s (.run t spare) = some (s', es)) :
    (∀ l, s'.cell l ≠ s.cell l → .write l ∈ pc.actions s spare) ∧
    (s.locked = false ∧ s'.locked = true ↔ pc.actions s spare = [.acquire]) ∧
    (s.locked = true ∧ s'.locked = false ↔ pc.actions s spare = [.release]) := by
  simp only [step, ht] at hs
  exact ⟨writes_footprint hs, lock_footprint hs⟩

/-- **C86** The listed accesses are all there are, reads: a step does the same, makes the same visible and writes
the same in every state that has the same contents in the locations read. -/
theorem C86_reads (s r s' : State) (t spare : Nat) (pc : PC) (es : List Event) (ht : s.pcs[t]? = some pc)
    (hsh : SameShape s r) (hr : ∀ l, .read l ∈ pc.actions s spare → s.cell l = r.cell l)
    (hs : step s (.run t spare) = some (s', es)) :
    ∃ r', step r (.run t spare) = some (r', es) ∧ SameShape s' r' ∧
      ∀ l, .write l ∈ pc.actions s spare → s'.cell l = r'.cell l := by
  have ht' : r.pcs[t]? = some pc := by rw [← hsh.2.1]; exact ht
  simp only [step, ht] at hs
  obtain ⟨r', h1, h2⟩ := reads_footprint hsh hr s' es hs
  exact ⟨r', by simp only [step, ht']; exact h1, h2⟩

/-- Two states that differ in a byte that is not read, and a step possible in them: copying the second
of two bytes. -/
example :
    let s : State := ⟨true, some 0, 2, [[0x61, 0x62], [0x61, 0]], [.cCopy (some 0) 2 1 1]⟩
    let r : State := ⟨true, some 0, 2, [[0x77, 0x62], [0x61, 0]], [.cCopy (some 0) 2 1 1]⟩
    s ≠ r ∧ SameShape s r ∧ PC.actions s 0 (.cCopy (some 0) 2 1 1) = [.read (.elem 0 1), .write (.elem 1 1)] ∧
    s.cell (.elem 0 1) = r.cell (.elem 0 1) ∧ (step s (.run 0 0)).isSome := by
  refine ⟨by decide, ⟨rfl, rfl, rfl⟩, rfl, rfl, rfl⟩

/-- Not every trace is free of races: this one has two writes without the lock. -/
example : ¬ RaceFree [(0, .write .header), (1, .write .header)] := by
  have no : ∀ i j, HB [(0, .write .header), (1, .write .header)] i j → False := by
    intro i j h
    induction h with
    | @program i j t x y hij h1 h2 =>
      match i, j with
      | 0, 1 => simp only [List.getElem?_cons_zero, List.getElem?_cons_succ, Option.some.injEq, Prod.mk.injEq] at h1 h2; omega
      | 0, n + 2 => simp at h2
      | 1, n + 2 => simp at h2
      | n + 2, _ => simp at h1
    | @lock i j t u hij h1 h2 =>
      match i with
      | 0 => simp at h1
      | 1 => simp at h1
      | n + 2 => simp at h1
    | trans _ _ a _ => exact a
  exact fun h => no 0 1 (h 0 1 0 1 _ _ (by omega) rfl rfl (by omega) ⟨.header, rfl, rfl, .inl rfl⟩)

end SMC.Props
