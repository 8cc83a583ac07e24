import Verif.Lemmas.Fresh
import Verif.Props.HttpServer
/-!
# C115: what a page shows
-/

namespace SMC.Props
open SMC.Http

/-- The history of a run. -/
theorem sysHistory {n : Nat} {as : List SysAct} {y : Sys} {es : List SysEvent} (hs : (Sys.init n).run as = some (y, es))
    (hr : OnlyRequestsReset as) : ∃ H, observed H = es ∧ SysInv y H ∧ SysLinearizable H := by
  obtain ⟨H, i, ho⟩ := (SysInv.init n).runs hr hs
  rw [List.nil_append] at i
  exact ⟨H, ho, i, fun t => by rw [i.inv.phases t]; rfl, i.inv.legal⟩

/-- **C115** A response is a beginning of what the last `CopyBuffer` of its goroutine returned. -/
theorem C115_page (n : Nat) (as : List SysAct) (y : Sys) (a b : List SysEvent) (u : Nat) (w : Bytes)
    (hs : (Sys.init n).run as = some (y, a ++ .response u w :: b)) (hr : OnlyRequestsReset as) :
    ∃ c d x, a = c ++ .buf (.ret u (.copied x)) :: d ∧ (∀ e ∈ d, ¬ e.of u) ∧ w <+: x := by
  obtain ⟨H, ho, i, hp, hl⟩ := sysHistory hs hr
  obtain ⟨A, B, rfl, rfl, ho1⟩ := observed_split ho
  obtain ⟨C, D, rfl, eC, -⟩ := observed_response ho1
  obtain ⟨idle, x, ⟨E, F, e, hF⟩, hw⟩ := i.resp (A ++ C) D u w (by simp)
  rw [e] at idle
  obtain ⟨G, J, rfl, hJ⟩ := returned_split idle hF
  have : observed A = observed (A ++ C) := by rw [observed_append, eC, List.append_nil]
  refine ⟨observed (E ++ G), observed J, x, ?_, hJ, hw⟩
  rw [this, e]
  simp [observed]

/-- **C115** Every page is a sequence of whole writes that were called before, each of them as often as it was called at
most. -/
theorem C115_counted (n : Nat) (as : List SysAct) (y : Sys) (a b : List SysEvent) (u : Nat) (x : Bytes)
    (hs : (Sys.init n).run as = some (y, a ++ .buf (.ret u (.copied x)) :: b)) (hr : OnlyRequestsReset as) :
    ∃ ps : List Bytes, x = ps.flatten ∧ ∀ p, ps.count p ≤ callsOf p a := by
  obtain ⟨H, ho, i, hp, hl⟩ := sysHistory hs hr
  obtain ⟨A, B, rfl, rfl, ho1⟩ := observed_split ho
  obtain ⟨C, D, rfl, eC, -⟩ := observed_cons ho1
  have e : observed A = observed (A ++ C) := by rw [observed_append, eC, List.append_nil]
  have hp' : ∀ t, (phase t (points (A ++ C))).isSome := by
    intro t
    have := hp t
    rw [← List.append_assoc, points_append] at this
    exact phase_prefix this
  have m : ∃ op, .pt (.effect u op (.copied x)) ∈ A ++ C := by
    have := hp u
    rw [← List.append_assoc, points_append] at this
    obtain ⟨op, m⟩ := returned_effect this
    exact ⟨op, mem_points.1 m⟩
  obtain ⟨op, m⟩ := m
  obtain ⟨E, F, eF⟩ := List.append_of_mem m
  rw [← List.append_assoc, eF] at hl
  have hv := hl
  simp only [points_append, points_cons, List.append_assoc, List.cons_append] at hv
  have hv := hv.value
  cases op with
  | write p => cases hv
  | fail p => cases hv
  | reset => cases hv
  | copy =>
    obtain rfl := copied_contents hl
    obtain ⟨ps, e1, hc⟩ := since_counted (opsIn E)
    refine ⟨ps, e1, fun p => ?_⟩
    obtain ⟨ts, -, -, h3⟩ := count_calls hp' p
    rw [e, h3, eF, opsIn_append, List.count_append]
    have := hc p
    omega

/-- **C115** What was written before the page was copied, and not reset, is in the page. -/
theorem C115_fresh (n : Nat) (as : List SysAct) (y : Sys) (a s1 b s2 c : List SysEvent) (t u : Nat) (p x : Bytes)
    (v : Val) (hs : (Sys.init n).run as = some (y, a ++ (s1 ++ (b ++ (s2 ++ c)))))
    (hr : OnlyRequestsReset as) (h1 : Whole t (.write p) v s1)
    (h2 : Whole u .copy (.copied x) s2) (hn : Unreset a (s1 ++ (b ++ s2))) : p <:+: x := by
  obtain ⟨H, ho, i, hp, hl⟩ := sysHistory hs hr
  obtain ⟨A, B, C, rfl, hB⟩ := h1.two hp h2 ho
  rw [show A ++ .pt (.effect t (.write p) v) :: (B ++ .pt (.effect u .copy (.copied x)) :: C) =
    ((A ++ .pt (.effect t (.write p) v) :: B) ++ .pt (.effect u .copy (.copied x)) :: C) ++ [] by simp] at hl
  obtain rfl := copied_contents hl
  exact written_contents (hB .reset hn.1 hn.2)

/-- **C115** Two writes that were made one after the other are in the page in this order. -/
theorem C115_order (n : Nat) (as : List SysAct) (y : Sys) (a s1 b s2 c s3 d : List SysEvent) (t1 t2 u : Nat) (p q x : Bytes)
    (v1 v2 : Val) (hs : (Sys.init n).run as = some (y, a ++ (s1 ++ (b ++ (s2 ++ (c ++ (s3 ++ d)))))))
    (hr : OnlyRequestsReset as) (h1 : Whole t1 (.write p) v1 s1) (h2 : Whole t2 (.write q) v2 s2)
    (h3 : Whole u .copy (.copied x) s3) (hn : Unreset a (s1 ++ (b ++ (s2 ++ (c ++ s3))))) :
    ∃ m, p ++ m ++ q <:+: x := by
  obtain ⟨H, ho, i, hp, hl⟩ := sysHistory hs hr
  obtain ⟨A, B, C, D, rfl, hB⟩ := h1.three hp h2 h3 ho
  rw [show A ++ .pt (.effect t1 (.write p) v1) :: (B ++ .pt (.effect t2 (.write q) v2) ::
      (C ++ .pt (.effect u .copy (.copied x)) :: D)) =
    ((A ++ .pt (.effect t1 (.write p) v1) :: (B ++ .pt (.effect t2 (.write q) v2) :: C)) ++
      .pt (.effect u .copy (.copied x)) :: D) ++ [] by simp] at hl
  obtain rfl := copied_contents hl
  have nr := hB .reset hn.1 hn.2
  rw [opsIn_append, List.mem_append, not_or] at nr
  refine ⟨(opsIn B).flatMap Op.payload, contentsAfter A, (opsIn C).flatMap Op.payload, ?_⟩
  rw [contents_noReset (by simp [opsIn_append, opsIn_effect, nr.1, nr.2])]
  simp [opsIn_append, opsIn_effect, Op.payload]

/-- **C115** A later page begins with an earlier one if there was no reset. -/
theorem C115_grows (n : Nat) (as : List SysAct) (y : Sys) (a s1 b s2 c : List SysEvent) (t u : Nat) (x x' : Bytes)
    (hs : (Sys.init n).run as = some (y, a ++ (s1 ++ (b ++ (s2 ++ c)))))
    (hr : OnlyRequestsReset as) (h1 : Whole t .copy (.copied x) s1)
    (h2 : Whole u .copy (.copied x') s2) (hn : Unreset a (s1 ++ (b ++ s2))) : x <+: x' := by
  obtain ⟨H, ho, i, hp, hl⟩ := sysHistory hs hr
  obtain ⟨A, B, C, rfl, hB⟩ := h1.two hp h2 ho
  have l1 := hl
  rw [show A ++ .pt (.effect t .copy (.copied x)) :: (B ++ .pt (.effect u .copy (.copied x')) :: C) =
    (A ++ .pt (.effect t .copy (.copied x)) :: B) ++ (.pt (.effect u .copy (.copied x')) :: C) by simp] at l1
  obtain rfl := copied_contents l1
  rw [show A ++ .pt (.effect t .copy (.copied (contentsAfter A))) :: (B ++ .pt (.effect u .copy (.copied x')) :: C) =
    ((A ++ .pt (.effect t .copy (.copied (contentsAfter A))) :: B) ++ .pt (.effect u .copy (.copied x')) :: C) ++ []
    by simp] at hl
  obtain rfl := copied_contents hl
  rw [contents_noReset (by simp [opsIn_effect, hB .reset hn.1 hn.2])]
  exact List.prefix_append _ _

/-- **C115** A page is empty if nothing was written since the last flush. -/
theorem C115_flushed (n : Nat) (as : List SysAct) (y : Sys) (a s1 b s2 c : List SysEvent) (t u : Nat) (x : Bytes)
    (hs : (Sys.init n).run as = some (y, a ++ (s1 ++ (b ++ (s2 ++ c)))))
    (hr : OnlyRequestsReset as) (h1 : Whole t .reset .wasReset s1)
    (h2 : Whole u .copy (.copied x) s2) (hn : Unwritten a (s1 ++ (b ++ s2))) : x = [] := by
  obtain ⟨H, ho, i, hp, hl⟩ := sysHistory hs hr
  obtain ⟨A, B, C, rfl, hB⟩ := h1.two hp h2 ho
  rw [show A ++ .pt (.effect t .reset .wasReset) :: (B ++ .pt (.effect u .copy (.copied x)) :: C) =
    ((A ++ .pt (.effect t .reset .wasReset) :: B) ++ .pt (.effect u .copy (.copied x)) :: C) ++ [] by simp] at hl
  obtain rfl := copied_contents hl
  simp only [contentsAfter, opsIn_append, opsIn_effect]
  rw [since_append, if_pos (by simp)]
  refine no_writes_since fun p m => Classical.byContradiction fun hne => ?_
  obtain ⟨h3, h4⟩ := hn p hne
  exact hB (.write p) h3 h4 (by simpa using m)

/-- Goroutine 0 writes "a", goroutine 1 writes "b", goroutine 2 answers two requests, the second with flush=true, goroutine 0
answers another one. -/
def shown : List SysAct :=
  [.call 0 (.write [0x61])] ++ List.replicate 6 (.run 0 0) ++ [.call 1 (.write [0x62])] ++ List.replicate 6 (.run 1 1) ++
  [.request 2 []] ++ List.replicate 8 (.run 2 0) ++ [.serve 2 1, .check 2] ++
  [.request 2 flushTrue] ++ List.replicate 8 (.run 2 0) ++ [.serve 2 2, .check 2] ++ List.replicate 4 (.run 2 0) ++
  [.request 0 []] ++ List.replicate 6 (.run 0 0) ++ [.serve 0 0, .check 0]

/-- Operations without events of others in between. -/
def sW (t : Nat) (c : UInt8) : List SysEvent := [.buf (.call t (.write [c])), .buf (.ret t (.wrote 1))]
@[inherit_doc sW]
def sC (t : Nat) (x : Bytes) : List SysEvent := [.buf (.call t .copy), .buf (.ret t (.copied x))]
@[inherit_doc sW]
def sR (t : Nat) : List SysEvent := [.buf (.call t .reset), .buf (.ret t .wasReset)]

theorem wholeW (t : Nat) (c : UInt8) : Whole t (.write [c]) (.wrote 1) (sW t c) := ⟨[], rfl, by simp⟩
theorem wholeC (t : Nat) (x : Bytes) : Whole t .copy (.copied x) (sC t x) := ⟨[], rfl, by simp⟩
theorem wholeR (t : Nat) : Whole t .reset .wasReset (sR t) := ⟨[], rfl, by simp⟩

theorem running_mem {op : Op} {es : List SysEvent} (h : Running op es) : ∃ t, .buf (.call t op) ∈ es := by
  obtain ⟨t, a, b, rfl, -⟩ := h
  exact ⟨t, by simp⟩

/-- The hypotheses of all theorems hold of one execution, with the splits of its events. -/
example : OnlyRequestsReset shown ∧ ((Sys.init 3).run shown).map (·.2) = some ([] ++ (sW 0 0x61 ++ ([] ++ (sW 1 0x62 ++ ([] ++
      (sC 2 [0x61, 0x62] ++ (.response 2 [0x61] :: (sC 2 [0x61, 0x62] ++ .response 2 [0x61, 0x62] :: (sR 2 ++ ([] ++
        (sC 0 [] ++ [.response 0 []]))))))))))) ∧
    Unreset [] (sW 0 0x61 ++ ([] ++ (sW 1 0x62 ++ ([] ++ sC 2 [0x61, 0x62])))) ∧
    Unreset (sW 0 0x61 ++ sW 1 0x62) (sC 2 [0x61, 0x62] ++ ([.response 2 [0x61]] ++ sC 2 [0x61, 0x62])) ∧
    Unwritten (sW 0 0x61 ++ sW 1 0x62 ++ sC 2 [0x61, 0x62] ++ .response 2 [0x61] :: (sC 2 [0x61, 0x62] ++
      [.response 2 [0x61, 0x62]])) (sR 2 ++ ([] ++ sC 0 [])) := by
  refine ⟨by intro t; simp [shown], by decide +kernel, ⟨fun h => ?_, by simp [sW, sC]⟩, ⟨fun h => ?_, by simp [sC]⟩,
    fun p hp => ⟨fun h => ?_, by simp [sR, sC]⟩⟩
  · simpa using running_mem h
  · simpa [sW] using running_mem h
  · obtain ⟨t, a, b, e, hb⟩ := h
    simp only [sW, sC, List.cons_append, List.nil_append, List.cons_eq_append_iff, List.cons.injEq, reduceCtorEq,
      List.nil_eq_append_iff, SysEvent.buf.injEq, Event.call.injEq, Op.write.injEq, false_and, and_false, or_false,
      false_or, exists_false] at e
    rcases e with ⟨rfl, ⟨rfl, rfl⟩, rfl⟩ | ⟨c, rfl, d, rfl, ⟨rfl, ⟨rfl, rfl⟩, rfl⟩⟩ <;> simp [SysEvent.of] at hb

end SMC.Props
