import Verif.CLC.Vars
import Verif.Props.CLCHeader
/-!
# C107: the exported variables of pkg/clc
-/

namespace SMC.CLC

/-- the variable that a statement changes -/
def VarAct.target : VarAct → Var
  | .poke v .. => v
  | .fresh v _ => v
  | .slice v .. => v
  | .append v .. => v

/-- a statement that speaks about `v` only -/
def VarAct.Only (v : Var) : VarAct → Prop
  | .poke u .. => u = v
  | .fresh u _ => u = v
  | .slice u w .. => u = v ∧ w = v
  | .append u .. => u = v

/-- all slices lie inside their arrays -/
def Vars.Valid (s : Vars) : Prop :=
  ∀ v, (s.get v).len ≤ (s.get v).cap ∧ ∃ x, s.arrays[(s.get v).arr]? = some x ∧ (s.get v).off + (s.get v).cap ≤ x.length

theorem Vars.valid_init : Vars.init.Valid := by
  intro v
  cases v <;> exact ⟨by decide, _, rfl, by decide⟩

theorem get_set (s : Vars) (v w : Var) (r : Ref) : (s.set v r).get w = if w = v then r else s.get w := by
  cases v <;> cases w <;> rfl

theorem arrays_set (s : Vars) (v : Var) (r : Ref) : (s.set v r).arrays = s.arrays := by cases v <;> rfl

theorem get_store (s : Vars) (a i : Nat) (bs : Bytes) (w : Var) : (s.store a i bs).get w = s.get w := by cases w <;> rfl

theorem get_arrays (s : Vars) (x : List Bytes) (w : Var) : ({ s with arrays := x } : Vars).get w = s.get w := by cases w <;> rfl

/-- what matters of an array is its length -/
theorem store_array {s : Vars} {a i : Nat} {bs x : Bytes} {n : Nat} (h : s.arrays[n]? = some x) (hi : a = n → i + bs.length ≤ x.length) :
    ∃ y, (s.store a i bs).arrays[n]? = some y ∧ y.length = x.length := by
  simp only [Vars.store, List.getElem?_modify, h]
  split
  · rename_i e
    refine ⟨_, rfl, ?_⟩
    have := hi e
    simp only [List.length_append, List.length_take, List.length_drop]
    omega
  · exact ⟨_, rfl, rfl⟩

theorem Vars.Valid.store {s : Vars} (h : s.Valid) {a i : Nat} {bs : Bytes} (hi : ∀ x, s.arrays[a]? = some x → i + bs.length ≤ x.length) :
    (s.store a i bs).Valid := by
  intro v
  rw [get_store]
  obtain ⟨h1, x, h2, h3⟩ := h v
  obtain ⟨y, h4, h5⟩ := store_array (a := a) (i := i) (bs := bs) h2 (by rintro rfl; exact hi x h2)
  exact ⟨h1, y, h4, by omega⟩

theorem Vars.Valid.set {s : Vars} (h : s.Valid) {v : Var} {r : Ref} (hr : r.len ≤ r.cap)
    (hx : ∃ x, s.arrays[r.arr]? = some x ∧ r.off + r.cap ≤ x.length) : (s.set v r).Valid := by
  intro w
  rw [get_set, arrays_set]
  split
  · exact ⟨hr, hx⟩
  · exact h w

theorem Vars.Valid.more {s : Vars} (h : s.Valid) (bs : Bytes) : ({ s with arrays := s.arrays ++ [bs] } : Vars).Valid := by
  intro w
  rw [get_arrays]
  obtain ⟨h1, x, h2, h3⟩ := h w
  exact ⟨h1, x, by
    have := (List.getElem?_eq_some_iff.1 h2).1
    simp only [List.getElem?_append_left this, h2], h3⟩

theorem bytes_length {s : Vars} (h : s.Valid) (v : Var) : (s.bytes v).length = (s.get v).len := by
  obtain ⟨h1, x, h2, h3⟩ := h v
  simp only [Vars.bytes, h2, Option.getD_some, List.length_take, List.length_drop]
  omega

theorem Vars.Valid.step {s s' : Vars} (h : s.Valid) {a : VarAct} (hs : s.step a = some s') : s'.Valid := by
  cases a with
  | poke v i b =>
    simp only [Vars.step] at hs
    split at hs
    · rename_i hi
      cases hs
      obtain ⟨h1, x, h2, h3⟩ := h v
      refine h.store fun y hy => ?_
      rw [h2] at hy; cases hy
      simp only [List.length_cons, List.length_nil]
      omega
    · cases hs
  | fresh v bs =>
    cases hs
    exact (h.more bs).set (Nat.le_refl _) ⟨bs, by simp, by simp⟩
  | slice v w lo hi =>
    simp only [Vars.step] at hs
    split at hs
    · cases hs
      obtain ⟨h1, x, h2, h3⟩ := h w
      exact h.set (by simp only; omega) ⟨x, h2, by simp only; omega⟩
    · cases hs
  | append v bs spare =>
    simp only [Vars.step] at hs
    obtain ⟨h1, x, h2, h3⟩ := h v
    split at hs
    · cases hs
      have hv := h.store (a := (s.get v).arr) (i := (s.get v).off + (s.get v).len) (bs := bs)
        (fun y hy => by rw [h2] at hy; cases hy; omega)
      have := (hv v).2
      rw [get_store] at this
      exact hv.set (by simp only; omega) this
    · cases hs
      refine (h.more _).set (by simp only; omega) ⟨_, by simp; rfl, ?_⟩
      simp only [List.length_append, bytes_length h, zeros, List.length_replicate]
      omega

theorem Vars.Valid.run {s s' : Vars} (h : s.Valid) {as : List VarAct} (hs : s.run as = some s') : s'.Valid := by
  induction as generalizing s with
  | nil => cases hs; exact h
  | cons a as ih =>
    obtain ⟨s1, h1, h2⟩ := Option.bind_eq_some_iff.1 hs
    exact ih (h.step h1) h2

/-- `v` and `w` do not share an array -/
def Vars.Apart (s : Vars) (v w : Var) : Prop := (s.get v).arr ≠ (s.get w).arr

theorem bytes_eq {s s' : Vars} {w : Var} (hg : s'.get w = s.get w) (ha : s'.arrays[(s.get w).arr]? = s.arrays[(s.get w).arr]?) :
    s'.bytes w = s.bytes w := by
  simp only [Vars.bytes, hg, ha]

theorem store_other {s : Vars} {a i n : Nat} {bs : Bytes} (h : a ≠ n) : (s.store a i bs).arrays[n]? = s.arrays[n]? := by
  simp only [Vars.store, List.getElem?_modify, if_neg h]
  cases s.arrays[n]? <;> rfl

theorem apart_step {s s' : Vars} (h : s.Valid) {v w : Var} (hw : w ≠ v) (ha : s.Apart v w) {a : VarAct} (ho : a.Only v)
    (hs : s.step a = some s') : s'.bytes w = s.bytes w ∧ s'.Apart v w := by
  obtain ⟨-, x, h2, -⟩ := h w
  have lw := (List.getElem?_eq_some_iff.1 h2).1
  cases a with
  | poke u i b =>
    cases ho
    simp only [Vars.step] at hs
    split at hs
    · cases hs
      exact ⟨bytes_eq (get_store ..) (store_other ha), by simpa only [Vars.Apart, get_store] using ha⟩
    · cases hs
  | fresh u bs =>
    cases ho
    cases hs
    refine ⟨bytes_eq (by rw [get_set, if_neg hw, get_arrays]) ?_, ?_⟩
    · rw [arrays_set]
      simp only [List.getElem?_append_left lw]
    · simp only [Vars.Apart, get_set, if_true, if_neg hw, get_arrays]
      omega
  | slice u w' lo hi =>
    obtain ⟨rfl, rfl⟩ := ho
    simp only [Vars.step] at hs
    split at hs
    · cases hs
      refine ⟨bytes_eq (by rw [get_set, if_neg hw]) (by rw [arrays_set]), ?_⟩
      simpa only [Vars.Apart, get_set, if_true, if_neg hw] using ha
    · cases hs
  | append u bs spare =>
    cases ho
    simp only [Vars.step] at hs
    split at hs
    · cases hs
      refine ⟨bytes_eq (by rw [get_set, if_neg hw, get_store]) (by rw [arrays_set]; exact store_other ha), ?_⟩
      simpa only [Vars.Apart, get_set, if_true, if_neg hw, get_store] using ha
    · cases hs
      refine ⟨bytes_eq (by rw [get_set, if_neg hw, get_arrays]) ?_, ?_⟩
      · rw [arrays_set]
        simp only [List.getElem?_append_left lw]
      · simp only [Vars.Apart, get_set, if_true, if_neg hw, get_arrays]
        omega

theorem apart_run {s s' : Vars} (h : s.Valid) {v w : Var} (hw : w ≠ v) (ha : s.Apart v w) {as : List VarAct} (ho : ∀ a ∈ as, a.Only v)
    (hs : s.run as = some s') : s'.bytes w = s.bytes w ∧ s'.Apart v w := by
  induction as generalizing s with
  | nil => cases hs; exact ⟨rfl, ha⟩
  | cons a as ih =>
    obtain ⟨s1, h1, h2⟩ := Option.bind_eq_some_iff.1 hs
    obtain ⟨e1, a1⟩ := apart_step h hw ha (ho a List.mem_cons_self) h1
    obtain ⟨e2, a2⟩ := ih (h.step h1) a1 (fun b m => ho b (List.mem_cons_of_mem _ m)) h2
    exact ⟨e2.trans e1, a2⟩

theorem hasEyecatcher_congr {s s' : Vars} (hr : s'.bytes .smcr = s.bytes .smcr) (hd : s'.bytes .smcd = s.bytes .smcd) :
    s'.hasEyecatcher = s.hasEyecatcher := by
  funext b
  simp only [Vars.hasEyecatcher, hr, hd]

/-- the functions of the package that look for eyecatchers do the same in both states -/
def SameEyes (s s' : Vars) : Prop :=
  s'.hasEyecatcher = s.hasEyecatcher ∧ s'.eyecatcherStr = s.eyecatcherStr ∧ s'.newMessage = s.newMessage ∧ s'.trailerParse = s.trailerParse

theorem sameEyes {s s' : Vars} (hr : s'.bytes .smcr = s.bytes .smcr) (hd : s'.bytes .smcd = s.bytes .smcd) : SameEyes s s' := by
  have h := hasEyecatcher_congr hr hd
  refine ⟨h, ?_, ?_, ?_⟩
  · funext e
    simp only [Vars.eyecatcherStr, hr, hd]
  · funext b
    simp only [Vars.newMessage, h]
  · funext t b
    simp only [Vars.trailerParse, h]

theorem sameOption {s s' : Vars} (ho : s'.bytes .option = s.bytes .option) : s'.checkSMCOption = s.checkSMCOption := by
  funext l
  induction l with
  | nil => rfl
  | cons o l ih => simp only [Vars.checkSMCOption, ho, ih]

end SMC.CLC

namespace SMC.Props
open SMC.CLC

/-- **C107** Until somebody changes the variables, the functions are the ones of the rest of the
model. -/
theorem C107_initial : Vars.init.eyecatcherStr = eyecatcherStr ∧ Vars.init.hasEyecatcher = hasEyecatcher ∧
    Vars.init.newMessage = newMessage ∧ Vars.init.trailerParse = trailerParse ∧ Vars.init.checkSMCOption = checkSMCOption := by
  have h : Vars.init.hasEyecatcher = hasEyecatcher := rfl
  refine ⟨rfl, h, ?_, ?_, ?_⟩
  · funext b
    simp only [Vars.newMessage, newMessage, h]
  · funext t b
    simp only [Vars.trailerParse, trailerParse, h]
  · funext l
    induction l with
    | nil => rfl
    | cons o l ih => simp only [Vars.checkSMCOption, checkSMCOption, ih]; rfl

/-- **C107** What is recognised is what is in the variables now. -/
theorem C107_current (s : Vars) (b : Slice) (h : 4 ≤ b.len) (opts : List TCPOption) :
    s.hasEyecatcher b = .ret [] (decide (b.vis.take 4 = s.bytes .smcr ∨ b.vis.take 4 = s.bytes .smcd)) ∧
    (s.checkSMCOption opts = true ↔ ∃ o ∈ opts, o.OptionType = 254 ∧ o.OptionLength = 6 ∧ o.OptionData = s.bytes .option) := by
  constructor
  · have e : b.sto EyecatcherLen = .ret [] ⟨b.vis.take 4, (b.vis ++ b.extra).drop 4⟩ := by
      have h' : 4 ≤ b.vis.length := h
      simp only [Slice.sto, Slice.sub, EyecatcherLen, List.drop_zero, Nat.sub_zero, List.take_append_of_le_length h']
      rw [if_pos ⟨by omega, by simp only [Slice.cap]; omega⟩]
    by_cases c1 : b.vis.take 4 = s.bytes .smcr
    · simp [Vars.hasEyecatcher, e, c1, Bind.bind, Go.bind, Pure.pure]
    · by_cases c2 : b.vis.take 4 = s.bytes .smcd <;>
        simp [Vars.hasEyecatcher, e, c1, c2, Bind.bind, Go.bind, Pure.pure]
  · induction opts with
    | nil => simp [Vars.checkSMCOption]
    | cons o opts ih =>
      unfold Vars.checkSMCOption
      split
      · rename_i c
        exact ⟨fun _ => ⟨o, List.mem_cons_self, c⟩, fun _ => rfl⟩
      · rename_i c
        rw [ih]
        constructor
        · rintro ⟨x, m, h⟩
          exact ⟨x, List.mem_cons_of_mem _ m, h⟩
        · rintro ⟨x, m, h⟩
          rcases List.mem_cons.1 m with rfl | m
          · exact absurd h c
          · exact ⟨x, m, h⟩

/-- **C107** is false: writing a byte of `SMCOption` makes `NewMessage` refuse SMC-R messages, and
SMC-R trailers are reported as faults. -/
theorem C107_false : ∃ s, Vars.init.run [.poke .option 3 0xC5] = some s ∧
    s.newMessage ⟨hex! "e2d4c3d904001c10", []⟩ = .ret [] (none, 0) ∧
    (newMessage ⟨hex! "e2d4c3d904001c10", []⟩).val? = some (some (.decline {}), 28) ∧
    (s.trailerParse (zeros 4) ⟨SMCREyecatcher, []⟩).logOf ≠ [] ∧ (trailerParse (zeros 4) ⟨SMCREyecatcher, []⟩).logOf = [] ∧
    s.eyecatcherStr SMCREyecatcher = go! "Unknown" :=
  ⟨_, rfl, by decide +kernel, by decide +kernel, by decide +kernel, by decide +kernel, by decide +kernel⟩

/-- **C107** As long as nobody assigns `SMCOption` or `SMCREyecatcher`, they are one and the same:
every byte that is written to the one is written to the other. -/
theorem C107_shared (as : List VarAct) (s : Vars) (h : Vars.init.run as = some s)
    (hp : ∀ a ∈ as, a.target = .smcd ∨ ∃ v i b, a = .poke v i b) :
    s.option = s.smcr ∧ s.bytes .option = s.bytes .smcr := by
  have key : ∀ (as : List VarAct) (s s' : Vars), s.option = s.smcr → s.run as = some s' →
      (∀ a ∈ as, a.target = .smcd ∨ ∃ v i b, a = .poke v i b) → s'.option = s'.smcr := by
    intro as
    induction as with
    | nil => intro s s' e h _; cases h; exact e
    | cons a as ih =>
      intro s s' e h hp
      obtain ⟨s1, h1, h2⟩ := Option.bind_eq_some_iff.1 h
      refine ih s1 s' ?_ h2 fun b m => hp b (List.mem_cons_of_mem _ m)
      cases a with
      | poke v i b =>
        simp only [Vars.step] at h1
        split at h1
        · cases h1; exact e
        · cases h1
      | fresh v bs =>
        rcases hp _ List.mem_cons_self with ht | ⟨_, _, _, ht⟩
        · cases ht; cases h1; exact e
        · cases ht
      | slice v w lo hi =>
        rcases hp _ List.mem_cons_self with ht | ⟨_, _, _, ht⟩
        · cases ht
          simp only [Vars.step] at h1
          split at h1
          · cases h1; exact e
          · cases h1
        · cases ht
      | append v bs spare =>
        rcases hp _ List.mem_cons_self with ht | ⟨_, _, _, ht⟩
        · cases ht
          simp only [Vars.step] at h1
          split at h1
          · cases h1; exact e
          · cases h1; exact e
        · cases ht
  have e := key as _ s rfl h hp
  exact ⟨e, by simp only [Vars.bytes, Vars.get, e]⟩

example : ∃ s, Vars.init.run [.poke .option 3 0xC5, .fresh .smcd [1], .poke .smcr 0 2] = some s ∧ s.bytes .option = hex! "02d4c3c5" :=
  ⟨_, rfl, by decide +kernel⟩

/-- **C107** What is done to one variable does not change another one that is in another array. -/
theorem C107_apart (before after : List VarAct) (s s' : Vars) (v w : Var) (hv : w ≠ v) (h : Vars.init.run before = some s)
    (ha : (s.get v).arr ≠ (s.get w).arr) (ho : ∀ a ∈ after, a.Only v) (h' : s.run after = some s') : s'.bytes w = s.bytes w :=
  (apart_run (Vars.valid_init.run h) hv ha ho h').1

/-- C107 for programs that give `SMCOption` an array of its own before they change its bytes: whatever
was done before, messages and trailers are recognised as before. -/
theorem C107_partial (before after : List VarAct) (bs : Bytes) (s s' : Vars) (h : Vars.init.run before = some s)
    (ho : ∀ a ∈ after, a.Only .option) (h' : s.run (.fresh .option bs :: after) = some s') : SameEyes s s' := by
  have hv := Vars.valid_init.run h
  have ap : ∀ w, w ≠ .option → s'.bytes w = s.bytes w := by
    intro w hw
    obtain ⟨s1, h1, h2⟩ := Option.bind_eq_some_iff.1 h'
    have e1 : s1.bytes w = s.bytes w ∧ s1.Apart .option w := by
      obtain ⟨-, x, hx, -⟩ := hv w
      have lw := (List.getElem?_eq_some_iff.1 hx).1
      cases h1
      refine ⟨bytes_eq (by rw [get_set, if_neg hw, get_arrays]) ?_, ?_⟩
      · rw [arrays_set]
        simp only [List.getElem?_append_left lw]
      · simp only [Vars.Apart, get_set, if_true, if_neg hw, get_arrays]
        omega
    exact (apart_run (hv.step h1) hw e1.2 ho h2).1.trans e1.1
  exact sameEyes (ap _ (by decide)) (ap _ (by decide))

/-- C107 for programs that change `SMCDEyecatcher` only: the option and SMC-R are recognised as before. -/
theorem C107_smcd_partial (as : List VarAct) (s : Vars) (ho : ∀ a ∈ as, a.Only .smcd) (h : Vars.init.run as = some s) :
    s.bytes .smcr = SMCREyecatcher ∧ s.checkSMCOption = checkSMCOption := by
  have h1 := (apart_run Vars.valid_init (w := .smcr) (by decide) (by unfold Vars.Apart; decide) ho h).1
  have h2 := (apart_run Vars.valid_init (w := .option) (by decide) (by unfold Vars.Apart; decide) ho h).1
  exact ⟨h1.trans (by decide), (sameOption h2).trans C107_initial.2.2.2.2⟩

/-- **C107** What each statement does to the variable it speaks about, in every state that a program can
reach: a byte is written if the index is less than the length, and no other byte is; the variable gets
the bytes that are assigned to it, or a part of another one; `append` keeps the bytes and adds others. -/
theorem C107_statements (as : List VarAct) (s : Vars) (h : Vars.init.run as = some s) (v w : Var) (i lo hi spare : Nat) (b : UInt8)
    (bs : Bytes) :
    ((s.step (.poke v i b)).map (·.bytes v) = if i < (s.bytes v).length then some ((s.bytes v).set i b) else none) ∧
    (s.step (.fresh v bs)).map (·.bytes v) = some bs ∧
    (lo ≤ hi → hi ≤ (s.bytes w).length → (s.step (.slice v w lo hi)).map (·.bytes v) = some (((s.bytes w).take hi).drop lo)) ∧
    (s.step (.append v bs spare)).map (·.bytes v) = some (s.bytes v ++ bs) := by
  have hv := Vars.valid_init.run h
  refine ⟨?_, ?_, ?_, ?_⟩
  · rw [bytes_length hv]
    simp only [Vars.step]
    split
    · rename_i hi
      obtain ⟨h1, x, h2, h3⟩ := hv v
      have e : (s.store (s.get v).arr ((s.get v).off + i) [b]).arrays[(s.get v).arr]? = some (x.set ((s.get v).off + i) b) := by
        simp only [Vars.store, List.getElem?_modify, h2, if_true, Option.map_eq_map, Option.map_some]
        rw [List.set_eq_take_append_cons_drop, if_pos (by omega)]
        simp
      simp only [Option.map_some, Vars.bytes, get_store, e, h2, Option.getD_some]
      rw [List.drop_set, if_neg (by omega), Nat.add_sub_cancel_left, List.take_set]
    · rfl
  · simp [Vars.step, Vars.bytes, get_set, arrays_set]
  · intro h1 h2
    rw [bytes_length hv] at h2
    have h3 := (hv w).1
    simp only [Vars.step]
    rw [if_pos ⟨h1, by omega⟩]
    simp only [Option.map_some, Vars.bytes, get_set, if_true, arrays_set]
    rw [List.take_take, List.drop_take, List.drop_drop, Nat.min_eq_left h2]
  · obtain ⟨h1, x, h2, h3⟩ := hv v
    simp only [Vars.step]
    split
    · simp only [Option.map_some, Vars.bytes, get_set, if_true, arrays_set, Vars.store, List.getElem?_modify, h2, Option.map_eq_map, Option.getD_some]
      rw [List.append_assoc, List.drop_append_of_le_length (by rw [List.length_take]; omega), List.drop_take, Nat.add_sub_cancel_left]
      have l : ((x.drop (s.get v).off).take (s.get v).len).length = (s.get v).len := by
        rw [List.length_take, List.length_drop]
        omega
      rw [← List.append_assoc, List.take_append_of_le_length (by rw [List.length_append, l]; omega), List.take_of_length_le]
      rw [List.length_append, l]
      exact Nat.le_refl _
    · simp only [Option.map_some, Vars.bytes, get_set, if_true, arrays_set]
      rw [List.getElem?_append_right (Nat.le_refl _), Nat.sub_self]
      simp only [List.getElem?_cons_zero, Option.getD_some, List.drop_zero]
      have l := bytes_length hv v
      rw [List.take_append_of_le_length (by rw [List.length_append]; simp only [Vars.bytes] at l; omega), List.take_of_length_le]
      rw [List.length_append]
      simp only [Vars.bytes] at l
      omega

/-- the bytes of the array behind a variable that its slice can be extended to -/
def behind (s : Vars) (v : Var) : Bytes :=
  (((s.arrays[(s.get v).arr]?).getD []).drop ((s.get v).off + (s.get v).len)).take ((s.get v).cap - (s.get v).len)

/-- **C107** A slice of a variable may reach beyond its length, into the bytes behind it, and panics exactly if it reaches
beyond these or if its bounds are in the wrong order. -/
theorem C107_reslice (as : List VarAct) (s : Vars) (h : Vars.init.run as = some s) (v w : Var) (lo hi : Nat) :
    (s.step (.slice v w lo hi)).map (·.bytes v) =
      if lo ≤ hi ∧ hi ≤ (s.bytes w ++ behind s w).length then some (((s.bytes w ++ behind s w).take hi).drop lo) else none := by
  obtain ⟨h1, x, h2, h3⟩ := Vars.valid_init.run h w
  have e : s.bytes w ++ behind s w = (x.drop (s.get w).off).take (s.get w).cap := by
    simp only [Vars.bytes, behind, h2, Option.getD_some]
    rw [← List.drop_drop, ← List.take_add]
    congr 1
    omega
  have l : (s.bytes w ++ behind s w).length = (s.get w).cap := by
    rw [e, List.length_take, List.length_drop]
    omega
  rw [l]
  simp only [Vars.step]
  split
  · rename_i hh
    simp only [Option.map_some, Vars.bytes, get_set, if_true, arrays_set, h2, Option.getD_some]
    have e' := e
    simp only [Vars.bytes, h2, Option.getD_some] at e'
    rw [e', List.take_take, List.drop_take, List.drop_drop, Nat.min_eq_left hh.2]
  · rfl

/-- the eyecatcher that was cut comes back when the slice is extended, but not beyond its array -/
example : (Vars.init.run [.slice .smcd .smcd 0 2, .slice .smcd .smcd 1 4]).map (·.bytes .smcd) = some (hex! "d4c3c4") ∧
    Vars.init.run [.slice .smcd .smcd 0 2, .slice .smcd .smcd 1 5] = none ∧
    Vars.init.run [.slice .smcd .smcd 2 1] = none := by decide +kernel

/-- a part of `SMCREyecatcher` that begins at its third byte: the index counts from there, and the
last byte is out of range for it -/
example : (Vars.init.run [.slice .option .smcr 2 3, .poke .option 0 7]).map (·.bytes .smcr) = some (hex! "e2d407d9") ∧
    Vars.init.run [.slice .option .smcr 2 3, .poke .option 1 7] = none := by decide +kernel

/-- an option of its own, changed byte by byte and appended to; the messages are recognised, but the
usual option is not -/
example : ∃ s, Vars.init.run [.fresh .option (hex! "e2d4c3"), .append .option [0xC5] 4, .poke .option 0 1, .slice .option .option 0 8] = some s ∧
    s.bytes .option = hex! "01d4c3c500000000" ∧ s.bytes .smcr = SMCREyecatcher ∧
    s.checkSMCOption [⟨254, 6, SMCREyecatcher⟩] = false ∧ s.newMessage ⟨hex! "e2d4c3d904001c10", []⟩ = .ret [] (some (.decline {}), 28) :=
  ⟨_, rfl, by decide +kernel, by decide +kernel, by decide +kernel, by decide +kernel⟩

/-- an SMC-D eyecatcher cut and filled up again in place -/
example : ∃ s, Vars.init.run [.slice .smcd .smcd 0 3, .append .smcd [0xC5] 0] = some s ∧ s.bytes .smcd = hex! "e2d4c3c5" ∧
    s.hasEyecatcher ⟨SMCDEyecatcher, []⟩ = .ret [] false ∧ s.hasEyecatcher ⟨SMCREyecatcher, []⟩ = .ret [] true :=
  ⟨_, rfl, by decide +kernel, by decide +kernel, by decide +kernel⟩

end SMC.Props
