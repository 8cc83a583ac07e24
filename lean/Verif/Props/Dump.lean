import Verif.Spec.Dump
import Verif.LLC
import Verif.RoCE
import Verif.CLC.Message
import Verif.Lemmas.Wire
/-!
# C16: hex dumps lose nothing
-/

namespace SMC.Props

open SMC Spec

theorem lines_sep {x : Bytes} (h : 10 ∉ x) (r : Bytes) : lines (x ++ 10 :: r) = x :: lines r := by
  induction x with
  | nil => simp [lines]
  | cons c x ih =>
    simp only [List.mem_cons, not_or] at h
    simp [lines, ih h.2, Ne.symm h.1]

/-- a hex digit as written by the library is no blank, bar or line feed, and has its value -/
theorem digit_props : ∀ n, n < 16 → digit n ≠ 32 ∧ digit n ≠ 124 ∧ digit n ≠ 10 ∧ hexVal (digit n) = n := by decide

theorem unhex_flatMap (bs : Bytes) : unhex (bs.flatMap hex2) = bs := by
  induction bs with
  | nil => rfl
  | cons b bs ih =>
    have hb := b.toNat_lt
    have h1 := (digit_props (b.toNat / 16) (by omega)).2.2.2
    have h2 := (digit_props (b.toNat % 16) (by omega)).2.2.2
    simp only [List.flatMap_cons, hex2, List.cons_append, List.nil_append, unhex, h1, h2, ih]
    rw [show 16 * (b.toNat / 16) + b.toNat % 16 = b.toNat by omega, UInt8.ofNat_toNat]

theorem cols_read (k used : Nat) (bs r : Bytes) (hk : used + k = 15) (hb : bs.length ≤ k + 1) :
    ((dumpCols (k + 1) used bs ++ r).takeWhile (· != 124)).filter (· != 32) = bs.flatMap hex2 := by
  induction k generalizing used bs with
  | zero =>
    have hu : used = 15 := by omega
    subst hu
    match bs, hb with
    | [], _ => rfl
    | [b], _ =>
      have h := b.toNat_lt
      have h1 := digit_props (b.toNat / 16) (by omega)
      have h2 := digit_props (b.toNat % 16) (by omega)
      simp [dumpCols, dumpCell, hex2, h1, h2]
  | succ k ih =>
    have hu : used ≠ 15 := by omega
    cases bs with
    | nil =>
      have := ih (used + 1) [] (by omega) (by simp)
      rw [dumpCols]
      simp only [dumpCell, hu, if_false, List.append_assoc]
      split <;> simpa using this
    | cons b bs =>
      have h := b.toNat_lt
      have h1 := digit_props (b.toNat / 16) (by omega)
      have h2 := digit_props (b.toNat % 16) (by omega)
      have := ih (used + 1) bs (by omega) (by simpa using hb)
      rw [dumpCols]
      simp only [dumpCell, hu, if_false, List.append_assoc]
      split <;> simp [hex2, h1, h2, this]

theorem cols_no_lf (k used : Nat) (bs : Bytes) : 10 ∉ dumpCols k used bs := by
  induction k generalizing used bs with
  | zero => simp [dumpCols]
  | succ k ih =>
    cases bs with
    | nil =>
      simp only [dumpCols, dumpCell, List.mem_append, not_or]
      exact ⟨⟨by decide, by split <;> (try split) <;> decide⟩, ih _ _⟩
    | cons b bs =>
      have h := b.toNat_lt
      have h1 := (digit_props (b.toNat / 16) (by omega)).2.2.1
      have h2 := (digit_props (b.toNat % 16) (by omega)).2.2.1
      simp only [dumpCols, dumpCell, List.mem_append, not_or]
      exact ⟨⟨by simp [hex2, Ne.symm h1, Ne.symm h2], by split <;> (try split) <;> decide⟩, ih _ _⟩

/-- a line of the dump is read back, and the reader goes on after it -/
theorem line_read (n : Nat) (bs r : Bytes) (hb : bs.length ≤ 16) :
    undump (dumpLine n bs ++ r) = bs ++ undump r := by
  have no : (10 : UInt8) ∉ offset8 n ++ go! "  " ++ dumpCols 16 0 bs ++ bs.map toChar ++ go! "|" := by
    simp only [List.mem_append, not_or]
    refine ⟨⟨⟨⟨?_, by decide⟩, cols_no_lf _ _ _⟩, ?_⟩, by decide⟩
    · intro hc
      simp only [offset8, List.mem_cons, List.not_mem_nil, or_false] at hc
      rcases hc with h | h | h | h | h | h | h | h <;>
        exact (digit_props _ (Nat.mod_lt _ (by omega))).2.2.1 h.symm
    · intro hc
      obtain ⟨b, _, hb⟩ := List.mem_map.1 hc
      revert hb
      have : ∀ b : UInt8, toChar b ≠ 10 := by byte_decide
      exact this b
  have split : dumpLine n bs ++ r
      = (offset8 n ++ go! "  " ++ dumpCols 16 0 bs ++ bs.map toChar ++ go! "|") ++ 10 :: r := by
    simp [dumpLine]
  rw [undump, split, lines_sep no, List.flatMap_cons]
  congr 1
  unfold undumpLine
  have : (offset8 n ++ go! "  " ++ dumpCols 16 0 bs ++ bs.map toChar ++ go! "|").drop 10
      = dumpCols 16 0 bs ++ (bs.map toChar ++ go! "|") := by
    simp [offset8]
  rw [this, cols_read 15 0 bs _ rfl hb, unhex_flatMap]

/-- C16: reading a dump gives the bytes back. -/
theorem C16_undump_hexDump (bs : Bytes) : undump (hexDump bs) = bs := by
  suffices h : ∀ fuel n bs, bs.length ≤ fuel → undump (dumpFrom fuel n bs) = bs from h _ _ _ (Nat.le_refl _)
  intro fuel
  induction fuel with
  | zero =>
    intro n bs h
    rw [List.length_eq_zero_iff.1 (Nat.le_zero.1 h)]
    rfl
  | succ fuel ih =>
    intro n bs h
    cases bs with
    | nil => rfl
    | cons b bs =>
      rw [dumpFrom, line_read _ _ _ (by simp; omega), ih _ _ (by simp at h ⊢; omega), List.take_append_drop]
      exact fun h => nomatch h

/-- C16 for LLC and CDC messages: equal dumps, equal raw bytes. -/
theorem C16_llc_hex (m m' : LLC.Msg) (h : m.hex = m'.hex) : m.base.Raw = m'.base.Raw := by
  have key : ∀ m : LLC.Msg, undump m.hex = m.base.Raw := by
    intro m; cases m <;> exact C16_undump_hexDump _
  rw [← key m, ← key m', h]

/-- C16 for BTH and GRH. -/
theorem C16_roce_hex (b b' : RoCE.BTH) (g g' : RoCE.GRH) :
    (b.hex = b'.hex → b.Raw = b'.Raw) ∧ (g.hex = g'.hex → g.Contents = g'.Contents) := by
  refine ⟨fun h => ?_, fun h => ?_⟩
  · rw [← C16_undump_hexDump b.Raw, ← C16_undump_hexDump b'.Raw]; exact congrArg undump h
  · rw [← C16_undump_hexDump g.Contents, ← C16_undump_hexDump g'.Contents]; exact congrArg undump h

/-- C16 for CLC messages. -/
theorem C16_clc_dump (m m' : CLC.Message) (h : m.dump = m'.dump) : m.raw.vis = m'.raw.vis := by
  have key : ∀ m : CLC.Message, undump m.dump = m.raw.vis := by
    intro m; exact C16_undump_hexDump _
  rw [← key m, ← key m', h]

/-- a dump of two lines with a bar in the text column -/
example : hexDump (go! "0123456789abcdef|x\n") =
      go! "00000000  30 31 32 33 34 35 36 37  38 39 61 62 63 64 65 66  |0123456789abcdef|\n" ++
      go! "00000010  7c 78 0a                                          ||x.|\n" ∧
    undump (hexDump (go! "0123456789abcdef|x\n")) = go! "0123456789abcdef|x\n" :=
  ⟨by rfl, C16_undump_hexDump _⟩

end SMC.Props
