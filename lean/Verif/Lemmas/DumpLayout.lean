import Verif.Spec.DumpLayout
import Verif.Dumper
import Verif.Lemmas.Wire
import Lean.Elab.Tactic
/-!
# Rows of a hex dump
-/

namespace SMC

open Spec

theorem digit_hexChar : ∀ n, n < 16 → digit n = hexChar n := by decide

theorem toChar_printable : ∀ b : UInt8, toChar b = printable b := by byte_decide

/-- `dumpCols` with the characters of the specification -/
def cols' : Nat → Nat → Bytes → Bytes
  | 0, _, _ => []
  | k + 1, used, [] => dumpCell used (go! "  ") ++ cols' k (used + 1) []
  | k + 1, used, b :: bs =>
    dumpCell used [hexChar (b.toNat / 16), hexChar (b.toNat % 16)] ++ cols' k (used + 1) bs

theorem cols'_eq (k used : Nat) (bs : Bytes) : dumpCols k used bs = cols' k used bs := by
  induction k generalizing used bs with
  | zero => rfl
  | succ k ih =>
    cases bs with
    | nil => rw [dumpCols, cols', ih]
    | cons b bs =>
      have hb := b.toNat_lt
      rw [dumpCols, cols', ih, hex2, digit_hexChar _ (by omega), digit_hexChar _ (by omega)]

/-- `dumpLine` with the characters of the specification -/
def line' (n : Nat) (bs : Bytes) : Bytes :=
  [hexChar (n / 16 ^ 7 % 16), hexChar (n / 16 ^ 6 % 16), hexChar (n / 16 ^ 5 % 16), hexChar (n / 16 ^ 4 % 16),
   hexChar (n / 16 ^ 3 % 16), hexChar (n / 16 ^ 2 % 16), hexChar (n / 16 ^ 1 % 16), hexChar (n / 16 ^ 0 % 16)] ++
    go! "  " ++ cols' 16 0 bs ++ bs.map printable ++ go! "|\n"

theorem line'_eq (n : Nat) (bs : Bytes) : dumpLine n bs = line' n bs := by
  unfold dumpLine line' offset8
  rw [cols'_eq]
  simp only [digit_hexChar _ (Nat.mod_lt _ (by omega : 16 > 0)), Nat.pow_one, Nat.pow_zero, Nat.div_one]
  rw [show toChar = printable from funext toChar_printable]

/-- the row of the specification for given bytes -/
def rowOf (r : Bytes) (i : Nat) : Bytes :=
  (List.range (62 + r.length)).map (fun col =>
    if col < 8 then hexChar (16 * i / 16 ^ (7 - col) % 16)
    else if col < 60 then
      match (List.range r.length).find? fun j => col = digitCol j ∨ col = digitCol j + 1 with
      | some j => hexChar (if col = digitCol j then (r.getD j 0).toNat / 16 else (r.getD j 0).toNat % 16)
      | none => 32
    else if col = 60 then 124
    else if col = 61 + r.length then 124
    else printable (r.getD (col - 61) 0)) ++ [10]

open Lean Elab Tactic Meta in
/-- closes `a = b` by reflexivity; only the kernel compares the two sides -/
elab "kernel_rfl" : tactic => do
  let g ← getMainGoal
  let some (_, a, _) := (← instantiateMVars (← g.getType)).eq? | throwError "not an equation"
  g.assign (← mkEqRefl a)
  replaceMainGoal []

theorem line'_row (i : Nat) (r : Bytes) (h : r.length ≤ 16) : line' (16 * i) r = rowOf r i := by
  rcases r with _ | ⟨a0, _ | ⟨a1, _ | ⟨a2, _ | ⟨a3, _ | ⟨a4, _ | ⟨a5, _ | ⟨a6, _ | ⟨a7, _ | ⟨a8, _ | ⟨a9, _ | ⟨a10, _ | ⟨a11, _ | ⟨a12, _ | ⟨a13, _ | ⟨a14, _ | ⟨a15, t⟩⟩⟩⟩⟩⟩⟩⟩⟩⟩⟩⟩⟩⟩⟩⟩
  case cons.cons.cons.cons.cons.cons.cons.cons.cons.cons.cons.cons.cons.cons.cons.cons =>
    simp only [List.length_cons] at h
    obtain rfl : t = [] := List.length_eq_zero_iff.1 (by omega)
    kernel_rfl
  all_goals kernel_rfl

theorem rowOf_eq (bs : Bytes) (i : Nat) : rowOf (rowBytes bs i) i = dumpRow bs i := rfl

theorem dumpLine_row (bs : Bytes) (i : Nat) : dumpLine (16 * i) (rowBytes bs i) = dumpRow bs i := by
  rw [line'_eq, line'_row i _ (by unfold rowBytes; simp; omega), rowOf_eq]

theorem dumpFrom_rows (bs : Bytes) (fuel i : Nat) (h : bs.length - 16 * i ≤ fuel) :
    dumpFrom fuel (16 * i) (bs.drop (16 * i)) =
      (List.range' i ((bs.length + 15) / 16 - i)).flatMap (dumpRow bs) := by
  induction fuel generalizing i with
  | zero =>
    rw [show (bs.length + 15) / 16 - i = 0 by omega]
    rfl
  | succ fuel ih =>
    by_cases hi : bs.length ≤ 16 * i
    · rw [show (bs.length + 15) / 16 - i = 0 by omega, List.drop_eq_nil_of_le hi]
      rfl
    · rw [show (bs.length + 15) / 16 - i = ((bs.length + 15) / 16 - (i + 1)) + 1 by omega, List.range'_succ,
        List.flatMap_cons, ← ih (i + 1) (by omega), ← dumpLine_row, dumpFrom, List.drop_drop]
      · rfl
      · intro hc
        have := List.drop_eq_nil_iff.1 hc
        omega

theorem hexDump_rows (bs : Bytes) : hexDump bs = dumpRows bs := by
  have := dumpFrom_rows bs bs.length 0 (by omega)
  rw [show 16 * 0 = 0 from rfl, List.drop_zero] at this
  rw [hexDump, this, dumpRows, Nat.sub_zero, List.range_eq_range']

/-! ## The dumper of the library -/

theorem encode_one : ∀ b : UInt8, Dumper.encode [b] = hex2 b := by byte_decide

theorem encode_cons (b : UInt8) (bs : Bytes) : Dumper.encode (b :: bs) = hex2 b ++ Dumper.encode bs := by
  rw [← encode_one]; rfl

theorem encode_offset (n : Nat) :
    Dumper.encode [UInt8.ofNat (n >>> 24), UInt8.ofNat (n >>> 16), UInt8.ofNat (n >>> 8), UInt8.ofNat n] = offset8 n := by
  rw [encode_cons, encode_cons, encode_cons, encode_one]
  simp only [hex2, List.cons_append, List.nil_append, offset8, UInt8.toNat_ofNat', Nat.shiftRight_eq_div_pow,
    List.cons.injEq, and_true]
  refine ⟨?_, ?_, ?_, ?_, ?_, ?_, ?_, ?_⟩ <;> exact congrArg digit (by omega)

/-- the columns of given bytes, from column `u` on -/
def cells (u : Nat) : Bytes → Bytes
  | [] => []
  | b :: bs => dumpCell u (hex2 b) ++ cells (u + 1) bs

/-- the empty columns from `u` on, `k` of them -/
def blanks (u : Nat) : Nat → Bytes
  | 0 => []
  | k + 1 => dumpCell u (go! "  ") ++ blanks (u + 1) k

theorem cols_cells (bs : Bytes) (k u : Nat) (h : bs.length ≤ k) :
    dumpCols k u bs = cells u bs ++ blanks (u + bs.length) (k - bs.length) := by
  induction bs generalizing k u with
  | nil =>
    simp only [cells, List.length_nil, Nat.add_zero, Nat.sub_zero, List.nil_append]
    clear h
    induction k generalizing u with
    | zero => rfl
    | succ k ih => rw [dumpCols, blanks, ih]
  | cons b bs ih =>
    obtain ⟨k, rfl⟩ : ∃ j, k = j + 1 := ⟨k - 1, by simp at h; omega⟩
    rw [dumpCols, cells, ih k (u + 1) (by simpa using h), List.append_assoc]
    simp only [List.length_cons]
    rw [show u + 1 + bs.length = u + (bs.length + 1) by omega, show k + 1 - (bs.length + 1) = k - bs.length by omega]

theorem cells_append (u : Nat) (bs cs : Bytes) : cells u (bs ++ cs) = cells u bs ++ cells (u + bs.length) cs := by
  induction bs generalizing u with
  | nil => rfl
  | cons b bs ih =>
    rw [List.cons_append, cells, cells, ih, List.append_assoc, List.length_cons,
      show u + 1 + bs.length = u + (bs.length + 1) by omega]

/-- what is in front of the columns -/
def lead (u n : Nat) : Bytes := if u = 0 then offset8 n ++ [32, 32] else []

theorem dumpCell_hex (u : Nat) (b : UInt8) :
    (if u = 7 then Dumper.encode [b] ++ [32] ++ [32] else if u = 15 then Dumper.encode [b] ++ [32] ++ [32, 124]
      else Dumper.encode [b] ++ [32]) = dumpCell u (hex2 b) := by
  rw [encode_one]
  unfold dumpCell
  split
  · simp
  · split <;> simp

theorem take_set (l : Bytes) (i : Nat) (c : UInt8) (h : i < l.length) : (l.set i c).take (i + 1) = l.take i ++ [c] := by
  rw [List.take_add_one, List.getElem?_set_self h, Option.toList_some, List.take_set_of_le (Nat.le_refl _)]

/-- one byte in the middle of a line -/
theorem writeByte_mid (h : Dumper) (b : UInt8) (hu : h.used < 15) :
    h.writeByte b = ⟨h.w ++ (lead h.used h.n ++ dumpCell h.used (hex2 b)),
      h.rightChars.set h.used (toChar b), h.used + 1, h.n + 1⟩ := by
  unfold Dumper.writeByte lead
  by_cases h0 : h.used = 0
  · simp only [h0, if_true, encode_offset, ← dumpCell_hex, List.append_assoc]
    simp
  · simp only [h0, if_false]
    rw [if_neg (by omega)]
    simp only [dumpCell_hex, List.nil_append]

/-- the last byte of a line -/
theorem writeByte_last (h : Dumper) (b : UInt8) (hu : h.used = 15) (hr : h.rightChars.length = 18) :
    ∃ r, r.length = 18 ∧ h.writeByte b =
      ⟨h.w ++ (dumpCell 15 (hex2 b) ++ (h.rightChars.take 15 ++ [toChar b, 124, 10])), r, 0, h.n + 1⟩ := by
  refine ⟨((h.rightChars.set 15 (toChar b)).set 16 124).set 17 10, by simp [hr], ?_⟩
  unfold Dumper.writeByte
  have e : ((h.rightChars.set 15 (toChar b)).set 16 124).set 17 10 = h.rightChars.take 15 ++ [toChar b, 124, 10] := by
    obtain ⟨l, a, b, c, hl⟩ : ∃ l a b c, h.rightChars = l ++ [a, b, c] ∧ l.length = 15 := by
      refine ⟨h.rightChars.take 15, h.rightChars[15], h.rightChars[16], h.rightChars[17], ?_, by simp [hr]⟩
      apply List.ext_getElem (by simp [hr])
      intro i h1 h2
      by_cases hi : i < 15
      · rw [List.getElem_append_left (by simp [hr]; omega), List.getElem_take]
      · rw [List.getElem_append_right (by simp [hr]; omega)]
        have : i = 15 ∨ i = 16 ∨ i = 17 := by omega
        rcases this with rfl | rfl | rfl <;> simp [hr]
    rw [hl.1]
    simp [List.set_append_right, hl.2]
  obtain ⟨w, rc, u, n⟩ := h
  simp only at hu e hr
  subst hu
  simp only [show (15 = 0) = False by simp, show (15 = 7) = False by simp, if_false, if_true, Nat.reduceAdd, e,
    List.append_assoc, encode_one]
  rfl

/-- bytes that do not fill a line -/
theorem write_mid (bs : Bytes) (h : Dumper) (hu : h.used + bs.length ≤ 15) (hr : h.rightChars.length = 18) :
    ∃ r, r.length = 18 ∧ r.take (h.used + bs.length) = h.rightChars.take h.used ++ bs.map toChar ∧
      h.write bs = ⟨h.w ++ ((if bs = [] then [] else lead h.used h.n) ++ cells h.used bs), r,
        h.used + bs.length, h.n + bs.length⟩ := by
  induction bs generalizing h with
  | nil => exact ⟨h.rightChars, hr, by simp, by simp [Dumper.write, cells]⟩
  | cons b bs ih =>
    simp only [List.length_cons] at hu
    have e := writeByte_mid h b (by omega)
    obtain ⟨r, r1, r2, r3⟩ := ih (h.writeByte b) (by rw [e]; simp only; omega) (by rw [e]; simpa using hr)
    refine ⟨r, r1, ?_, ?_⟩
    · rw [e] at r2
      simp only [take_set _ _ _ (show h.used < h.rightChars.length by omega)] at r2
      rw [List.length_cons, show h.used + (bs.length + 1) = h.used + 1 + bs.length by omega, r2]
      simp
    · rw [show h.write (b :: bs) = (h.writeByte b).write bs from rfl, r3, e]
      have : lead (h.used + 1) (h.n + 1) = [] := rfl
      simp only [this, ite_self, List.nil_append, cells, reduceCtorEq, if_false, List.append_assoc, List.length_cons]
      congr 1 <;> omega

/-- sixteen bytes are a line -/
theorem write_line (r : Bytes) (h : Dumper) (hl : r.length = 16) (hu : h.used = 0) (hr : h.rightChars.length = 18) :
    ∃ c, c.length = 18 ∧ h.write r = ⟨h.w ++ dumpLine h.n r, c, 0, h.n + 16⟩ := by
  obtain ⟨bs, b, rfl⟩ : ∃ bs b, r = bs ++ [b] := by
    refine ⟨r.take 15, r[15], ?_⟩
    rw [List.take_append_getElem, List.take_of_length_le (by omega)]
  have hb : bs.length = 15 := by simpa using hl
  obtain ⟨r, r1, r2, r3⟩ := write_mid bs h (by omega) hr
  obtain ⟨c, c1, c2⟩ := writeByte_last (h.write bs) b (by rw [r3]; simp only; omega) (by rw [r3]; exact r1)
  refine ⟨c, c1, ?_⟩
  rw [show h.write (bs ++ [b]) = (h.write bs).writeByte b from List.foldl_append .., c2, r3]
  rw [hu, hb] at r2
  have hne : bs ≠ [] := by intro hc; rw [hc] at hb; cases hb
  simp only [hne, if_false, hu, hb, lead, if_true, dumpLine, cols_cells _ 16 0 (Nat.le_of_eq hl), cells_append, hl,
    List.append_assoc, List.append_nil, Nat.zero_add, cells, List.map_append, List.map_cons, List.map_nil]
  rw [r2]
  simp
  rfl

theorem pad_eq (k : Nat) (h : Dumper) (hu : h.used ≤ 16) (hk : 16 - h.used ≤ k) :
    Dumper.pad k h = ⟨h.w ++ blanks h.used (16 - h.used), h.rightChars, 16, h.n⟩ := by
  induction k generalizing h with
  | zero =>
    obtain ⟨w, r, u, n⟩ := h
    obtain rfl : u = 16 := by simp only at *; omega
    simp [Dumper.pad, blanks]
  | succ k ih =>
    obtain ⟨w, r, u, n⟩ := h
    simp only at *
    unfold Dumper.pad
    by_cases h16 : u = 16
    · subst h16; simp [blanks]
    · simp only [show u < 16 by omega, if_true]
      rw [ih _ (by simp only; omega) (by simp only; omega)]
      simp only
      rw [show 16 - u = (16 - (u + 1)) + 1 by omega, blanks, List.append_assoc]
      congr 2
      unfold dumpCell
      split
      · rfl
      · split <;> rfl

/-- closing the dumper completes the line -/
theorem close_line (r : Bytes) (h : Dumper) (hl : r.length < 16) (hu : h.used = 0) (hr : h.rightChars.length = 18) :
    (h.write r).close.w = h.w ++ (if r = [] then [] else dumpLine h.n r) := by
  obtain ⟨c, c1, c2, c3⟩ := write_mid r h (by omega) hr
  by_cases hn : r = []
  · subst hn
    simp [Dumper.write, Dumper.close, hu]
  · have h0 : r.length ≠ 0 := fun hc => hn (List.length_eq_zero_iff.1 hc)
    simp only [hn, if_false, hu, Nat.zero_add] at c2 c3 ⊢
    rw [c3]
    unfold Dumper.close
    simp only [h0, if_false]
    rw [pad_eq 16 _ (by simp only; omega) (by simp only; omega)]
    simp only [lead, if_true]
    have e : ((c.set r.length 124).set (r.length + 1) 10).take (r.length + 2) = r.map toChar ++ [124, 10] := by
      rw [take_set _ _ _ (by simp; omega), take_set _ _ _ (by omega), c2]
      simp
    rw [e, dumpLine, cols_cells r 16 0 (by omega)]
    simp

theorem libDump_from (fuel : Nat) (bs : Bytes) (h : Dumper) (hf : bs.length ≤ fuel) (hu : h.used = 0)
    (hr : h.rightChars.length = 18) : (h.write bs).close.w = h.w ++ dumpFrom fuel h.n bs := by
  induction fuel generalizing bs h with
  | zero =>
    obtain rfl : bs = [] := List.length_eq_zero_iff.1 (by omega)
    rw [close_line [] h (by decide) hu hr]
    rfl
  | succ fuel ih =>
    by_cases hn : bs = []
    · subst hn; rw [close_line [] h (by decide) hu hr]; rfl
    · rw [show dumpFrom (fuel + 1) h.n bs = dumpLine h.n (bs.take 16) ++ dumpFrom fuel (h.n + 16) (bs.drop 16) from by
        cases bs with
        | nil => exact absurd rfl hn
        | cons b bs => rfl]
      by_cases hl : bs.length < 16
      · rw [close_line bs h hl hu hr, if_neg hn, List.take_of_length_le (by omega), List.drop_eq_nil_of_le (by omega)]
        cases fuel <;> simp [dumpFrom]
      · obtain ⟨c, c1, c2⟩ := write_line (bs.take 16) h (by simp; omega) hu hr
        have e : h.write bs = (h.write (bs.take 16)).write (bs.drop 16) := by
          unfold Dumper.write
          rw [← List.foldl_append, List.take_append_drop]
        rw [e, c2, ih _ _ (by simp; omega) rfl c1]
        simp

/-- the dumper writes the lines -/
theorem libDump_eq (bs : Bytes) : libDump bs = hexDump bs := by
  unfold libDump hexDump
  split
  · rename_i h; rw [List.length_eq_zero_iff.1 h]; rfl
  · rw [libDump_from bs.length bs {} (Nat.le_refl _) rfl rfl]; rfl

end SMC
