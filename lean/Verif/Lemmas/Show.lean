import Verif.Spec.Show
import Verif.Lemmas.Text
import Verif.Lemmas.Wire
/-!
# The printing functions of the model print as specified
-/

namespace SMC

open Spec

theorem digitChar_eq : ∀ n, n < 16 → UInt8.ofNat (Nat.digitChar n).toNat = digit n := by decide

theorem digitsAux_numeral (base : Nat) (hb : 2 ≤ base) (hb' : base ≤ 16) (fuel n : Nat) (h : n < base ^ (fuel + 1)) :
    digitsAux fuel base n = numeral base n := by
  induction fuel generalizing n with
  | zero =>
    simp only [Nat.zero_add, Nat.pow_one] at h
    rw [digitsAux, numeral, Nat.toDigits_of_lt_base h]
    simp only [List.map_cons, List.map_nil]
    rw [digitChar_eq n (by omega)]
  | succ fuel ih =>
    rw [digitsAux, numeral, Nat.toDigits_eq_if (by omega)]
    split
    · simp only [List.map_cons, List.map_nil]
      rw [digitChar_eq n (by omega)]
    · rw [ih (n / base) (Nat.div_lt_of_lt_mul (by rwa [Nat.pow_succ, Nat.mul_comm] at h))]
      have := Nat.mod_lt n (show base > 0 by omega)
      simp only [numeral, List.map_append, List.map_cons, List.map_nil]
      rw [digitChar_eq (n % base) (by omega)]

theorem digits_numeral (base n : Nat) (hb : 2 ≤ base) (hb' : base ≤ 16) : digits base n = numeral base n :=
  digitsAux_numeral base hb hb' n n (lt_pow_succ base n hb)

theorem decimal_eq (n : Nat) : decimal n = dec n := (digits_numeral 10 n (by decide) (by decide)).symm
theorem hexadecimal_eq (n : Nat) : hexadecimal n = hexInt n := by
  rw [hexadecimal, hexInt, digits_numeral 16 n (by decide) (by decide)]
theorem binary_eq (n : Nat) : binary n = binInt n := by
  rw [binary, binInt, digits_numeral 2 n (by decide) (by decide)]
theorem truth_eq (b : Bool) : truth b = boolStr b := rfl

theorem octet_eq : ∀ b : UInt8, octet b = hex2 b := by
  have h : ∀ n, n < 256 → octet (UInt8.ofNat n) = hex2 (UInt8.ofNat n) := by decide +kernel
  intro b
  have := h b.toNat b.toNat_lt
  rwa [UInt8.ofNat_toNat] at this

theorem octets_eq (bs : Bytes) : octets bs = hexBytes bs := by
  unfold octets hexBytes
  cases bs with
  | nil => rfl
  | cons b bs =>
    have : octet = hex2 := funext octet_eq
    simp [List.flatMap, this]

theorem intercalate_eq (sep : Bytes) (l : List Bytes) : sep.intercalate l = joinSep sep l := by
  induction l with
  | nil => rfl
  | cons x l ih =>
    cases l with
    | nil => simp [List.intercalate, joinSep]
    | cons y r =>
      rw [joinSep, ← ih]
      simp [List.intercalate]

theorem hardware_eq (bs : Bytes) : hardware bs = macStr bs := by
  rw [hardware, intercalate_eq, macStr]
  congr 1
  exact List.map_congr_left fun b _ => octet_eq b

theorem dotted_eq (bs : Bytes) : dotted bs = ip4Str bs := by
  rw [dotted, intercalate_eq, ip4Str]
  congr 1
  exact List.map_congr_left fun b _ => decimal_eq _

/-! ## IPv6 -/

/-- `zeroRun` of the groups that are zero -/
def zeroRunB : List Bool → Nat
  | true :: r => zeroRunB r + 1
  | _ => 0

/-- `bestRun` of the groups that are zero -/
def bestRunB : Nat → List Bool → Nat × Nat → Nat × Nat
  | _, [], best => best
  | i, g :: gs, best =>
    let l := zeroRunB (g :: gs)
    bestRunB (i + 1) gs (if l ≥ 2 ∧ l > best.2 then (i, l) else best)

theorem zeroRun_bool (gs : List Nat) : zeroRun gs = zeroRunB (gs.map (· == 0)) := by
  induction gs with
  | nil => rfl
  | cons g gs ih =>
    cases g with
    | zero => simp [zeroRun, zeroRunB, ih]
    | succ n => simp [zeroRun, zeroRunB]

theorem bestRun_bool (gs : List Nat) (i : Nat) (best : Nat × Nat) :
    bestRun i gs best = bestRunB i (gs.map (· == 0)) best := by
  induction gs generalizing i best with
  | nil => rfl
  | cons g gs ih =>
    simp only [bestRun, List.map_cons, bestRunB]
    rw [ih, zeroRun_bool]
    rfl

/-- `shortened` of the groups that are zero -/
def shortenedB (gs : List Bool) : Option (Nat × Nat) :=
  [8, 7, 6, 5, 4, 3, 2].findSome? fun n =>
    ((List.range (9 - n)).find? fun i => (gs.drop i).take n == List.replicate n true).map fun i => (i, n)

theorem beq_replicate (l : List Nat) (n : Nat) :
    (l == List.replicate n 0) = (l.map (· == 0) == List.replicate n true) := by
  induction l generalizing n with
  | nil => cases n <;> simp [List.replicate]
  | cons x l ih =>
    cases n with
    | zero => rfl
    | succ n =>
      simp only [List.replicate_succ, List.map_cons, List.cons_beq_cons, ih]
      cases x <;> simp

theorem shortened_bool (gs : List Nat) : shortened gs = shortenedB (gs.map (· == 0)) := by
  simp only [shortened, shortenedB, beq_replicate, List.map_take, List.map_drop]

theorem best_eq : ∀ a b c d e f g h : Bool,
    bestRunB 0 [a, b, c, d, e, f, g, h] (0, 0) = (shortenedB [a, b, c, d, e, f, g, h]).getD (0, 0) ∧
    ∀ r, shortenedB [a, b, c, d, e, f, g, h] = some r → r.2 ≠ 0 := by
  intro a b c d e f g h
  refine ⟨?_, ?_⟩
  · revert a b c d e f g h; decide +kernel
  · intro r hr
    have : ∀ a b c d e f g h : Bool, ((shortenedB [a, b, c, d, e, f, g, h]).map fun r => decide (r.2 ≠ 0)).getD true = true := by
      decide +kernel
    have := this a b c d e f g h
    rw [hr] at this
    simpa using this

theorem bestRun_shortened (gs : List Nat) (h : gs.length = 8) :
    bestRun 0 gs (0, 0) = (shortened gs).getD (0, 0) ∧ ∀ r, shortened gs = some r → r.2 ≠ 0 := by
  match gs, h with
  | [a, b, c, d, e, f, g, i], _ =>
    rw [bestRun_bool, shortened_bool]
    exact best_eq _ _ _ _ _ _ _ _

theorem ip6Str_shortened (gs : List Nat) (h : gs.length = 8) :
    ip6Str gs = match shortened gs with
    | none => (go! ":").intercalate (gs.map (numeral 16))
    | some (i, n) => (go! ":").intercalate ((gs.map (numeral 16)).take i) ++ go! "::"
        ++ (go! ":").intercalate ((gs.map (numeral 16)).drop (i + n)) := by
  obtain ⟨h1, h2⟩ := bestRun_shortened gs h
  have hm : gs.map (digits 16) = gs.map (numeral 16) :=
    List.map_congr_left fun n _ => digits_numeral 16 n (by decide) (by decide)
  unfold ip6Str
  rw [h1, hm]
  cases hs : shortened gs with
  | none => simp [intercalate_eq]
  | some r =>
    have := h2 r hs
    obtain ⟨i, n⟩ := r
    simp only [Option.getD_some, intercalate_eq]
    rw [if_neg (by exact this)]

theorem groups_groups8 (bs : Bytes) (h : bs.length = 16) : groups bs = groups8 bs := by
  have e : ∀ i, i < 8 → num bs (2 * i) 0 16 = (bs[2 * i]?.getD 0).toNat * 256 + (bs[2 * i + 1]?.getD 0).toNat := by
    intro i hi
    rw [num_16 bs (2 * i) (by omega)]
    simp [List.getElem?_eq_getElem (show 2 * i < bs.length by omega), List.getElem?_eq_getElem (show 2 * i + 1 < bs.length by omega)]
  have r8 : List.range 8 = [0, 1, 2, 3, 4, 5, 6, 7] := rfl
  simp only [groups8, r8, List.map_cons, List.map_nil]
  rw [e 0 (by omega), e 1 (by omega), e 2 (by omega), e 3 (by omega), e 4 (by omega), e 5 (by omega), e 6 (by omega),
    e 7 (by omega)]
  match bs, h with
  | [_, _, _, _, _, _, _, _, _, _, _, _, _, _, _, _], _ => rfl

theorem address_eq (bs : Bytes) (h : bs.length = 4 ∨ bs.length = 16) : address bs = ipStr bs := by
  have hne : bs ≠ [] := by rintro rfl; simp at h
  rcases h with h | h
  · simp only [address, ipStr, to4, hne, h, if_true, if_false, ne_eq, not_true_eq_false, false_and, dotted_eq]
  · have hm : (bs.take 12 = [0, 0, 0, 0, 0, 0, 0, 0, 0, 0, 255, 255]) ↔
        (bs.take 10 = zeros 10 ∧ (bs.drop 10).take 2 = [255, 255]) := by
      match bs, h with
      | [_, _, _, _, _, _, _, _, _, _, _, _, _, _, _, _], _ => simp [zeros, List.replicate, and_assoc]
    by_cases hc : bs.take 12 = [0, 0, 0, 0, 0, 0, 0, 0, 0, 0, 255, 255]
    · have hd := hm.1 hc
      simp only [address, ipStr, to4, hne, Nat.reduceEqDiff, h, hc, hd, if_true, if_false, ne_eq, not_true_eq_false, and_false, and_self,
        dotted_eq]
    · have hd : ¬ (bs.take 10 = zeros 10 ∧ (bs.drop 10).take 2 = [255, 255]) := fun hx => hc (hm.2 hx)
      simp only [address, ipStr, to4, hne, Nat.reduceEqDiff, h, hc, hd, if_false, ne_eq, not_true_eq_false, and_false]
      rw [groups_groups8 bs h, ip6Str_shortened _ (by simp [groups8])]
      cases shortened (groups8 bs) <;> rfl

theorem row_nil : row [] = [] := rfl
theorem row_one (i : Item) : row [i] = i.text := by simp [row, List.intercalate]
theorem row_cons (i j : Item) (is : List Item) : row (i :: j :: is) = i.text ++ (go! ", " ++ row (j :: is)) := by
  simp [row, List.intercalate]

end SMC
