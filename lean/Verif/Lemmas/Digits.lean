import Verif.Fmt
/-!
# Numbers as text
-/

namespace SMC

/-- value of a digit character -/
def digitVal (c : UInt8) : Nat := if c < 58 then c.toNat - 48 else c.toNat - 87

theorem digitVal_digit : ∀ n, n < 16 → digitVal (digit n) = n := by decide

/-- characters of decimal numbers -/
def isDec (c : UInt8) : Bool := decide (48 ≤ c ∧ c ≤ 57)
/-- characters of hexadecimal numbers -/
def isHex (c : UInt8) : Bool := isDec c || decide (97 ≤ c ∧ c ≤ 102)

theorem isDec_digit : ∀ n, n < 10 → isDec (digit n) = true := by decide
theorem isHex_digit : ∀ n, n < 16 → isHex (digit n) = true := by decide
theorem digit_bin : ∀ n, n < 2 → digit n = 48 ∨ digit n = 49 := by decide

/-- number read from digits -/
def valOf (base : Nat) (s : Bytes) : Nat := s.foldl (fun n c => n * base + digitVal c) 0

theorem valOf_snoc (base : Nat) (s : Bytes) (c : UInt8) : valOf base (s ++ [c]) = valOf base s * base + digitVal c := by
  simp [valOf]

theorem valOf_digitsAux (base : Nat) (hb : 2 ≤ base) (hb' : base ≤ 16) (fuel n : Nat) (h : n < base ^ (fuel + 1)) :
    valOf base (digitsAux fuel base n) = n := by
  induction fuel generalizing n with
  | zero =>
    simp only [Nat.zero_add, Nat.pow_one] at h
    simp [digitsAux, valOf, digitVal_digit n (by omega)]
  | succ k ih =>
    unfold digitsAux
    split
    · simp [valOf, digitVal_digit n (by omega)]
    · rw [valOf_snoc, ih _ (by rw [Nat.div_lt_iff_lt_mul (by omega)]; rwa [Nat.pow_succ] at h),
        digitVal_digit _ (by have := Nat.mod_lt n (show base > 0 by omega); omega)]
      exact Nat.div_add_mod' n base

theorem lt_pow_succ (base n : Nat) (hb : 2 ≤ base) : n < base ^ (n + 1) := by
  have h1 : n + 1 < 2 ^ (n + 1) := Nat.lt_two_pow_self
  have h2 : 2 ^ (n + 1) ≤ base ^ (n + 1) := Nat.pow_le_pow_left hb _
  omega

theorem valOf_digits (base n : Nat) (hb : 2 ≤ base) (hb' : base ≤ 16) : valOf base (digits base n) = n :=
  valOf_digitsAux base hb hb' n n (lt_pow_succ base n hb)

theorem digits_inj {base n m : Nat} (hb : 2 ≤ base) (hb' : base ≤ 16) (h : digits base n = digits base m) : n = m := by
  rw [← valOf_digits base n hb hb', h, valOf_digits base m hb hb']

theorem digitsAux_all (p : UInt8 → Bool) (base : Nat) (hb : 2 ≤ base) (hp : ∀ n, n < base → p (digit n) = true)
    (fuel n : Nat) (h : n < base ^ (fuel + 1)) : ∀ c ∈ digitsAux fuel base n, p c = true := by
  induction fuel generalizing n with
  | zero =>
    simp only [Nat.zero_add, Nat.pow_one] at h
    simpa [digitsAux] using hp n h
  | succ k ih =>
    unfold digitsAux
    split
    · simpa using hp n (by assumption)
    · intro c hc
      rcases List.mem_append.1 hc with hc | hc
      · exact ih _ (by rw [Nat.div_lt_iff_lt_mul (by omega)]; rwa [Nat.pow_succ] at h) c hc
      · simp only [List.mem_singleton] at hc
        exact hc ▸ hp _ (Nat.mod_lt _ (by omega))

theorem digits_all {p : UInt8 → Bool} {base : Nat} (hb : 2 ≤ base) (hp : ∀ n, n < base → p (digit n) = true) (n : Nat) :
    ∀ c ∈ digits base n, p c = true := digitsAux_all p base hb hp n n (lt_pow_succ base n hb)

theorem digitsAux_ne_nil (fuel base n : Nat) : digitsAux fuel base n ≠ [] := by
  cases fuel with
  | zero => simp [digitsAux]
  | succ k => unfold digitsAux; split <;> simp

theorem digits_ne_nil (base n : Nat) : digits base n ≠ [] := digitsAux_ne_nil _ _ _

theorem dec_inj {n m : Nat} (h : dec n = dec m) : n = m := digits_inj (by decide) (by decide) h
theorem dec_all (n : Nat) : ∀ c ∈ dec n, isDec c = true := digits_all (by decide) isDec_digit n

theorem not_mem_of_all {p : UInt8 → Bool} {s : Bytes} (h : ∀ c ∈ s, p c = true) {c : UInt8} (hc : p c = false) :
    c ∉ s := fun hm => by rw [h c hm] at hc; cases hc

/-- texts that end at the same separator -/
theorem append_sep {x y s t : Bytes} {c : UInt8} (hx : c ∉ x) (hy : c ∉ y) :
    x ++ c :: s = y ++ c :: t ↔ x = y ∧ s = t := by
  induction x generalizing y with
  | nil =>
    cases y with
    | nil => simp
    | cons b y =>
      simp only [List.mem_cons, not_or] at hy
      simp [hy.1]
  | cons a x ih =>
    cases y with
    | nil =>
      simp only [List.mem_cons, not_or] at hx
      simp [Ne.symm hx.1]
    | cons b y =>
      simp only [List.mem_cons, not_or] at hx hy
      simp [ih hx.2 hy.2, and_assoc]

theorem hex2_inj {a b : UInt8} (h : hex2 a = hex2 b) : a = b := by
  simp only [hex2, List.cons.injEq, and_true] at h
  have ha := a.toNat_lt; have hb := b.toNat_lt
  have h1 := congrArg digitVal h.1
  have h2 := congrArg digitVal h.2
  rw [digitVal_digit _ (by omega), digitVal_digit _ (by omega)] at h1 h2
  exact UInt8.toNat_inj.1 (by omega)

theorem hex2_all (a : UInt8) : ∀ c ∈ hex2 a, isHex c = true := by
  have ha := a.toNat_lt
  simp only [hex2, List.mem_cons, List.not_mem_nil, or_false]
  rintro c (rfl | rfl) <;> exact isHex_digit _ (by omega)

theorem flatMap_hex2_inj {a b : Bytes} (h : a.flatMap hex2 = b.flatMap hex2) : a = b := by
  induction a generalizing b with
  | nil =>
    cases b with
    | nil => rfl
    | cons y b => simp [hex2] at h
  | cons x a ih =>
    cases b with
    | nil => simp [hex2] at h
    | cons y b =>
      simp only [List.flatMap_cons] at h
      obtain ⟨h1, h2⟩ := List.append_inj h (by simp [hex2])
      rw [hex2_inj h1, ih h2]

theorem flatMap_hex2_all (a : Bytes) : ∀ c ∈ a.flatMap hex2, isHex c = true := by
  intro c hc
  obtain ⟨b, _, hb⟩ := List.mem_flatMap.1 hc
  exact hex2_all b c hb

end SMC
