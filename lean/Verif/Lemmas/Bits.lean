import Verif.Lemmas.Wire
/-!
# Lemmas about encoders

Encoders are written as bit strings, `b₁ ++ b₂ ++ …` with one piece for each field.
-/

namespace SMC.Spec

/-- `w` bits from bit `a` -/
def seg (l : List Bool) (a w : Nat) : List Bool := (l.drop a).take w

@[simp] theorem natBits_length (w n : Nat) : (natBits w n).length = w := by
  induction w with
  | zero => rfl
  | succ w ih => simp [natBits, ih]

theorem natBits_ofBits (l : List Bool) : natBits l.length (ofBits l) = l := by
  -- the low bits of the number of `p ++ l`
  suffices h : ∀ (p l : List Bool), natBits l.length (ofBits (p ++ l)) = l from h [] l
  intro p l
  induction l generalizing p with
  | nil => rfl
  | cons b l ih =>
    have h2 : p ++ b :: l = (p ++ [b]) ++ l := by simp
    have h1 : (ofBits (p ++ b :: l)).testBit l.length = b := by
      rw [h2, ofBits_append, ofBits_append]
      have hl := ofBits_lt l
      have : (ofBits p * 2 ^ [b].length + ofBits [b]) * 2 ^ l.length + ofBits l
          = 2 ^ l.length * (2 * ofBits p + b.toNat) + ofBits l := by
        have : ofBits [b] = b.toNat := by cases b <;> rfl
        rw [this, Nat.mul_comm (_ + _)]
        simp [Nat.mul_comm]
      rw [this, Nat.testBit_two_pow_mul_add _ hl]
      simp only [Nat.lt_irrefl, if_false, Nat.sub_self]
      cases b <;> simp
    simp only [List.length_cons, natBits, h1]
    rw [h2, ih (p ++ [b])]

theorem ofBits_natBits (w n : Nat) : ofBits (natBits w n) = n % 2 ^ w := by
  induction w with
  | zero => simp [natBits, ofBits, Nat.mod_one]
  | succ w ih =>
    have : natBits (w + 1) n = [n.testBit w] ++ natBits w n := rfl
    have hb : ofBits [n.testBit w] = n / 2 ^ w % 2 := by
      rw [Nat.testBit_eq_decide_div_mod_eq]
      rcases Nat.mod_two_eq_zero_or_one (n / 2 ^ w) with h | h <;> rw [h] <;> rfl
    rw [this, ofBits_append, ih, natBits_length, Nat.mod_pow_succ, hb, Nat.mul_comm, Nat.add_comm]

theorem natBits_eq {l : List Bool} {w : Nat} (h : l.length = w) : natBits w (ofBits l) = l := by
  subst h; exact natBits_ofBits l

theorem seg_length {l : List Bool} {a w : Nat} (h : a + w ≤ l.length) : (seg l a w).length = w := by
  simp [seg]; omega

theorem natBits_num {bs : Bytes} {k i w : Nat} (h : 8 * k + i + w ≤ 8 * bs.length) :
    natBits w (num bs k i w) = seg (toBits bs) (8 * k + i) w :=
  natBits_eq (seg_length (by rw [toBits_length]; exact h))

theorem flag_seg {bs : Bytes} {k i : Nat} (h : 8 * k + i + 1 ≤ 8 * bs.length) :
    [flag bs k i] = seg (toBits bs) (8 * k + i) 1 := by
  have hl : (seg (toBits bs) (8 * k + i) 1).length = 1 := seg_length (by rw [toBits_length]; exact h)
  have : num bs k i 1 = ofBits (seg (toBits bs) (8 * k + i) 1) := rfl
  rw [flag, this]
  match seg (toBits bs) (8 * k + i) 1, hl with
  | [b], _ => cases b <;> rfl

theorem raw_seg (bs : Bytes) (k n : Nat) : toBits (raw bs k n) = seg (toBits bs) (8 * k) (8 * n) :=
  (toBits_raw bs k n).symm

theorem seg_append {l : List Bool} {a b w w' : Nat} (h : a + w = b) :
    seg l a w ++ seg l b w' = seg l a (w + w') := by
  subst h
  simp only [seg]
  rw [List.take_add, List.drop_drop]

theorem seg_all {l : List Bool} {w : Nat} (h : w = l.length) : seg l 0 w = l := by
  subst h; simp [seg]

/-! ## Reading a piece of a concatenation -/

theorem seg_last {l l' : List Bool} {a w : Nat} (h : l.length = a) (hw : l'.length = w) : seg (l ++ l') a w = l' := by
  subst h; subst hw; simp [seg]

theorem seg_left {l l' : List Bool} {a w : Nat} (h : a + w ≤ l.length) : seg (l ++ l') a w = seg l a w := by
  simp only [seg]
  rw [List.drop_append_of_le_length (by omega), List.take_append_of_le_length (by simp; omega)]

theorem num_seg (bs : Bytes) (k i w : Nat) : num bs k i w = ofBits (seg (toBits bs) (8 * k + i) w) := rfl

theorem flag_of_seg {bs : Bytes} {k i : Nat} {b : Bool} (h : seg (toBits bs) (8 * k + i) 1 = [b]) :
    flag bs k i = b := by
  rw [flag, num_seg, h]; cases b <;> rfl

/-! ## Bytes -/

theorem pack_byteBits (b : UInt8) (l : List Bool) : pack (byteBits b ++ l) = b :: pack l := by
  have : byteBits b ++ l = b.toNat.testBit 7 :: b.toNat.testBit 6 :: b.toNat.testBit 5 :: b.toNat.testBit 4 ::
      b.toNat.testBit 3 :: b.toNat.testBit 2 :: b.toNat.testBit 1 :: b.toNat.testBit 0 :: l := rfl
  rw [this]
  show UInt8.ofNat (ofBits (byteBits b)) :: pack l = _
  rw [ofBits_byteBits, UInt8.ofNat_toNat]

theorem pack_toBits (bs : Bytes) : pack (toBits bs) = bs := by
  induction bs with
  | nil => rfl
  | cons b bs ih => rw [toBits_cons, pack_byteBits, ih]

theorem byteBits_inj {a b : UInt8} (h : byteBits a = byteBits b) : a = b := by
  rw [← UInt8.toNat_inj, ← ofBits_byteBits, ← ofBits_byteBits, h]

theorem toBits_inj {a b : Bytes} (h : toBits a = toBits b) : a = b := by
  rw [← pack_toBits a, ← pack_toBits b, h]

theorem byteBits_pack : ∀ a b c d e f g h : Bool,
    byteBits (UInt8.ofNat (ofBits [a, b, c, d, e, f, g, h])) = [a, b, c, d, e, f, g, h] := by decide +kernel

theorem toBits_pack (n : Nat) (l : List Bool) (h : l.length = 8 * n) : toBits (pack l) = l := by
  induction n generalizing l with
  | zero => simp at h; subst h; rfl
  | succ n ih =>
    match l, h with
    | a :: b :: c :: d :: e :: f :: g :: i :: r, hl =>
      show toBits (UInt8.ofNat (ofBits [a, b, c, d, e, f, g, i]) :: pack r) = _
      rw [toBits_cons, byteBits_pack, ih r (by simp at hl; omega)]
      rfl

theorem pack_length (n : Nat) (l : List Bool) (h : l.length = 8 * n) : (pack l).length = n := by
  have := congrArg List.length (toBits_pack n l h)
  rw [toBits_length, h] at this; omega

theorem raw_of_seg {bs d : Bytes} {k n : Nat} (h : seg (toBits bs) (8 * k) (8 * n) = toBits d) : raw bs k n = d :=
  toBits_inj (by rw [raw_seg, h])

end SMC.Spec

namespace SMC.Spec

/-! ## Comparing encodings -/

theorem natBits_inj {w x y : Nat} (hx : x < 2 ^ w) (hy : y < 2 ^ w) : natBits w x = natBits w y ↔ x = y := by
  refine ⟨fun h => ?_, fun h => h ▸ rfl⟩
  have := congrArg ofBits h
  rwa [ofBits_natBits, ofBits_natBits, Nat.mod_eq_of_lt hx, Nat.mod_eq_of_lt hy] at this

theorem natBits_u8 {x y : UInt8} : natBits 8 x.toNat = natBits 8 y.toNat ↔ x = y := by
  rw [natBits_inj x.toNat_lt y.toNat_lt, UInt8.toNat_inj]

theorem natBits_u16 {x y : UInt16} : natBits 16 x.toNat = natBits 16 y.toNat ↔ x = y := by
  rw [natBits_inj x.toNat_lt y.toNat_lt, UInt16.toNat_inj]

theorem natBits_u32 {x y : UInt32} : natBits 32 x.toNat = natBits 32 y.toNat ↔ x = y := by
  rw [natBits_inj x.toNat_lt y.toNat_lt, UInt32.toNat_inj]

theorem natBits_u64 {x y : UInt64} : natBits 64 x.toNat = natBits 64 y.toNat ↔ x = y := by
  rw [natBits_inj x.toNat_lt y.toNat_lt, UInt64.toNat_inj]

theorem append_natBits {l l' : List Bool} {w x y : Nat} :
    l ++ natBits w x = l' ++ natBits w y ↔ l = l' ∧ natBits w x = natBits w y :=
  ⟨fun h => List.append_inj' h (by simp), fun h => by rw [h.1, h.2]⟩

theorem append_bit {l l' : List Bool} {x y : Bool} : l ++ [x] = l' ++ [y] ↔ l = l' ∧ x = y := by
  constructor
  · intro h
    have := List.append_inj' h (by simp)
    simpa using this
  · rintro ⟨rfl, rfl⟩; rfl

theorem append_toBits {l l' : List Bool} {x y : Bytes} (hx : x.length = y.length) :
    l ++ toBits x = l' ++ toBits y ↔ l = l' ∧ x = y := by
  constructor
  · intro h
    have := List.append_inj' h (by simp [hx])
    exact ⟨this.1, toBits_inj this.2⟩
  · rintro ⟨rfl, rfl⟩; rfl

theorem num_lt {bs : Bytes} {k i w : Nat} : num bs k i w < 2 ^ w := by
  refine Nat.lt_of_lt_of_le (ofBits_lt _) (Nat.pow_le_pow_right (by omega) ?_)
  simp; omega

/-- the fields of two values with the same encoding -/
syntax "bit_fields" "[" Lean.Parser.Tactic.simpLemma,* "]" " at " ident : tactic
macro_rules
  | `(tactic| bit_fields [$ls,*] at $h) => `(tactic|
    simp (disch := first | assumption | omega) only [append_natBits, append_bit, append_toBits, natBits_u8, natBits_u16,
      natBits_u32, natBits_u64, natBits_inj, UInt8.toNat_inj, UInt16.toNat_inj, UInt32.toNat_inj, $ls,*] at $h:ident)

/-- the bits of fields that were read from a buffer -/
macro "bit_join" : tactic => `(tactic|
    simp (disch := omega) only [natBits_num, flag_seg, raw_seg, seg_append, Nat.reduceMul, Nat.reduceAdd, Nat.mul_zero, Nat.zero_add, Nat.add_zero])

end SMC.Spec
