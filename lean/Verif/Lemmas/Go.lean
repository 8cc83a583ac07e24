import Verif.Go
/-!
# Lemmas about the Go fragment
-/

namespace SMC

namespace Go

@[simp] theorem ret_bind {α β : Type} (a : α) (f : α → Go β) : (Go.ret [] a >>= f) = f a := by
  show Go.bind _ _ = _
  unfold Go.bind
  cases h : f a <;> simp [h]

@[simp] theorem panic_bind {α β : Type} (l : List Bytes) (f : α → Go β) :
    (Go.panic l >>= f) = .panic l := rfl

@[simp] theorem pure_eq {α : Type} (a : α) : (pure a : Go α) = .ret [] a := rfl

theorem bind_eq_ret {α β : Type} (x : Go α) (f : α → Go β) (l : List Bytes) (b : β) :
    (x >>= f) = .ret l b ↔
      ∃ l₁ a l₂, x = .ret l₁ a ∧ f a = .ret l₂ b ∧ l = l₁ ++ l₂ := by
  show Go.bind x f = _ ↔ _
  constructor
  · intro h
    cases x with
    | panic l' => cases h
    | ret l₁ a =>
      cases h2 : f a with
      | panic l₂ => simp [Go.bind, h2] at h
      | ret l₂ b' =>
        simp only [Go.bind, h2, Go.ret.injEq] at h
        exact ⟨l₁, a, l₂, rfl, by rw [h2, h.2], h.1.symm⟩
  · rintro ⟨l₁, a, l₂, rfl, h2, rfl⟩
    simp [Go.bind, h2]

/-- an execution after the log `l` -/
def withLog {α : Type} (l : List Bytes) : Go α → Go α
  | .ret l' a => .ret (l ++ l') a
  | .panic l' => .panic (l ++ l')

theorem bind_withLog {α β : Type} (l : List Bytes) (a : α) (f : α → Go β) :
    (Go.ret l a >>= f) = withLog l (f a) := by
  show Go.bind _ _ = _
  unfold Go.bind withLog
  cases h : f a <;> simp [h]

theorem withLog_ret {α : Type} (l l' : List Bytes) (a : α) : withLog l (.ret l' a) = .ret (l ++ l') a := rfl
theorem withLog_panic {α : Type} (l l' : List Bytes) : withLog (α := α) l (.panic l') = .panic (l ++ l') := rfl
theorem withLog_nil {α : Type} (x : Go α) : withLog [] x = x := by cases x <;> rfl
theorem withLog_withLog {α : Type} (l l' : List Bytes) (x : Go α) :
    withLog l (withLog l' x) = withLog (l ++ l') x := by cases x <;> simp [withLog]

/-- an execution that does not return panics -/
theorem panics_of {α : Type} {x : Go α} (h : ∀ l a, x ≠ .ret l a) : Panics x := by
  cases x with
  | panic l => exact ⟨l, rfl⟩
  | ret l a => exact absurd rfl (h l a)

theorem not_panics_ret {α : Type} (l : List Bytes) (a : α) : ¬ Panics (Go.ret l a) := by
  rintro ⟨l', h⟩; cases h

end Go

namespace Slice

@[simp] theorem len_mk (v e : Bytes) : (Slice.mk v e).len = v.length := rfl
@[simp] theorem cap_mk (v e : Bytes) : (Slice.mk v e).cap = v.length + e.length := rfl

theorem idx_of_lt {v e : Bytes} {i : Nat} (h : i < v.length) :
    (Slice.mk v e).idx i = .ret [] v[i] := by
  simp [Slice.idx, h]

theorem idx_of_ge {v e : Bytes} {i : Nat} (h : v.length ≤ i) :
    (Slice.mk v e).idx i = .panic [] := by
  simp [Slice.idx, h]

theorem idx_eq_ret (s : Slice) (i : Nat) (l : List Bytes) (b : UInt8) :
    s.idx i = .ret l b ↔ l = [] ∧ s.vis[i]? = some b := by
  unfold Slice.idx
  cases h : s.vis[i]? with
  | none => simp
  | some c => simp [eq_comm]

theorem sfrom_eq_ret (s t : Slice) (a : Nat) (l : List Bytes) :
    s.sfrom a = .ret l t ↔ a ≤ s.len ∧ l = [] ∧ t = ⟨s.vis.drop a, s.extra⟩ := by
  unfold Slice.sfrom
  split
  · simp_all [eq_comm]
  · simp_all; omega

theorem sub_eq_ret (s t : Slice) (a b : Nat) (l : List Bytes) :
    s.sub a b = .ret l t ↔ (a ≤ b ∧ b ≤ s.cap) ∧ l = [] ∧
      t = ⟨((s.vis ++ s.extra).drop a).take (b - a), (s.vis ++ s.extra).drop b⟩ := by
  unfold Slice.sub
  split
  · simp_all [eq_comm]
  · simp_all; omega

/-- index after dropping `k` bytes -/
theorem idx_drop {v e : Bytes} {k i : Nat} (h : k + i < v.length) :
    (Slice.mk (v.drop k) e).idx i = .ret [] v[k + i] := by
  rw [idx_of_lt (by simp; omega)]; simp

theorem sfrom_mk {v e : Bytes} {a : Nat} (h : a ≤ v.length) :
    (Slice.mk v e).sfrom a = .ret [] ⟨v.drop a, e⟩ := by
  simp [Slice.sfrom, h]

theorem sfrom_drop {v e : Bytes} {k a : Nat} (h : k + a ≤ v.length) :
    (Slice.mk (v.drop k) e).sfrom a = .ret [] ⟨v.drop (k + a), e⟩ := by
  rw [sfrom_mk (by simp; omega)]; simp [List.drop_drop]

theorem sub_mk {v e : Bytes} {a b : Nat} (hab : a ≤ b) (h : b ≤ v.length) :
    (Slice.mk v e).sub a b = .ret [] ⟨(v.drop a).take (b - a), v.drop b ++ e⟩ := by
  have h2 : b ≤ v.length + e.length := by omega
  have h3 : a - v.length = 0 := by omega
  have h4 : b - v.length = 0 := by omega
  simp only [Slice.sub, Slice.cap_mk, hab, h2, and_self, if_true, List.drop_append, h3, h4, List.drop_zero]
  rw [List.take_append_of_le_length (by simp; omega)]

theorem sub_drop {v e : Bytes} {k a b : Nat} (hab : a ≤ b) (h : k + b ≤ v.length) :
    (Slice.mk (v.drop k) e).sub a b
      = .ret [] ⟨(v.drop (k + a)).take (b - a), v.drop (k + b) ++ e⟩ := by
  rw [sub_mk hab (by simp; omega)]; simp [List.drop_drop]

end Slice

/-- big-endian value of two bytes in the shift/or form of encoding/binary -/
def u16 (a b : UInt8) : UInt16 := b.toUInt16 ||| (a.toUInt16 <<< 8)
/-- likewise for four bytes -/
def u32 (a b c d : UInt8) : UInt32 :=
  d.toUInt32 ||| (c.toUInt32 <<< 8) ||| (b.toUInt32 <<< 16) ||| (a.toUInt32 <<< 24)
/-- likewise for eight bytes -/
def u64 (a b c d e f g h : UInt8) : UInt64 :=
  h.toUInt64 ||| (g.toUInt64 <<< 8) ||| (f.toUInt64 <<< 16) ||| (e.toUInt64 <<< 24)
    ||| (d.toUInt64 <<< 32) ||| (c.toUInt64 <<< 40) ||| (b.toUInt64 <<< 48) ||| (a.toUInt64 <<< 56)
/-- the three byte numbers of the LLC and BTH parsers -/
def u24 (a b c : UInt8) : UInt32 := (a.toUInt32 <<< 16) ||| (b.toUInt32 <<< 8) ||| c.toUInt32

section
variable {v e : Bytes} {k : Nat}

theorem be16_drop (h : k + 2 ≤ v.length) :
    be16 ⟨(v.drop k).take 2, e⟩ = .ret [] (u16 v[k] v[k+1]) := by
  have h0 : 0 < ((v.drop k).take 2).length := by simp; omega
  have h1 : 1 < ((v.drop k).take 2).length := by simp; omega
  simp only [be16, Slice.idx_of_lt h0, Slice.idx_of_lt h1, Go.ret_bind, Go.pure_eq, u16]
  simp

theorem be32_drop (h : k + 4 ≤ v.length) :
    be32 ⟨(v.drop k).take 4, e⟩ = .ret [] (u32 v[k] v[k+1] v[k+2] v[k+3]) := by
  have hl : ((v.drop k).take 4).length = 4 := by simp; omega
  simp only [be32, Slice.idx_of_lt, hl, Go.ret_bind, Go.pure_eq, u32, Nat.reduceLT]
  simp

theorem be64_drop (h : k + 8 ≤ v.length) :
    be64 ⟨(v.drop k).take 8, e⟩
      = .ret [] (u64 v[k] v[k+1] v[k+2] v[k+3] v[k+4] v[k+5] v[k+6] v[k+7]) := by
  have hl : ((v.drop k).take 8).length = 8 := by simp; omega
  simp only [be64, Slice.idx_of_lt, hl, Go.ret_bind, Go.pure_eq, u64, Nat.reduceLT]
  simp

end

@[simp] theorem zeros_length (n : Nat) : (zeros n).length = n := by simp [zeros]

theorem copyInto_length (d s : Bytes) : (copyInto d s).length = d.length := by
  simp [copyInto]; omega

/-- a copy that fills the destination -/
theorem copyInto_full {d s : Bytes} (h : d.length ≤ s.length) : copyInto d s = s.take d.length := by
  simp [copyInto, List.drop_eq_nil_of_le h]

theorem copyInto_eq {d s : Bytes} (h : d.length = s.length) : copyInto d s = s := by
  rw [copyInto_full (by omega), h, List.take_length]

/-! ## Least lengths -/

/-- if the execution returns, the slice has at least `n` bytes -/
def Needs {α : Type} (n : Nat) (s : Slice) (x : Go α) : Prop := ∀ l a, x = .ret l a → n ≤ s.len

theorem Needs.zero {α : Type} (s : Slice) (x : Go α) : Needs 0 s x := fun _ _ _ => Nat.zero_le _

theorem Needs.skip {α β : Type} {n : Nat} {s : Slice} {x : Go α} {f : α → Go β}
    (h : ∀ a, Needs n s (f a)) : Needs n s (x >>= f) := by
  intro l b hb
  obtain ⟨_, a, _, _, h2, _⟩ := (Go.bind_eq_ret _ _ _ _).1 hb
  exact h a _ _ h2

theorem Needs.sfrom {β : Type} {n a : Nat} {s : Slice} {f : Slice → Go β}
    (h : ∀ t, Needs n t (f t)) : Needs (n + a) s (s.sfrom a >>= f) := by
  intro l b hb
  obtain ⟨_, t, _, h1, h2, _⟩ := (Go.bind_eq_ret _ _ _ _).1 hb
  obtain ⟨ha, _, rfl⟩ := (Slice.sfrom_eq_ret _ _ _ _).1 h1
  have := h _ _ _ h2
  simp [Slice.len] at this ha ⊢; omega

theorem Needs.idx {β : Type} {i : Nat} {s : Slice} {f : UInt8 → Go β} :
    Needs (i + 1) s (s.idx i >>= f) := by
  intro l b hb
  obtain ⟨_, t, _, h1, h2, _⟩ := (Go.bind_eq_ret _ _ _ _).1 hb
  obtain ⟨_, h⟩ := (Slice.idx_eq_ret _ _ _ _).1 h1
  exact (List.getElem?_eq_some_iff.1 h).1

theorem Needs.panics {α : Type} {n : Nat} {s : Slice} {x : Go α} (h : Needs n s x) (hs : s.len < n) :
    Go.Panics x := Go.panics_of fun l a e => absurd (h l a e) (by omega)

theorem Needs.panics_iff {α : Type} {n : Nat} {s : Slice} {x : Go α} (h : Needs n s x)
    (hr : n ≤ s.len → ∃ m, x = .ret [] m) : Go.Panics x ↔ s.len < n := by
  refine ⟨fun hp => Nat.lt_of_not_le fun hn => ?_, h.panics⟩
  obtain ⟨m, hm⟩ := hr hn
  exact Go.not_panics_ret _ _ (hm ▸ hp)

/-- walks along a straight-line parser and adds up what `s[a:]` consumes -/
macro "needs" : tactic => `(tactic|
  repeat (first
    | exact Needs.zero _ _
    | exact Needs.idx
    | (refine Needs.sfrom fun _ => ?_)
    | (refine Needs.skip fun _ => ?_)))

end SMC
