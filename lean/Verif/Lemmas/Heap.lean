import Verif.Spec.Heap
/-!
# Lemmas on memory

`Sim h x y R`: started with memory `h`, the computation `x` on memory does what the
computation `y` on values does; it only adds arrays to the memory, and `R` relates memory and
results.
-/

namespace SMC

theorem Heap.Ext.refl (h : Heap) : h.Ext h := ⟨[], by simp⟩

theorem Heap.Ext.trans {a b c : Heap} (h1 : a.Ext b) (h2 : b.Ext c) : a.Ext c := by
  obtain ⟨x, rfl⟩ := h1
  obtain ⟨y, rfl⟩ := h2
  exact ⟨x ++ y, by simp⟩

theorem Heap.Ext.length {a b : Heap} (h : a.Ext b) : a.length ≤ b.length := by
  obtain ⟨x, rfl⟩ := h
  simp

theorem Heap.Ext.getD {a b : Heap} (h : a.Ext b) {i : Nat} (hi : i < a.length) :
    b.getD i [] = a.getD i [] := by
  obtain ⟨x, rfl⟩ := h
  simp [List.getD, List.getElem?_append_left hi]

theorem Ref.Valid.nil (h : Heap) : Ref.nil.Valid h := by
  simp [Ref.Valid, Ref.nil]

/-- A reference sees the same bytes in memories that agree on its array. -/
theorem Heap.slice_congr {a b : Heap} {r : Ref} (hr : r.Valid a)
    (h : r.arr < a.length → b.getD r.arr [] = a.getD r.arr []) : b.slice r = a.slice r := by
  obtain ⟨h1, h2 | ⟨h2, _⟩⟩ := hr
  · have : r.len = 0 := by omega
    simp [Heap.slice, this, h2]
  · simp only [Heap.slice, h h2]

theorem Heap.Ext.slice {a b : Heap} (h : a.Ext b) {r : Ref} (hr : r.Valid a) :
    b.slice r = a.slice r :=
  Heap.slice_congr hr fun hi => h.getD hi

theorem Heap.Ext.bytes {a b : Heap} (h : a.Ext b) {r : Ref} (hr : r.Valid a) :
    b.bytes r = a.bytes r := by
  simp only [Heap.bytes, h.slice hr]

theorem Heap.Ext.valid {a b : Heap} (h : a.Ext b) {r : Ref} (hr : r.Valid a) : r.Valid b := by
  obtain ⟨h1, h2 | ⟨h2, h3⟩⟩ := hr
  · exact ⟨h1, .inl h2⟩
  · refine ⟨h1, .inr ⟨?_, ?_⟩⟩
    · have := h.length
      omega
    · rw [h.getD h2]
      exact h3

theorem Heap.len_slice {h : Heap} {r : Ref} (hr : r.Valid h) : (h.slice r).len = r.len := by
  obtain ⟨h1, h2 | ⟨_, h3⟩⟩ := hr
  · have : r.len = 0 := by omega
    simp [Heap.slice, Slice.len, this]
  · simp [Heap.slice, Slice.len]
    rw [List.getD] at h3
    omega

theorem Heap.all_slice {h : Heap} {r : Ref} (hr : r.Valid h) :
    (h.slice r).vis ++ (h.slice r).extra = ((h.getD r.arr []).drop r.off).take r.cap := by
  simp only [Heap.slice]
  have h1 := hr.1
  conv => rhs; rw [show r.cap = r.len + (r.cap - r.len) by omega, List.take_add]

theorem Heap.cap_slice {h : Heap} {r : Ref} (hr : r.Valid h) : (h.slice r).cap = r.cap := by
  have := congrArg List.length (Heap.all_slice hr)
  rw [List.length_append] at this
  rw [Slice.cap, this]
  obtain ⟨h1, h2 | ⟨_, h3⟩⟩ := hr
  · simp [h2]
  · simp
    rw [List.getD] at h3
    omega

/-! ## Computations one after the other -/

theorem Go.bindBind {α β γ : Type} (x : Go α) (f : α → Go β) (g : β → Go γ) :
    Go.bind (Go.bind x f) g = Go.bind x fun a => Go.bind (f a) g := by
  cases x with
  | panic l => rfl
  | ret l a =>
    simp only [Go.bind]
    cases f a with
    | panic l1 => rfl
    | ret l1 b => cases h : g b <;> simp [h]

theorem Go.retBind {α β : Type} (a : α) (f : α → Go β) : Go.bind (.ret [] a) f = f a := by
  cases h : f a <;> simp [Go.bind, h]

namespace HGo

theorem run_bind {α β : Type} (x : HGo α) (f : α → HGo β) (h : Heap) :
    (x >>= f) h = Go.bind (x h) fun r => f r.1 r.2 := by
  show (x.andThen f) h = _
  induction x generalizing h with
  | done a => exact (Go.retBind (a, h) fun r => f r.1 r.2).symm
  | comp x k ih => simp only [andThen, run, Go.bindBind, ih]
  | look r g k ih => simp only [andThen, run, Go.bindBind, ih]
  | alloc n k ih => exact ih _ _
  | fill dst src k ih => exact ih _

theorem run_lift {α : Type} (x : Go α) (h : Heap) : lift x h = Go.bind x fun a => .ret [] (a, h) := rfl

theorem run_read {α : Type} (r : Ref) (f : Slice → Go α) (h : Heap) :
    read r f h = Go.bind (f (h.slice r)) fun a => .ret [] (a, h) := rfl

theorem run_sub (r : Ref) (a b : Nat) (h : Heap) : r.sub a b h =
    if a ≤ b ∧ b ≤ r.cap then .ret [] (⟨r.arr, r.off + a, b - a, r.cap - a⟩, h) else .panic [] := by
  unfold Ref.sub
  rw [run_lift]
  split <;> rfl

theorem run_sfrom (r : Ref) (a : Nat) (h : Heap) : r.sfrom a h =
    if a ≤ r.len then .ret [] (⟨r.arr, r.off + a, r.len - a, r.cap - a⟩, h) else .panic [] := by
  unfold Ref.sfrom
  rw [run_lift]
  split <;> rfl

end HGo

/-! ## Simulation -/

/-- See the head of the file. -/
def Sim {α β : Type} (h : Heap) (x : HGo α) (y : Go β) (R : Heap → α → β → Prop) : Prop :=
  match x h, y with
  | .panic l, .panic l' => l = l'
  | .ret l (a, h1), .ret l' b => l = l' ∧ h.Ext h1 ∧ R h1 a b
  | _, _ => False

namespace Sim
open HGo

variable {α β γ δ : Type} {h : Heap}

theorem pure {a : α} {b : β} {R : Heap → α → β → Prop} (hR : R h a b) :
    Sim h (Pure.pure a) (Pure.pure b) R := by
  show ([] : List Bytes) = [] ∧ h.Ext h ∧ R h a b
  exact ⟨rfl, Heap.Ext.refl h, hR⟩

theorem bind {x : HGo α} {y : Go β} {R : Heap → α → β → Prop} {f : α → HGo γ} {g : β → Go δ}
    {R' : Heap → γ → δ → Prop} (hx : Sim h x y R)
    (hf : ∀ h1 a b, h.Ext h1 → R h1 a b → Sim h1 (f a) (g b) R') :
    Sim h (x >>= f) (y >>= g) R' := by
  unfold Sim at hx ⊢
  rw [run_bind, show y >>= g = Go.bind y g from rfl]
  cases hxh : x h with
  | panic l =>
    cases hy : y with
    | panic l' =>
      rw [hxh, hy] at hx
      simpa [Go.bind] using hx
    | ret l' b =>
      rw [hxh, hy] at hx
      exact hx.elim
  | ret l r =>
    obtain ⟨a, h1⟩ := r
    cases hy : y with
    | panic l' =>
      rw [hxh, hy] at hx
      exact hx.elim
    | ret l' b =>
      rw [hxh, hy] at hx
      obtain ⟨hl, he, hR⟩ := hx
      have h2 := hf h1 a b he hR
      unfold Sim at h2
      simp only [Go.bind]
      subst hl
      revert h2
      cases f a h1 with
      | panic k =>
        cases g b with
        | panic k' => intro h2; simpa using h2
        | ret k' d => intro h2; exact h2.elim
      | ret k r' =>
        obtain ⟨c, h3⟩ := r'
        cases g b with
        | panic k' => intro h2; exact h2.elim
        | ret k' d => intro h2; exact ⟨by rw [h2.1], he.trans h2.2.1, h2.2.2⟩

/-- a statement computing on the bytes seen through a reference -/
theorem read_bind {r : Ref} {k : Slice → Go α} {f : α → HGo γ} {g : α → Go δ}
    {R : Heap → γ → δ → Prop} (hf : ∀ a, Sim h (f a) (g a) R) :
    Sim h (read r k >>= f) (k (h.slice r) >>= g) R := by
  refine bind (R := fun h1 a b => h1 = h ∧ a = b) ?_ ?_
  · unfold Sim
    rw [run_read]
    cases k (h.slice r) with
    | panic l => simp
    | ret l a => simp [Heap.Ext.refl]
  · rintro h1 a b _ ⟨rfl, rfl⟩
    exact hf a

theorem idx_bind {r : Ref} {i : Nat} {f : UInt8 → HGo γ} {g : UInt8 → Go δ}
    {R : Heap → γ → δ → Prop} (hf : ∀ a, Sim h (f a) (g a) R) :
    Sim h (r.idx i >>= f) ((h.slice r).idx i >>= g) R :=
  read_bind hf

/-- reading where the value model has an expression instead of a statement -/
theorem read_pure {r : Ref} {k : Slice → α} {f : α → HGo γ} {y : Go δ}
    {R : Heap → γ → δ → Prop} (hf : Sim h (f (k (h.slice r))) y R) :
    Sim h ((read r fun s => Pure.pure (k s)) >>= f) y R := by
  have : ((read r fun s => Pure.pure (k s)) >>= f) h = f (k (h.slice r)) h := by
    rw [run_bind]
    show Go.bind (Go.bind (Go.ret [] (k (h.slice r))) fun a => .ret [] (a, h)) (fun r => f r.1 r.2) = _
    simp only [Go.bind, List.nil_append, List.append_nil]
    cases f (k (h.slice r)) h <;> rfl
  unfold Sim
  rw [this]
  exact hf

theorem lift_bind {x : Go α} {f : α → HGo γ} {g : α → Go δ}
    {R : Heap → γ → δ → Prop} (hf : ∀ a, Sim h (f a) (g a) R) :
    Sim h (lift x >>= f) (x >>= g) R := by
  refine bind (R := fun h1 a b => h1 = h ∧ a = b) ?_ ?_
  · unfold Sim
    rw [run_lift]
    cases x with
    | panic l => simp
    | ret l a => simp [Heap.Ext.refl]
  · rintro h1 a b _ ⟨rfl, rfl⟩
    exact hf a

theorem sub_bind {r : Ref} {a b : Nat} {f : Ref → HGo γ} {g : Slice → Go δ}
    {R : Heap → γ → δ → Prop} (hr : r.Valid h)
    (hf : ∀ r', r'.Valid h → r'.len = b - a → r'.arr = r.arr → Sim h (f r') (g (h.slice r')) R) :
    Sim h (r.sub a b >>= f) ((h.slice r).sub a b >>= g) R := by
  refine bind (R := fun h1 r' s => h1 = h ∧ r'.Valid h ∧ r'.len = b - a ∧ r'.arr = r.arr ∧ s = h.slice r') ?_ ?_
  · unfold Sim Slice.sub
    rw [run_sub, Heap.cap_slice hr]
    by_cases hc : a ≤ b ∧ b ≤ r.cap
    · simp only [if_pos hc]
      refine ⟨trivial, Heap.Ext.refl h, trivial, ?_, trivial, trivial, ?_⟩
      · refine ⟨by dsimp only; omega, ?_⟩
        obtain ⟨h1, h2 | ⟨h2, h3⟩⟩ := hr
        · left; dsimp only; omega
        · right; exact ⟨h2, by dsimp only; omega⟩
      · rw [Heap.all_slice hr]
        simp only [Heap.slice, List.drop_take, List.take_take, List.drop_drop, Slice.mk.injEq]
        refine ⟨?_, ?_⟩
        · rw [show min (b - a) (r.cap - a) = b - a by omega]
        · rw [show r.off + a + (b - a) = r.off + b by omega,
            show r.cap - a - (b - a) = r.cap - b by omega]
    · simp only [if_neg hc]
  · rintro h1 r' s _ ⟨rfl, h2, h3, h4, rfl⟩
    exact hf r' h2 h3 h4

theorem sto_bind {r : Ref} {b : Nat} {f : Ref → HGo γ} {g : Slice → Go δ}
    {R : Heap → γ → δ → Prop} (hr : r.Valid h)
    (hf : ∀ r', r'.Valid h → r'.len = b → r'.arr = r.arr → Sim h (f r') (g (h.slice r')) R) :
    Sim h (r.sto b >>= f) ((h.slice r).sto b >>= g) R :=
  sub_bind hr fun r' h1 h2 h3 => hf r' h1 (by omega) h3

theorem sfrom_bind_eq {r : Ref} {a : Nat} {f : Ref → HGo γ} {g : Slice → Go δ}
    {R : Heap → γ → δ → Prop} (hr : r.Valid h)
    (hf : ∀ r', r'.Valid h → a ≤ r.len → r' = ⟨r.arr, r.off + a, r.len - a, r.cap - a⟩ →
      Sim h (f r') (g (h.slice r')) R) :
    Sim h (r.sfrom a >>= f) ((h.slice r).sfrom a >>= g) R := by
  refine bind (R := fun h1 r' s =>
    h1 = h ∧ r'.Valid h ∧ a ≤ r.len ∧ r' = ⟨r.arr, r.off + a, r.len - a, r.cap - a⟩ ∧ s = h.slice r') ?_ ?_
  · unfold Sim Slice.sfrom
    rw [run_sfrom, Heap.len_slice hr]
    by_cases hc : a ≤ r.len
    · simp only [if_pos hc]
      have h1 := hr.1
      refine ⟨trivial, Heap.Ext.refl h, trivial, ?_, hc, trivial, ?_⟩
      · refine ⟨by dsimp only; omega, ?_⟩
        obtain ⟨h1, h2 | ⟨h2, h3⟩⟩ := hr
        · left; dsimp only; omega
        · right; exact ⟨h2, by dsimp only; omega⟩
      · simp only [Heap.slice, List.drop_take, List.drop_drop, Slice.mk.injEq]
        refine ⟨trivial, ?_⟩
        rw [show r.off + a + (r.len - a) = r.off + r.len by omega,
          show r.cap - a - (r.len - a) = r.cap - r.len by omega]
    · simp only [if_neg hc]
  · rintro h1 r' s _ ⟨rfl, h2, h3, h4, rfl⟩
    exact hf r' h2 h3 h4

theorem sfrom_bind {r : Ref} {a : Nat} {f : Ref → HGo γ} {g : Slice → Go δ}
    {R : Heap → γ → δ → Prop} (hr : r.Valid h)
    (hf : ∀ r', r'.Valid h → r'.len = r.len - a → r'.arr = r.arr → Sim h (f r') (g (h.slice r')) R) :
    Sim h (r.sfrom a >>= f) ((h.slice r).sfrom a >>= g) R :=
  sfrom_bind_eq hr fun r' h1 _ h2 => hf r' h1 (by rw [h2]) (by rw [h2])

/-- `make` and `copy` give a new array with the bytes copied. -/
theorem makeCopy_eq {n : Nat} {src : Ref} (hs : src.Valid h) :
    makeCopy n src h =
      .ret [] (⟨h.length, 0, n, n⟩, h ++ [copyInto (zeros n) (h.bytes src)]) := by
  have e : (h ++ [zeros n]).bytes src = h.bytes src := Heap.Ext.bytes ⟨_, rfl⟩ hs
  have e2 : List.modify (h ++ [zeros n]) h.length (fun bytes =>
      bytes.take 0 ++ copyInto ((bytes.drop 0).take n) ((h ++ [zeros n]).bytes src) ++ bytes.drop (0 + n))
      = h ++ [copyInto (zeros n) (h.bytes src)] := by
    rw [e]
    have : ∀ (k : List Bytes) (x : Bytes) (g : Bytes → Bytes),
        List.modify (k ++ [x]) k.length g = k ++ [g x] := by
      intro k x g
      induction k with
      | nil => rfl
      | cons y k ih => simpa [List.modify] using ih
    rw [this]
    simp [zeros]
  rw [← e2]
  rfl

theorem makeCopy_bind {n : Nat} {src : Ref} {f : Ref → HGo γ} {y : Go δ}
    {R : Heap → γ → δ → Prop} (hs : src.Valid h)
    (hf : ∀ h1 r, h.Ext h1 → r.Valid h1 → r.arr = h.length → r.len = n →
      h1.bytes r = copyInto (zeros n) (h.bytes src) → Sim h1 (f r) y R) :
    Sim h (makeCopy n src >>= f) y R := by
  have hn : (copyInto (zeros n) (h.bytes src)).length = n := by
    simp [copyInto, zeros]
    omega
  have := hf (h ++ [copyInto (zeros n) (h.bytes src)]) ⟨h.length, 0, n, n⟩ ⟨_, rfl⟩
    ⟨Nat.le_refl _, .inr ⟨by simp, by simp [List.getD, hn]⟩⟩ rfl rfl
    (by
      simp only [Heap.bytes, Heap.slice, List.getD] at hn ⊢
      simp only [List.getElem?_concat_length, Option.getD_some, List.drop_zero]
      exact List.take_of_length_le (by rw [hn]; exact Nat.le_refl n))
  have e : (makeCopy n src >>= f) h
      = f ⟨h.length, 0, n, n⟩ (h ++ [copyInto (zeros n) (h.bytes src)]) := by
    rw [run_bind, makeCopy_eq hs]
    simp only [Go.bind, List.nil_append]
    cases f _ (h ++ [copyInto (zeros n) (h.bytes src)]) <;> rfl
  unfold Sim at this ⊢
  rw [e]
  revert this
  cases f _ (h ++ [copyInto (zeros n) (h.bytes src)]) with
  | panic l => cases y <;> exact id
  | ret l r =>
    obtain ⟨a, h1⟩ := r
    cases y with
    | panic l' => exact id
    | ret l' b => exact fun k => ⟨k.1, Heap.Ext.trans ⟨_, rfl⟩ k.2.1, k.2.2⟩

theorem ite {c : Prop} [Decidable c] {x x' : HGo α} {y y' : Go β} {R : Heap → α → β → Prop}
    (h1 : c → Sim h x y R) (h2 : ¬c → Sim h x' y' R) :
    Sim h (if c then x else x') (if c then y else y') R := by
  by_cases hc : c
  · simp only [if_pos hc]
    exact h1 hc
  · simp only [if_neg hc]
    exact h2 hc

theorem mono {x : HGo α} {y : Go β} {R R' : Heap → α → β → Prop} (hx : Sim h x y R)
    (hR : ∀ h1 a b, h.Ext h1 → R h1 a b → R' h1 a b) : Sim h x y R' := by
  unfold Sim at hx ⊢
  revert hx
  cases x h with
  | panic l => cases y <;> exact id
  | ret l r =>
    obtain ⟨a, h1⟩ := r
    cases y with
    | panic l' => exact id
    | ret l' b => exact fun k => ⟨k.1, k.2.1, hR _ _ _ k.2.1 k.2.2⟩

theorem map_right {x : HGo α} {y : Go β} {R : Heap → α → β → Prop} {c : β → δ}
    {R' : Heap → α → δ → Prop} (hx : Sim h x y R)
    (hR : ∀ h1 a b, h.Ext h1 → R h1 a b → R' h1 a (c b)) :
    Sim h x (y >>= fun b => Pure.pure (c b)) R' := by
  show Sim h x (Go.bind y fun b => .ret [] (c b)) R'
  unfold Sim at hx ⊢
  revert hx
  cases x h with
  | panic l =>
    cases y with
    | panic l' => exact id
    | ret l' b => exact id
  | ret l r =>
    obtain ⟨a, h1⟩ := r
    cases y with
    | panic l' => exact id
    | ret l' b => exact fun k => ⟨by simpa using k.1, k.2.1, hR _ _ _ k.2.1 k.2.2⟩

end Sim

end SMC
