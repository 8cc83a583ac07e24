import Verif.Lemmas.HeapCLC
import Verif.Spec.Message
/-!
# What messages see of later events
-/

namespace SMC

open Spec

theorem Sim.ret {α β : Type} {h : Heap} {x : HGo α} {y : Go β} {R : Heap → α → β → Prop} (hs : Sim h x y R)
    {l : List Bytes} {a : α} {h1 : Heap} (hx : x h = .ret l (a, h1)) :
    h.Ext h1 ∧ ∃ v, y = .ret l v ∧ R h1 a v := by
  unfold Sim at hs
  rw [hx] at hs
  cases y with
  | panic l' => exact hs.elim
  | ret l' b =>
    obtain ⟨rfl, h2, h3⟩ := hs
    exact ⟨h2, b, rfl, h3⟩

theorem Sim.panic_iff {α β : Type} {h : Heap} {x : HGo α} {y : Go β} {R : Heap → α → β → Prop} (hs : Sim h x y R)
    (l : List Bytes) : x h = .panic l ↔ y = .panic l := by
  unfold Sim at hs
  cases hx : x h with
  | panic l' =>
    rw [hx] at hs
    cases y with
    | panic k => have hs : l' = k := hs; rw [hs]; simp
    | ret k b => exact hs.elim
  | ret l' r =>
    rw [hx] at hs
    obtain ⟨a, h1⟩ := r
    cases y with
    | panic k => exact hs.elim
    | ret k b => simp

theorem Heap.set_getD (h : Heap) (arr i : Nat) (b : UInt8) (j : Nat) (hj : j ≠ arr) :
    (h.set arr i b).getD j [] = h.getD j [] := by
  simp only [Heap.set, List.getD, List.getElem?_modify]
  cases h[j]? <;> simp [Ne.symm hj]

theorem Heap.set_getD_length (h : Heap) (arr i : Nat) (b : UInt8) (j : Nat) :
    ((h.set arr i b).getD j []).length = (h.getD j []).length := by
  simp only [Heap.set, List.getD, List.getElem?_modify]
  by_cases hj : arr = j <;> cases h[j]? <;> simp [hj]

theorem Heap.set_length (h : Heap) (arr i : Nat) (b : UInt8) : List.length (h.set arr i b) = h.length := by
  simp [Heap.set]

/-- Events leave arrays not written to as they are. -/
theorem later_getD {lo hi : Nat} (es : List Event) : ∀ (h : Heap), Spared lo hi es → hi ≤ h.length →
    ∀ j, lo ≤ j → j < hi → (later h es).getD j [] = h.getD j [] := by
  induction es with
  | nil => intro h _ _ j _ _; rfl
  | cons e es ih =>
    intro h hs hl j h1 h2
    have hs' : Spared lo hi es := fun arr i b hm => hs arr i b (List.mem_cons_of_mem _ hm)
    rw [later, List.foldl_cons]
    cases e with
    | write arr i b =>
      refine (ih _ hs' (by rw [Event.run, Heap.set_length]; exact hl) j h1 h2).trans ?_
      have := hs arr i b (List.mem_cons_self ..)
      exact Heap.set_getD h arr i b j (by omega)
    | alloc bytes =>
      refine (ih _ hs' (by simp [Event.run]; omega) j h1 h2).trans ?_
      exact Heap.Ext.getD ⟨_, rfl⟩ (by omega)

theorem later_valid {r : Ref} (es : List Event) : ∀ (h : Heap), r.Valid h → r.Valid (later h es) := by
  induction es with
  | nil => intro h hr; exact hr
  | cons e es ih =>
    intro h hr
    refine ih _ ?_
    cases e with
    | write arr i b =>
      obtain ⟨h1, h2⟩ := hr
      refine ⟨h1, h2.imp_right fun h3 => ?_⟩
      rw [Event.run, Heap.set_length, Heap.set_getD_length]
      exact h3
    | alloc bytes => exact Heap.Ext.valid ⟨_, rfl⟩ hr

theorem Ref.Own.later_slice {n : Nat} {h1 : Heap} {r : Ref} (hr : r.Own n h1) {es : List Event}
    (hs : Spared n h1.length es) : (later h1 es).slice r = h1.slice r := by
  obtain ⟨h2, h3 | h3⟩ := hr
  · have : r.len = 0 := by have := h2.1; omega
    simp [Heap.slice, this, h3]
  · exact Heap.slice_congr h2 fun h4 => later_getD es h1 hs (Nat.le_refl _) _ h3 h4

theorem Ref.Own.later_bytes {n : Nat} {h1 : Heap} {r : Ref} (hr : r.Own n h1) {es : List Event}
    (hs : Spared n h1.length es) : (later h1 es).bytes r = h1.bytes r := by
  rw [Heap.bytes, hr.later_slice hs, Heap.bytes]

theorem LLC.Refs.Own.later_view {n : Nat} {h1 : Heap} {m : LLC.HMsg} (hr : m.s.Own n h1) {es : List Event}
    (hs : Spared n h1.length es) : m.view (later h1 es) = m.view h1 := by
  obtain ⟨v, s⟩ := m
  obtain ⟨h2, h3, h4⟩ := hr
  cases v <;> simp only [LLC.HMsg.view, LLC.ConfirmLink.on, LLC.AddLink.on, h2.later_bytes hs, h3.later_bytes hs,
    h4.later_bytes hs]

theorem RoCE.HRoCE.Own.later_view {n : Nat} {h1 : Heap} {m : RoCE.HRoCE} (hr : m.Own n h1) {es : List Event}
    (hs : Spared n h1.length es) :
    m.view (later h1 es) = { m.view h1 with ICRC := (later h1 es).slice m.ICRC } := by
  obtain ⟨typ, grh, bth, llc, crc⟩ := m
  obtain ⟨h2, h3, h4⟩ := hr
  simp only [RoCE.HRoCE.view, RoCE.HBTH.view, h3.later_bytes hs, h2.later_view hs]
  cases grh with
  | none => rfl
  | some g =>
    obtain ⟨h5, h6, h7⟩ := h4 g rfl
    simp only [Option.map_some, RoCE.HGRH.view, h5.later_bytes hs, h6.later_bytes hs, h7.later_bytes hs]

theorem CLC.Refs.Own.later_view {n : Nat} {h1 : Heap} {m : CLC.HMessage} (hr : m.s.Own n h1) {es : List Event}
    (hs : Spared n h1.length es) :
    m.view (later h1 es) = withRawHdr (m.view h1) ((later h1 es).slice m.s.raw) (m.view h1).hdr := by
  obtain ⟨v, s⟩ := m
  obtain ⟨h2, h3, h4, h5⟩ := hr
  have hp : CLC.prefixesOn (later h1 es) s.prefixes = CLC.prefixesOn h1 s.prefixes :=
    List.map_congr_left fun p hm => by rw [(h5 p hm).later_bytes hs]
  cases v <;> simp only [CLC.HMessage.view, withRawHdr, CLC.Message.hdr, CLC.Proposal.on, CLC.ProposalV2.on,
    CLC.AcceptSMCR.on, h2.later_bytes hs, h3.later_bytes hs, h4.later_bytes hs, hp]

theorem Ref.last4_bytes {h : Heap} {r : Ref} (hr : r.Valid h) (h4 : 4 ≤ r.len) :
    h.bytes r.last4 = lastFour (h.bytes r) := by
  have hl : (h.bytes r).length = r.len := Heap.len_slice hr
  rw [lastFour, hl]
  simp only [Heap.bytes, Heap.slice, Ref.last4, List.drop_take, List.drop_drop]
  rw [show r.off + (r.len - 4) = r.off + r.len - 4 by omega, show r.len - (r.len - 4) = 4 by omega]

end SMC
