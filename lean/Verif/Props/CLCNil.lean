import Verif.CLC.Nil
import Verif.Spec.CLC
/-!
# C85: nil messages
-/

namespace SMC.Props

open SMC Spec CLC

/-- a nil pointer of a kind -/
def nilOf : CLCKind → Pointer
  | .proposal => .proposal none
  | .proposalV2 => .proposalV2 none
  | .acceptSMCR => .acceptSMCR none
  | .acceptSMCD => .acceptSMCD none
  | .acceptSMCDv2 => .acceptSMCDv2 none
  | .confirmSMCR => .confirmSMCR none
  | .confirmSMCD => .confirmSMCD none
  | .confirmSMCDv2 => .confirmSMCDv2 none
  | .decline => .decline none
  | .declineV2 => .declineV2 none

/-- the kinds whose methods are promoted from an embedded struct -/
def isConfirm (k : CLCKind) : Prop := k = .confirmSMCR ∨ k = .confirmSMCD ∨ k = .confirmSMCDv2

/-- C85 for all kinds but Confirm: the texts of a nil message are `n/a`. -/
theorem C85_nil_partial (k : CLCKind) (h : ¬ isConfirm k) :
    (nilOf k).string = .ret [] (go! "n/a") ∧ (nilOf k).reserved = .ret [] (go! "n/a") := by
  cases k <;> first | exact ⟨rfl, rfl⟩ | exact absurd (by simp [isConfirm]) h

example : ¬ isConfirm .decline := by simp [isConfirm]

/-- C85 is false for Confirm messages: both methods panic. -/
theorem C85_nil_false (k : CLCKind) (h : isConfirm k) :
    (nilOf k).string = .panic [] ∧ (nilOf k).reserved = .panic [] := by
  rcases h with rfl | rfl | rfl <;> exact ⟨rfl, rfl⟩

example : isConfirm .confirmSMCDv2 := .inr (.inr rfl)

/-- C85: pointers that are not nil print what they point to, of every kind. -/
theorem C85_texts (p : Pointer) (m : Message) (h : p.message = some m) :
    p.string = .ret [] m.string ∧ p.reserved = .ret [] m.reserved := by
  cases p <;> rename_i p <;> cases p <;> cases h <;> exact ⟨rfl, rfl⟩

example : Pointer.message (.confirmSMCR (some {})) = some (.confirmSMCR {}) := rfl

/-- C85: a pointer panics in `String` or `Reserved` exactly if it is a nil Confirm message. -/
theorem C85_panics_iff (p : Pointer) :
    (p.string.Panics ↔ ∃ k, isConfirm k ∧ p = nilOf k) ∧ (p.reserved.Panics ↔ ∃ k, isConfirm k ∧ p = nilOf k) := by
  have hr : ∀ b : Bytes, ¬ Go.Panics (.ret [] b) := fun b ⟨_, h⟩ => nomatch h
  have hp : Go.Panics (.panic [] : Go Bytes) := ⟨[], rfl⟩
  have no : ∀ q : Pointer, (∀ k, isConfirm k → q ≠ nilOf k) → ∀ x, x = Go.ret [] (go! "n/a") ∨ (∃ b, x = Go.ret [] b) →
      (x.Panics ↔ ∃ k, isConfirm k ∧ q = nilOf k) := by
    intro q hq x hx
    constructor
    · rcases hx with rfl | ⟨b, rfl⟩ <;> exact fun h => absurd h (hr _)
    · rintro ⟨k, hk, rfl⟩; exact absurd rfl (hq k hk)
  have yes : ∀ k, isConfirm k → ((nilOf k).string.Panics ↔ ∃ k', isConfirm k' ∧ nilOf k = nilOf k') ∧
      ((nilOf k).reserved.Panics ↔ ∃ k', isConfirm k' ∧ nilOf k = nilOf k') := by
    intro k hk
    rw [(C85_nil_false k hk).1, (C85_nil_false k hk).2]
    exact ⟨⟨fun _ => ⟨k, hk, rfl⟩, fun _ => hp⟩, ⟨fun _ => ⟨k, hk, rfl⟩, fun _ => hp⟩⟩
  have ne : ∀ q : Pointer, (∀ k, isConfirm k → q ≠ nilOf k) → (∃ b, q.string = .ret [] b) → (∃ b, q.reserved = .ret [] b) →
      (q.string.Panics ↔ ∃ k, isConfirm k ∧ q = nilOf k) ∧ (q.reserved.Panics ↔ ∃ k, isConfirm k ∧ q = nilOf k) :=
    fun q hq h1 h2 => ⟨no q hq _ (.inr h1), no q hq _ (.inr h2)⟩
  cases p with
  | confirmSMCR p =>
    cases p
    · exact yes .confirmSMCR (.inl rfl)
    · exact ne _ (by rintro k (rfl | rfl | rfl) h <;> cases h) ⟨_, rfl⟩ ⟨_, rfl⟩
  | confirmSMCD p =>
    cases p
    · exact yes .confirmSMCD (.inr (.inl rfl))
    · exact ne _ (by rintro k (rfl | rfl | rfl) h <;> cases h) ⟨_, rfl⟩ ⟨_, rfl⟩
  | confirmSMCDv2 p =>
    cases p
    · exact yes .confirmSMCDv2 (.inr (.inr rfl))
    · exact ne _ (by rintro k (rfl | rfl | rfl) h <;> cases h) ⟨_, rfl⟩ ⟨_, rfl⟩
  | _ p => cases p <;> exact ne _ (by rintro k (rfl | rfl | rfl) h <;> cases h) ⟨_, rfl⟩ ⟨_, rfl⟩

/-- C85: `Dump` and `Parse` have no such check and panic on every nil message. -/
theorem C85_dump_parse (k : CLCKind) (s : Slice) :
    (nilOf k).dump = .panic [] ∧ (nilOf k).parse s = .panic [] := by
  cases k <;> exact ⟨rfl, rfl⟩

end SMC.Props
