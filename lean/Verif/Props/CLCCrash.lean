import Verif.Props.CLCReuse
import Verif.Lemmas.Crash
/-!
# C45: exactly when parsing panics
-/

namespace SMC.Props

open SMC Spec CLC

theorem Needs.first {α β : Type} {n : Nat} {s : Slice} {x : Go α} {f : α → Go β} (h : Needs n s x) :
    Needs n s (x >>= f) := by
  intro l b hb
  obtain ⟨_, _, _, h1, _, _⟩ := (Go.bind_eq_ret _ _ _ _).1 hb
  exact h _ _ h1

/-- `Parse` of every kind starts with the header. -/
theorem parse_needs (m : Message) (s : Slice) : Needs 8 s (m.parse s) := by
  cases m <;> exact Needs.first (Needs.first (header_needs _ s))

/-- C45, exactly: when `Parse` panics, for every kind of message, every buffer and every
capacity. -/
theorem C45_crashes (m : Message) (hm : Sized m) (s : Slice) : (m.parse s).Panics ↔ ParseCrashes (clcKind m) s := by
  unfold ParseCrashes
  by_cases hs : s.len < 8
  · exact ⟨fun _ => .inl hs, fun _ => (parse_needs m s).panics hs⟩
  have h8 : 8 ≤ s.len := by omega
  cases m
  case proposal m =>
    exact ((map_panics _ _).trans (proposal_panics s.vis s.extra h8 m hm)).trans ⟨.inr, fun h => h.resolve_left hs⟩
  case proposalV2 m =>
    exact ((map_panics _ _).trans (proposalV2_panics s.vis s.extra h8 m hm)).trans ⟨.inr, fun h => h.resolve_left hs⟩
  all_goals
    exact (C45_panics_iff _ hm (by simp [clcKind]) (by simp [clcKind]) s h8).trans ⟨.inr, fun h => h.resolve_left hs⟩

/-- a Proposal that declares 1000 bytes and announces `n` prefixes, cut off after 54 bytes -/
def cutProposal (n : UInt8) : Bytes := hex! "e2 d4 c3 d9 01 03 e8 10" ++ zeros 39 ++ [n] ++ zeros 6

/-- the announced prefix is cut off: index out of range -/
example : ParseCrashes .proposal ⟨cutProposal 1, []⟩ := by
  refine Or.inr ?_
  dsimp only [CrashesV1, Overdump]
  decide +kernel

/-- no prefix is announced: nothing behind the buffer is read -/
example : ¬ ParseCrashes .proposal ⟨cutProposal 0, []⟩ := by
  dsimp only [ParseCrashes, CrashesV1, Overdump]
  decide +kernel

/-- a version 2 Proposal that declares 100 bytes, cut off after 82 bytes -/
example : ¬ ParseCrashes .proposalV2 ⟨hex! "e2 d4 c3 d9 01 00 64 2a" ++ zeros 74, []⟩ := by
  dsimp only [ParseCrashes, CrashesV2, CrashesIP, CrashesExt, CrashesSMCD, Overdump]
  decide +kernel

example : ParseCrashes .proposalV2 ⟨hex! "e2 d4 c3 d9 01 00 64 28" ++ zeros 74, []⟩ := by
  dsimp only [ParseCrashes, CrashesV2, CrashesIP, CrashesExt, CrashesSMCD, Overdump]
  decide +kernel

end SMC.Props
