import Verif.Props.LLCParse
import Verif.Props.RoCE
/-!
# C88: type codes tell messages and headers apart
-/

namespace SMC.Props

open SMC.Spec SMC.LLC SMC.RoCE

/-- the code of a parsed message: that of its kind, or the one for other payload -/
theorem getType_code (s : Slice) (l : List Bytes) (m : Msg) (h : parseLLC s = .ret l m) :
    (m.getType, kindOf m) ∈ (0x101, Kind.other) :: codes := by
  by_cases hk : kindOf m = .other
  · rw [(C02_parseLLC_dispatch_partial s l m h).1] at hk
    obtain ⟨m', hm, hk', ht, -⟩ := C03_other s hk
    rw [hm] at h
    cases h
    rw [ht, hk']
    exact List.mem_cons_self
  · exact List.mem_cons_of_mem _ (C15_getType s l m h hk).2.2

/-- **C88**: two parsed messages have the same type code exactly if they are of the same kind. -/
theorem C88_kinds (s t : Slice) (l k : List Bytes) (m n : Msg) (hm : parseLLC s = .ret l m)
    (hn : parseLLC t = .ret k n) : m.getType = n.getType ↔ kindOf m = kindOf n := by
  have key : ∀ a ∈ (0x101, Kind.other) :: codes, ∀ b ∈ (0x101, Kind.other) :: codes, (a.1 = b.1 ↔ a.2 = b.2) := by
    decide
  exact key _ (getType_code s l m hm) _ (getType_code t k n hn)

/-- two messages, of kinds Test Link and other -/
example : ∃ m n, parseLLC ⟨7 :: 44 :: zeros 42, []⟩ = .ret [] m ∧ parseLLC ⟨7 :: 44 :: zeros 41, []⟩ = .ret [] n ∧
    m.getType = 7 ∧ n.getType = 0x101 := by
  obtain ⟨m, hm, hk⟩ := C02_parseLLC_returns_partial ⟨7 :: 44 :: zeros 42, []⟩ (by decide)
  obtain ⟨n, hn, -, ht, -⟩ := C03_other ⟨7 :: 44 :: zeros 41, []⟩ (by decide)
  refine ⟨m, n, hm, hn, ?_, ht⟩
  have := (C15_getType _ _ _ hm (by rw [hk]; decide)).1
  exact (Option.some.inj this).symm

/-- **C88**: headers have codes of their own: GRHs 0x102, BTHs 0x103, and no message has these. -/
theorem C88_headers (g : GRH) (b : BTH) (s : Slice) (l : List Bytes) (m : Msg) (h : parseLLC s = .ret l m) :
    g.getType = 0x102 ∧ b.getType = 0x103 ∧ m.getType ≠ g.getType ∧ m.getType ≠ b.getType := by
  have key : ∀ a ∈ (0x101, Kind.other) :: codes, a.1 ≠ 0x102 ∧ a.1 ≠ 0x103 := by decide
  exact ⟨rfl, rfl, key _ (getType_code s l m h)⟩

/-- **C88**: so the parts of a packet all have different codes. -/
theorem C88_packet (s : Slice) (l : List Bytes) (r : RoCE) (h : parseRoCEv1 s = .ret l r ∨ parseRoCEv2 s = .ret l r) :
    ((r.GRH.map GRH.getType).toList ++ [r.BTH.getType, r.LLC.getType]).Nodup := by
  have hl : ∃ t k, parseLLC t = .ret k r.LLC := by
    rcases h with h | h
    · obtain ⟨-, g, bs, gr, -, -, -, -, ⟨b, p, c, -, -, -, -, hp, -⟩, -⟩ := C22_v1_cut s l r h
      exact ⟨_, _, hp []⟩
    · obtain ⟨-, ⟨b, p, c, -, -, -, -, hp, -⟩, -⟩ := C22_v2_cut s l r h
      exact ⟨_, _, hp []⟩
  obtain ⟨t, k, ht⟩ := hl
  obtain ⟨-, -, h1, h2⟩ := C88_headers {} r.BTH t k r.LLC ht
  cases r.GRH <;> simp_all [GRH.getType, BTH.getType, typeGRH, typeBTH] <;> omega

/-- a packet of 56 bytes with all three parts -/
example : ∃ r, parseRoCEv1 ⟨zeros 56, []⟩ = .ret [] r ∧ r.GRH.isSome := by
  exact ⟨_, rfl, rfl⟩

end SMC.Props
