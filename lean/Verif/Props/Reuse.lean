import Verif.Lemmas.RoCE
import Verif.Props.RoCE
/-!
# C110: RoCE headers that are parsed again
-/

namespace SMC.Props
open SMC SMC.RoCE SMC.Spec

/-- **C110** The Base Transport Header: whatever was in it before, `Parse` gives the header that a new one would have, or panics
if a new one would. -/
theorem C110_bth (b : BTH) (s : Slice) : (b.parse s).val? = (parseBTH s).val? ∧ (12 ≤ s.len → b.parse s = parseBTH s) := by
  have h12 : 12 ≤ s.len → b.parse s = parseBTH s := by
    obtain ⟨v, e⟩ := s
    intro h
    rw [parseBTH, bth_parse b v e h, bth_parse {} v e h]
  refine ⟨?_, h12⟩
  by_cases h : 12 ≤ s.len
  · rw [h12 h]
  · have short : ∀ b : BTH, (b.parse s).val? = none := by
      intro b
      cases e : b.parse s with
      | ret l a => exact absurd (bth_needs b s l a e) h
      | panic l => rfl
    rw [parseBTH, short, short]

/-- a header of another packet is in it -/
example : ∃ b : BTH, b ≠ {} ∧ b.parse ⟨List.replicate 11 1, []⟩ = .panic [] ∧
    (b.parse ⟨hex! "64 40 ffff 00 0000e4 80 000001", []⟩).val?.map (·.PSN) = some 1 :=
  ⟨{ PSN := 0xffffff, res1 := 3 }, by decide, by decide +kernel, by decide +kernel⟩

/-- **C110** The Global Routing Header: whatever was in it before, `Parse` gives the header that a new one would have, unless gopacket
panics on options behind the header; then it stays as it was. -/
theorem C110_grh (panics : Bytes → Bool) (g : GRH) (s : Slice) :
    (s.len ≤ 40 ∨ num s.vis 6 0 8 ≠ 0 ∨ panics (s.vis.drop 40) = false → g.parse panics s = parseGRH s) ∧
    (g.parse panics s = parseGRH s ∨ g.parse panics s = .ret [] g) := by
  unfold GRH.parse ipv6Layer parseGRH
  constructor
  · intro h
    rw [if_neg]
    rintro ⟨h1, h2, h3⟩
    rcases h with h | h | h
    · exact absurd h2 (by simp only [Slice.len] at h; omega)
    · obtain ⟨g', e, w⟩ := C26_grh_wire s (by simp only [Slice.len]; omega)
      cases e
      exact h (by rw [← w.nextHeader, h1]; rfl)
    · rw [h] at h3
      cases h3
  · by_cases h : (decodeIPv6 s.vis).NextHeader = 0 ∧ 40 < s.vis.length ∧ panics (s.vis.drop 40) = true
    · exact .inr (by rw [if_pos h]; rfl)
    · exact .inl (by rw [if_neg h])

/-- C110 The headers of RoCEv1 packets are 40 bytes long, so it does not matter whether gopacket panics. A header that is too short
leaves nothing of the one before, and neither is it an error: all fields are zero. -/
theorem C110_packets (panics : Bytes → Bool) (g : GRH) (s : Slice) (h : s.len ≤ 40) :
    g.parse panics s = parseGRH s ∧ (s.len < 40 → g.parse panics s = .ret [] {}) := by
  have e := (C110_grh panics g s).1 (.inl h)
  refine ⟨e, fun hs => ?_⟩
  rw [e, parseGRH]
  unfold decodeIPv6
  split
  · rw [if_pos (show s.vis.length < 40 from hs)]
    rfl
  · rfl

/-- options on which the decoder panics; the same without them; a header of 39 bytes -/
example : ∃ (g : GRH) (v : Bytes), g ≠ {} ∧ v.length = 40 ∧
    g.parse (fun _ => true) ⟨v ++ hex! "3a00", []⟩ = .ret [] g ∧ parseGRH ⟨v ++ hex! "3a00", []⟩ ≠ .ret [] g ∧
    (g.parse (fun _ => true) ⟨v, []⟩).val?.map (·.Version) = some 6 ∧
    g.parse (fun _ => true) ⟨v.take 39, []⟩ = .ret [] {} :=
  ⟨{ HopLimit := 7 }, 0x60 :: zeros 39, by decide, by decide, by decide +kernel, by decide +kernel, by decide +kernel, by decide +kernel⟩

end SMC.Props
