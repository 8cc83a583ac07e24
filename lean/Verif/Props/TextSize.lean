import Verif.Lemmas.Fits
import Verif.Lemmas.Bits
import Verif.Props.CLCParse
import Verif.Props.RoCE
/-!
# C95: how long the texts of parsed messages are
-/

namespace SMC.Props
open SMC.Spec

/-- the numbers and addresses of a parsed LLC message are small -/
theorem parseLLC_small {s : Slice} {l : List Bytes} {m : LLC.Msg} (h : LLC.parseLLC s = .ret l m) : LLC.Small m := by
  obtain ⟨_, hw⟩ := C02_parseLLC_dispatch_partial s l m h
  have hc := C02_confirmRKeyCont_false s l m h
  have hnum : ∀ k, num s.vis k 0 8 < 256 := fun _ => num_lt
  have hraw : ∀ k n, (raw s.vis k n).length ≤ n := fun k n => List.length_take_le _ _
  cases m with
  | other m => exact trivial
  | confirmLink m =>
    exact ⟨hw.base.typ ▸ hnum _, hw.base.length ▸ hnum _, hw.mac ▸ hraw _ _, hw.gid ▸ hraw _ _⟩
  | addLink m =>
    exact ⟨hw.base.typ ▸ hnum _, hw.base.length ▸ hnum _, hw.mac ▸ hraw _ _, hw.gid ▸ hraw _ _⟩
  | confirmRKeyCont m => exact absurd rfl hc
  | addLinkCont m => exact ⟨hw.base.typ ▸ hnum _, hw.base.length ▸ hnum _⟩
  | deleteLink m => exact ⟨hw.base.typ ▸ hnum _, hw.base.length ▸ hnum _⟩
  | confirmRKey m => exact ⟨hw.base.typ ▸ hnum _, hw.base.length ▸ hnum _⟩
  | deleteRKey m => exact ⟨hw.base.typ ▸ hnum _, hw.base.length ▸ hnum _⟩
  | testLink m => exact ⟨hw.base.typ ▸ hnum _, hw.base.length ▸ hnum _⟩
  | cdc m => exact ⟨hw.base.typ ▸ hnum _, hw.base.length ▸ hnum _⟩

/-- C95 for LLC: the texts of whatever `ParseLLC` returns fit into 520 and 650 bytes -/
theorem C95_llc (s : Slice) (l : List Bytes) (m : LLC.Msg) (h : LLC.parseLLC s = .ret l m) :
    m.string.length ≤ 520 ∧ m.reserved.length ≤ 650 :=
  ⟨LLC.upto_string m (parseLLC_sized h).1 (parseLLC_small h),
    LLC.upto_reserved m (parseLLC_sized h).1 (parseLLC_small h)⟩

/-- a CDC message full of ones -/
example : ∃ m, LLC.parseLLC ⟨0xfe :: List.replicate 43 0xff, []⟩ = .ret [] m ∧ m.string.length = 395 ∧
    m.reserved.length = 498 :=
  ⟨_, rfl, by decide +kernel, by decide +kernel⟩

/-- C95 for BTH: the texts of any BTH fit into 400 bytes -/
theorem C95_bth (b : RoCE.BTH) :
    (∃ t, b.string = .ret [] t ∧ t.length ≤ 400) ∧ ∃ t, b.reserved = .ret [] t ∧ t.length ≤ 400 :=
  ⟨RoCE.bth_string_upto b, RoCE.bth_reserved_upto b⟩

example : ∃ b t, RoCE.parseBTH ⟨List.replicate 12 0xff, []⟩ = .ret [] b ∧ b.reserved = .ret [] t ∧ t.length = 186 :=
  ⟨_, _, rfl, rfl, by decide +kernel⟩

/-- C95 for GRH: the text of a parsed GRH fits into 300 bytes and the longest name of a protocol, also if the buffer was
too short to be decoded -/
theorem C95_grh (names : UInt8 → Bytes) (n : Nat) (hn : ∀ p, (names p).length ≤ n) (s : Slice) (l : List Bytes)
    (g : RoCE.GRH) (h : RoCE.parseGRH s = .ret l g) :
    (g.string names).length ≤ 300 + n ∧ (g.reserved names).length ≤ 300 + n := by
  have key : g.SrcIP.length ≤ 16 ∧ g.DstIP.length ≤ 16 := by
    unfold RoCE.parseGRH at h
    cases h
    unfold RoCE.decodeIPv6
    split
    · split
      · exact ⟨by decide, by decide⟩
      · exact ⟨List.length_take_le _ _, List.length_take_le _ _⟩
    · exact ⟨by decide, by decide⟩
  exact ⟨RoCE.grh_string_upto names hn g key.1 key.2, RoCE.grh_string_upto names hn g key.1 key.2⟩

example : ∃ g, RoCE.parseGRH ⟨List.replicate 40 0xff, []⟩ = .ret [] g ∧ (g.string fun _ => go! "TCP").length = 210 :=
  ⟨_, rfl, by decide +kernel⟩

theorem fits_fresh (k : CLCKind) : CLC.Fits (freshCLC k) ∧ CLC.prefixesOf (freshCLC k) = [] := by
  refine ⟨⟨sized_fresh k, ?_, ?_⟩, by cases k <;> rfl⟩
  · cases k <;> exact fun _ h => absurd h List.not_mem_nil
  · cases k <;> simp only [freshCLC] <;> decide

/-- C95 for CLC: the texts of a message parsed into a zero value fit into 1800 and 2100 bytes and 61 bytes for each
prefix, and each prefix takes 17 of the bytes the header declares.  So they are at most four times as long as the
message says it is, and a constant. -/
theorem C95_clc (k : CLCKind) (s : Slice) (l : List Bytes) (m : CLC.Message) (h : (freshCLC k).parse s = .ret l m) :
    17 * (CLC.prefixesOf m).length ≤ m.hdr.Length.toNat ∧
    m.string.length ≤ 1800 + 61 * (CLC.prefixesOf m).length ∧
    m.reserved.length ≤ 2100 + 61 * (CLC.prefixesOf m).length ∧
    m.string.length ≤ 1800 + 4 * m.hdr.Length.toNat ∧ m.reserved.length ≤ 2100 + 4 * m.hdr.Length.toNat := by
  obtain ⟨hf, hn⟩ := CLC.fits_message _ (fits_fresh k).1 s _ _ h
  rw [(fits_fresh k).2] at hn
  obtain ⟨h1, h2⟩ := CLC.upto_clc m hf
  have h1 : m.string.length ≤ _ := h1
  have h2 : m.reserved.length ≤ _ := h2
  simp only [List.length_nil] at hn
  exact ⟨by omega, h1, h2, by omega, by omega⟩

/-- C95 for a message that is used again: it keeps its prefixes, and each call adds at most one for 17 bytes declared -/
theorem C95_clc_again (m m' : CLC.Message) (hm : CLC.Fits m) (s : Slice) (l : List Bytes) (h : m.parse s = .ret l m') :
    CLC.Fits m' ∧ 17 * (CLC.prefixesOf m').length ≤ 17 * (CLC.prefixesOf m).length + m'.hdr.Length.toNat ∧
    m'.string.length ≤ 1800 + 61 * (CLC.prefixesOf m').length ∧
    m'.reserved.length ≤ 2100 + 61 * (CLC.prefixesOf m').length := by
  obtain ⟨hf, hn⟩ := CLC.fits_message _ hm s _ _ h
  exact ⟨hf, hn, CLC.upto_clc m' hf⟩

/-- a Proposal of version 2 with a prefix, all its other bytes ones -/
example : ∃ l m, (freshCLC .proposalV2).parse
      ⟨hex! "e2 d4 c3 d9 01 00 6d 28" ++ List.replicate 79 0xff ++ [1] ++ List.replicate 17 0xff ++ zeros 4, []⟩
      = .ret l m ∧ (CLC.prefixesOf m).length = 1 ∧ m.hdr.Length = 109 ∧ m.string.length = 463 ∧ m.reserved.length = 551 := by
  refine ⟨_, _, rfl, ?_⟩
  decide +kernel

/-- a Proposal with a prefix that is parsed into a Proposal that has one already -/
example : CLC.Fits (.proposal { IPv6Prefixes := [{ pfx := zeros 16, prefixLen := 64 }] }) ∧
    ∃ m', (CLC.Message.proposal { IPv6Prefixes := [{ pfx := zeros 16, prefixLen := 64 }] }).parse
      ⟨hex! "e2 d4 c3 d9 01 00 45 10" ++ zeros 39 ++ [1] ++ zeros 17 ++ hex! "e2 d4 c3 d9", []⟩ = .ret [] m' ∧
      (CLC.prefixesOf m').length = 2 := by
  refine ⟨⟨?_, ?_, ?_⟩, _, rfl, by decide +kernel⟩
  · unfold Sized; decide
  · exact fun p hp => by rw [List.mem_singleton.1 hp]; decide
  · decide

end SMC.Props
