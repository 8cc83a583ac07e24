import Verif.Spec.RoCE
import Verif.Lemmas.RoCE
import Verif.Lemmas.Bits
import Verif.Lemmas.Text
import Verif.Props.LLCParse
/-!
# C22–C27: RoCE packets
-/

namespace SMC.Props

open SMC Spec RoCE

/-! ## C23 -/

/-- C23: every field of the BTH, for every receiver and every slice that holds a header. -/
theorem C23_bth_wire (b : BTH) (s : Slice) (hs : 12 ≤ s.len) :
    ∃ m, b.parse s = .ret [] m ∧ WireBTH s.vis m := by
  obtain ⟨v, e⟩ := s
  simp only [Slice.len_mk] at hs
  refine ⟨_, bth_parse b v e hs, ⟨?_, ?_, ?_, ?_, ?_, ?_, ?_, ?_, ?_, ?_, ?_, ?_, ?_, ?_⟩⟩
  all_goals wire_field

/-- shorter headers panic -/
theorem C23_bth_panics_iff (b : BTH) (s : Slice) : Go.Panics (b.parse s) ↔ s.len < 12 :=
  (bth_needs b s).panics_iff fun h => ⟨_, bth_parse b s.vis s.extra h⟩

example : 12 ≤ (⟨hex! "04 40 ff ff 00 00 01 07 80 00 00 05", []⟩ : Slice).len ∧
    num (hex! "04 40 ff ff 00 00 01 07 80 00 00 05") 5 0 24 = 263 := by decide +kernel

/-! ## C24 -/

/-- C24, lossless: the fields in wire order are the bits of the header. -/
theorem C24_bth_lossless (s : Slice) (hs : s.len = 12) :
    ∃ m, parseBTH s = .ret [] m ∧ bitsBTH m = toBits s.vis ∧ pack (bitsBTH m) = s.vis ∧ FitsBTH m ∧ m.Raw = s.vis := by
  obtain ⟨m, hm, hw⟩ := C23_bth_wire {} s (by omega)
  have hl : s.vis.length = 12 := hs
  have key : bitsBTH m = toBits s.vis := by
    unfold bitsBTH
    rw [hw.opcode, hw.se, hw.m, hw.pad, hw.tver, hw.pkey, hw.fecn, hw.becn, hw.res1, hw.destQP, hw.a, hw.res2, hw.psn]
    bit_join
    exact seg_all (by rw [toBits_length, hl])
  exact ⟨m, hm, key, by rw [key, pack_toBits],
    ⟨hw.pad ▸ num_lt, hw.tver ▸ num_lt, hw.res1 ▸ num_lt, hw.destQP ▸ num_lt, hw.res2 ▸ num_lt, hw.psn ▸ num_lt⟩, hw.raw⟩

theorem bitsBTH_length (b : BTH) : (bitsBTH b).length = 8 * 12 := by simp [bitsBTH]

theorem bitsBTH_inj {a b : BTH} (ha : FitsBTH a) (hb : FitsBTH b) (h : bitsBTH a = bitsBTH b) :
    a = { b with Raw := a.Raw } := by
  obtain ⟨a1, a2, a3, a4, a5, a6⟩ := ha
  obtain ⟨b1, b2, b3, b4, b5, b6⟩ := hb
  bit_fields [bitsBTH] at h
  cases a; cases b; simp_all

/-- C24, round trip: decoding the encoding of field values gives these values back. -/
theorem C24_bth_roundtrip (b : BTH) (hb : FitsBTH b) (v e : Bytes) (hv : v = pack (bitsBTH b)) :
    parseBTH ⟨v, e⟩ = .ret [] { b with Raw := v } := by
  have hl : v.length = 12 := by rw [hv]; exact pack_length 12 _ (bitsBTH_length b)
  have ht : toBits v = bitsBTH b := by rw [hv]; exact toBits_pack 12 _ (bitsBTH_length b)
  clear hv
  obtain ⟨m, hm, h1, _, hf, hr⟩ := C24_bth_lossless ⟨v, e⟩ hl
  rw [hm, bitsBTH_inj hf hb (h1.trans ht), hr]

example : FitsBTH { Opcode := 4, M := true, PKey := 0xffff, DestQP := 263, A := true, PSN := 5 } ∧
    pack (bitsBTH { Opcode := 4, M := true, PKey := 0xffff, DestQP := 263, A := true, PSN := 5 })
      = hex! "04 40 ff ff 00 00 01 07 80 00 00 05" :=
  ⟨⟨by decide, by decide, by decide, by decide, by decide, by decide⟩, by decide +kernel⟩

/-! ## C25 -/

/-- C25: the text of every opcode; it never panics. -/
theorem C25_opcode_text : ∀ o : UInt8,
    opcodeStr o = .ret [] (go! "0b" ++ binaryText o ++ go! " (" ++ opcodeName o ++ go! ")") := by
  byte_decide

/-- C25: distinct opcodes have distinct texts. -/
theorem C25_opcode_injective (a b : UInt8) (h : opcodeStr a = opcodeStr b) : a = b := by
  have bin : ∀ o : UInt8, go! "0b" ++ binaryText o = binInt o.toNat := by byte_decide
  rw [C25_opcode_text, C25_opcode_text, bin, bin] at h
  have h := (Go.ret.inj h).2
  simp only [List.append_assoc] at h
  rw [binInt_sep (by decide), UInt8.toNat_inj] at h
  exact h.1

example : opcodeStr 4 = .ret [] (go! "0b100 (RC SEND Only)") := by decide +kernel

/-! ## C73 -/

/-- the text of an opcode -/
theorem opcodeStr_ret (o : UInt8) : ∃ x, opcodeStr o = .ret [] x ∧ (44 : UInt8) ∉ x := by
  refine ⟨_, C25_opcode_text o, ?_⟩
  revert o; byte_decide

/-- C73: two BTHs with the same text agree on every field that is not reserved; and there is
a text for every BTH. -/
theorem C73_bth_string (a b : BTH) : (∃ t, a.string = .ret [] t) ∧
    (a.string = b.string → { a with Raw := [], res1 := 0, res2 := 0 } = { b with Raw := [], res1 := 0, res2 := 0 }) := by
  obtain ⟨x, hx, nx⟩ := opcodeStr_ret a.Opcode
  obtain ⟨y, hy, ny⟩ := opcodeStr_ret b.Opcode
  constructor
  · simp only [BTH.string, hx, Go.ret_bind, Go.pure_eq]; exact ⟨_, rfl⟩
  · intro h
    simp only [BTH.string, hx, hy, Go.ret_bind, Go.pure_eq, Go.ret.injEq, true_and] at h
    fields [str_sep, UInt8.toNat_inj, UInt16.toNat_inj, UInt32.toNat_inj, and_true] at h
    obtain ⟨h1, h⟩ := h
    have ho : a.Opcode = b.Opcode := C25_opcode_injective _ _ (by rw [hx, hy, h1])
    cases a; cases b; simp_all

/-- C73: two BTHs with the same `Reserved()` agree on every field. -/
theorem C73_bth_reserved (a b : BTH) : (∃ t, a.reserved = .ret [] t) ∧
    (a.reserved = b.reserved → { a with Raw := [] } = { b with Raw := [] }) := by
  obtain ⟨x, hx, nx⟩ := opcodeStr_ret a.Opcode
  obtain ⟨y, hy, ny⟩ := opcodeStr_ret b.Opcode
  constructor
  · simp only [BTH.reserved, hx, Go.ret_bind, Go.pure_eq]; exact ⟨_, rfl⟩
  · intro h
    simp only [BTH.reserved, hx, hy, Go.ret_bind, Go.pure_eq, Go.ret.injEq, true_and] at h
    fields [str_sep, UInt8.toNat_inj, UInt16.toNat_inj, UInt32.toNat_inj, and_true] at h
    obtain ⟨h1, h⟩ := h
    have ho : a.Opcode = b.Opcode := C25_opcode_injective _ _ (by rw [hx, hy, h1])
    cases a; cases b; simp_all

/-- C73: reserved fields and raw bytes do not show in the text. -/
theorem C73_bth_string_ignores (b : BTH) (raw : Bytes) (r1 r2 : UInt8) :
    { b with Raw := raw, res1 := r1, res2 := r2 }.string = b.string := rfl

/-- two headers with the same text that differ in a reserved field -/
example : BTH.string { Opcode := 4, res1 := 1 } = BTH.string { Opcode := 4 } := rfl

/-! ## C74 -/

/-- C74: the LLC and RoCE parsers do not depend on bytes beyond the length of the slice. -/
theorem C74_spare_llc (v e e' : Bytes) : LLC.parseLLC ⟨v, e⟩ = LLC.parseLLC ⟨v, e'⟩ := LLC.parseLLC_extra v e e'

/-- a slice whose spare capacity would complete a message -/
example : LLC.parseLLC ⟨zeros 43, [1]⟩ = LLC.parseLLC ⟨zeros 43, []⟩ := C74_spare_llc _ _ _

/-! ## C26 -/

theorem decodeIPv6_eq (v : Bytes) (h : 40 ≤ v.length) : decodeIPv6 v = {
    Version := v[0] >>> 4, TrafficClass := (v[0] <<< 4) ||| (v[1] >>> 4)
    FlowLabel := u24 (v[1] &&& 0x0f) v[2] v[3], Length := u16 v[4] v[5], NextHeader := v[6], HopLimit := v[7]
    SrcIP := raw v 8 16, DstIP := raw v 24 16, Contents := v.take 40 } := by
  match v, h with
  | b0 :: b1 :: b2 :: b3 :: b4 :: b5 :: b6 :: b7 :: r, h =>
    have : ¬ (b0 :: b1 :: b2 :: b3 :: b4 :: b5 :: b6 :: b7 :: r).length < 40 := by omega
    simp only [decodeIPv6, this, if_false]
    rfl

/-- C26: the fields of the GRH are those of the IPv6 header. -/
theorem C26_grh_wire (s : Slice) (hs : 40 ≤ s.len) : ∃ g, parseGRH s = .ret [] g ∧ WireGRH s.vis g := by
  obtain ⟨v, e⟩ := s
  simp only [Slice.len_mk] at hs
  refine ⟨_, rfl, ?_⟩
  rw [decodeIPv6_eq v hs]
  have two : ∀ a b : UInt8, ((a <<< 4) ||| (b >>> 4)).toNat = a.toNat % 16 * 16 + b.toNat / 16 := by
    intro a b
    have ha := a.toNat_lt; have hb := b.toNat_lt
    rw [UInt8.toNat_or, UInt8.toNat_shiftLeft, UInt8.toNat_shiftRight, Nat.or_comm]
    rw [show (4 : UInt8).toNat % 8 = 4 from rfl, Nat.shiftRight_eq_div_pow, Nat.shiftLeft_eq]
    rw [show a.toNat * 2 ^ 4 % 2 ^ 8 = (a.toNat % 16) <<< 4 by rw [Nat.shiftLeft_eq]; omega]
    rw [or_shift _ _ 4 (by omega)]; omega
  have lo : ∀ b : UInt8, ofBits (((byteBits b).drop 4).take 4) = b.toNat % 16 := by byte_decide
  have hi : ∀ b : UInt8, ofBits (((byteBits b).drop 0).take 4) = b.toNat / 16 := by byte_decide
  have low : ∀ b : UInt8, (b &&& 0x0f).toNat = b.toNat % 16 := by byte_decide
  refine ⟨?_, ?tc, ?fl, ?_, ?_, ?_, ?_, ?_, ?_⟩
  case tc =>
    simp only []
    rw [two, num_add v 0 4 4 4 (by omega), show 4 + 4 = 8 * 1 + 0 from rfl, num_shift,
      num_byte v 0 4 4 (by omega) (by omega), num_byte v (0 + 1) 0 4 (by omega) (by omega), lo, hi]
  case fl =>
    simp only []
    rw [u24_toNat, low, num_add v 1 4 4 16 (by omega), show 4 + 4 = 8 * 1 + 0 from rfl, num_shift,
      num_byte v 1 4 4 (by omega) (by omega), num_16 v (1 + 1) (by omega), lo]
    simp only [Nat.reduceAdd]
    omega
  all_goals wire_field

/-- C26: the next header is shown as `BTH` exactly for 0x1B. `name` is gopacket's name of an
IP protocol; it has no protocol called `BTH`. -/
theorem C26_grh_next (name : UInt8 → Bytes) (hn : ∀ p, name p ≠ go! "BTH") (g : GRH) :
    (g.string name = grhText (go! "BTH") g ↔ g.NextHeader = 0x1B) ∧
    (g.NextHeader ≠ 0x1B → g.string name = grhText (name g.NextHeader) g) := by
  have key : g.string name = grhText (if g.NextHeader = 0x1B then go! "BTH" else name g.NextHeader) g := by
    unfold GRH.string grhText BTHNextHeader
    unfmt [ne_eq, ite_not, List.append_nil]
  refine ⟨?_, fun h => by rw [key, if_neg h]⟩
  by_cases h : g.NextHeader = 0x1B
  · simp [key, h]
  · rw [key, if_neg h]
    simp only [h, iff_false]
    intro hx
    unfold grhText at hx
    simp only [List.append_assoc, List.append_cancel_left_eq, List.append_cancel_right_eq] at hx
    exact hn _ hx

example : 40 ≤ (⟨hex! "60 00 00 00 00 48 1b ff fe 80 00 00 00 00 00 00 9a 03 9b ff fe ab cd ef fe 80 00 00 00 00 00 00 9a 03 9b ff fe ab cd ee", []⟩ : Slice).len ∧
    num (hex! "60 00 00 00 00 48 1b ff fe 80 00 00 00 00 00 00 9a 03 9b ff fe ab cd ef fe 80 00 00 00 00 00 00 9a 03 9b ff fe ab cd ee") 6 0 8 = 0x1B := by
  decide +kernel

/-! ## C22 -/

/-- What is asked of a parsed packet `bs` without GRH: its parts are decoded, and the payload
is handed to `ParseLLC` as it is, whatever the spare capacity of the slices. -/
structure Decoded (bs : Bytes) (l : List Bytes) (r : RoCE) : Prop where
  cut : ∃ b p c, bs = b ++ p ++ c ∧ b.length = 12 ∧ c.length = 4 ∧ WireBTH b r.BTH ∧
    (∀ e, LLC.parseLLC ⟨p, e⟩ = .ret l r.LLC) ∧ r.ICRC.vis = c

/-- the payload of a packet without GRH -/
theorem parseRest_decoded (typ : Bytes) (g : Option GRH) (v e : Bytes) (h : 16 ≤ v.length) :
    (Go.Panics (parseRest typ g v e) ↔ Go.Panics (LLC.parseLLC ⟨raw v 12 (v.length - 16), []⟩)) ∧
    ∀ l r, parseRest typ g v e = .ret l r → Decoded v l r ∧ r.Typ = typ ∧ r.GRH = g := by
  unfold parseRest
  obtain ⟨b, hb, hw⟩ := C23_bth_wire {} ⟨v.take 12, []⟩ (by simp; omega)
  rw [hb, Go.ret_bind]
  have hraw : (v.drop 12).take (v.length - 16) = raw v 12 (v.length - 16) := rfl
  rw [hraw]
  have hcut : v = v.take 12 ++ raw v 12 (v.length - 16) ++ v.drop (v.length - 4) := by
    have h1 : v.drop 12 = raw v 12 (v.length - 16) ++ v.drop (v.length - 4) := by
      have := (List.take_append_drop (v.length - 16) (v.drop 12)).symm
      rw [List.drop_drop, show 12 + (v.length - 16) = v.length - 4 by omega] at this
      exact this
    rw [List.append_assoc, ← h1, List.take_append_drop]
  cases hp : LLC.parseLLC ⟨raw v 12 (v.length - 16), []⟩ with
  | panic l =>
    refine ⟨⟨fun _ => ⟨l, rfl⟩, fun _ => ⟨l, rfl⟩⟩, ?_⟩
    intro l r hr
    cases hr
  | ret l m =>
    refine ⟨⟨fun ⟨l', h'⟩ => ?_, fun ⟨l', h'⟩ => ?_⟩, ?_⟩
    · simp [Bind.bind, Go.bind] at h'
    · cases h'
    · intro l' r hr
      simp only [Bind.bind, Go.bind, Go.pure_eq, List.append_nil, Go.ret.injEq] at hr
      obtain ⟨rfl, rfl⟩ := hr
      refine ⟨⟨v.take 12, raw v 12 (v.length - 16), v.drop (v.length - 4), hcut, by simp; omega, by simp; omega,
        hw, fun e => ?_, rfl⟩, rfl, rfl⟩
      rw [LLC.parseLLC_extra _ _ [], hp]

/-- C22 for RoCEv2: the packet is cut into BTH, payload and ICRC without loss. -/
theorem C22_v2_cut (s : Slice) (l : List Bytes) (r : RoCE) (h : parseRoCEv2 s = .ret l r) :
    16 ≤ s.len ∧ Decoded s.vis l r ∧ r.Typ = go! "RoCEv2" ∧ r.GRH = none := by
  have hs := parseRoCEv2_needs s l r h
  obtain ⟨v, e⟩ := s
  rw [parseRoCEv2_eq v e hs] at h
  exact ⟨hs, (parseRest_decoded _ _ v e hs).2 l r h⟩

/-- C22 for RoCEv1: the same after the 40 bytes of the GRH. -/
theorem C22_v1_cut (s : Slice) (l : List Bytes) (r : RoCE) (h : parseRoCEv1 s = .ret l r) :
    56 ≤ s.len ∧ ∃ g bs gr, s.vis = g ++ bs ∧ g.length = 40 ∧ r.GRH = some gr ∧ WireGRH g gr ∧
      Decoded bs l r ∧ r.Typ = go! "RoCEv1" := by
  have hs := parseRoCEv1_needs s l r h
  obtain ⟨v, e⟩ := s
  simp only [Slice.len_mk] at hs
  rw [parseRoCEv1_eq v e hs] at h
  obtain ⟨h1, h2, h3⟩ := (parseRest_decoded _ _ (v.drop 40) e (by simp; omega)).2 l r h
  obtain ⟨g, hg, hw⟩ := C26_grh_wire ⟨v.take 40, []⟩ (by simp; omega)
  cases hg
  exact ⟨hs, v.take 40, v.drop 40, _, (List.take_append_drop _ _).symm, by simp; omega, h3, hw, h1, h2⟩

/-- C22: RoCEv2 parsing panics exactly on packets shorter than 16 bytes and if `ParseLLC`
panics on the payload. -/
theorem C22_v2_panics_iff (s : Slice) :
    Go.Panics (parseRoCEv2 s) ↔ s.len < 16 ∨ Go.Panics (LLC.parseLLC ⟨raw s.vis 12 (s.len - 16), []⟩) := by
  by_cases hs : s.len < 16
  · exact ⟨fun _ => .inl hs, fun _ => (parseRoCEv2_needs s).panics hs⟩
  · obtain ⟨v, e⟩ := s
    have hs' : 16 ≤ v.length := by simpa using hs
    rw [parseRoCEv2_eq v e hs']
    simp only [hs, false_or]
    exact (parseRest_decoded _ _ v e hs').1

/-- C22: RoCEv1 parsing panics exactly on packets shorter than 56 bytes and if `ParseLLC`
panics on the payload. -/
theorem C22_v1_panics_iff (s : Slice) :
    Go.Panics (parseRoCEv1 s) ↔ s.len < 56 ∨ Go.Panics (LLC.parseLLC ⟨raw s.vis 52 (s.len - 56), []⟩) := by
  by_cases hs : s.len < 56
  · exact ⟨fun _ => .inl hs, fun _ => (parseRoCEv1_needs s).panics hs⟩
  · obtain ⟨v, e⟩ := s
    have hs' : 56 ≤ v.length := by simpa using hs
    rw [parseRoCEv1_eq v e hs']
    simp only [hs, false_or]
    rw [(parseRest_decoded _ _ (v.drop 40) e (by simp; omega)).1]
    simp only [raw, List.drop_drop, List.length_drop, Slice.len_mk, Nat.sub_sub, Nat.reduceAdd]

/-- C22 together with C01: which packets crash the parsers. -/
theorem C22_v2_crash (s : Slice) :
    Go.Panics (parseRoCEv2 s) ↔ s.len < 16 ∨ s.len = 60 ∧ s.vis[12]? = some 8 := by
  rw [C22_v2_panics_iff, C01_parseLLC_panics_iff]
  by_cases hs : s.len < 16
  · simp [hs]
  · simp only [hs, false_or, Slice.len_mk]
    have hs' : 16 ≤ s.vis.length := by simpa [Slice.len] using hs
    have : s.len = s.vis.length := rfl
    constructor
    · rintro ⟨h1, h2⟩
      have h1 : s.vis.length = 60 := by simp [raw] at h1; omega
      refine ⟨h1, ?_⟩
      rw [raw, List.head?_take, if_neg (by omega)] at h2
      simpa using h2
    · rintro ⟨h1, h2⟩
      refine ⟨by simp [raw]; omega, ?_⟩
      rw [raw, List.head?_take, if_neg (by omega)]
      simpa using h2

/-- C22 together with C01 for RoCEv1. -/
theorem C22_v1_crash (s : Slice) :
    Go.Panics (parseRoCEv1 s) ↔ s.len < 56 ∨ s.len = 100 ∧ s.vis[52]? = some 8 := by
  rw [C22_v1_panics_iff, C01_parseLLC_panics_iff]
  by_cases hs : s.len < 56
  · simp [hs]
  · simp only [hs, false_or, Slice.len_mk]
    have hs' : 56 ≤ s.vis.length := by simpa [Slice.len] using hs
    have : s.len = s.vis.length := rfl
    constructor
    · rintro ⟨h1, h2⟩
      have h1 : s.vis.length = 100 := by simp [raw] at h1; omega
      refine ⟨h1, ?_⟩
      rw [raw, List.head?_take, if_neg (by omega)] at h2
      simpa using h2
    · rintro ⟨h1, h2⟩
      refine ⟨by simp [raw]; omega, ?_⟩
      rw [raw, List.head?_take, if_neg (by omega)]
      simpa using h2

/-- packets with and without a payload -/
example : (¬ Go.Panics (parseRoCEv2 ⟨zeros 16, []⟩)) ∧ Go.Panics (parseRoCEv2 ⟨zeros 15, zeros 100⟩) ∧
    Go.Panics (parseRoCEv2 ⟨zeros 12 ++ [8] ++ zeros 47, []⟩) := by
  simp only [C22_v2_crash]; decide +kernel

/-- what a caller sees of a packet: everything but the spare capacity of ICRC -/
def seen (r : RoCE) : Bytes × Option GRH × BTH × LLC.Msg × Bytes := (r.Typ, r.GRH, r.BTH, r.LLC, r.ICRC.vis)

/-- a packet as a caller sees it, with the log or the panic of the parser -/
def asSeen (x : Go RoCE) : Go (Bytes × Option GRH × BTH × LLC.Msg × Bytes) := do pure (seen (← x))

theorem sub_quiet (s : Slice) (a b : Nat) : s.sub a b = .panic [] ∨ ∃ t, s.sub a b = .ret [] t := by
  unfold Slice.sub
  split
  · exact .inr ⟨_, rfl⟩
  · exact .inl rfl

theorem bth_short (s : Slice) (hs : s.len < 16) :
    s.sto BTHLen = .panic [] ∨ ∃ t b, s.sto BTHLen = .ret [] t ∧ parseBTH t = .ret [] b ∧
      (s.sfrom BTHLen = .panic [] ∨ ∃ u, s.sfrom BTHLen = .ret [] u ∧ icrc u = .panic []) := by
  obtain h | ⟨t, h⟩ := sub_quiet s 0 BTHLen
  · exact .inl h
  · have ht : 12 ≤ t.len := by
      unfold Slice.sub at h
      split at h
      · rename_i hc
        have hc : 0 ≤ 12 ∧ 12 ≤ s.cap := hc
        have := (Go.ret.inj h).2
        subst this
        simp only [Slice.len, Slice.cap, BTHLen] at *
        simp
        omega
      · cases h
    obtain ⟨b, hb, -⟩ := C23_bth_wire {} t ht
    refine .inr ⟨t, b, h, hb, ?_⟩
    by_cases h12 : BTHLen ≤ s.len
    · refine .inr ⟨_, if_pos h12, if_pos ?_⟩
      simp only [Slice.len, BTHLen, List.length_drop] at *
      omega
    · exact .inl (if_neg h12)

theorem parseRoCEv2_short (s : Slice) (hs : s.len < 16) : parseRoCEv2 s = .panic [] := by
  unfold parseRoCEv2
  obtain h | ⟨t, b, h1, h2, h | ⟨u, h3, h4⟩⟩ := bth_short s hs
  · rw [h]; rfl
  · rw [h1, Go.ret_bind, h2, Go.ret_bind, h]; rfl
  · rw [h1, Go.ret_bind, h2, Go.ret_bind, h3, Go.ret_bind, h4]; rfl

theorem parseRoCEv1_short (s : Slice) (hs : s.len < 56) : parseRoCEv1 s = .panic [] := by
  unfold parseRoCEv1
  obtain h | ⟨t, h⟩ := sub_quiet s 0 GRHLen
  · rw [Slice.sto, h]; rfl
  · rw [Slice.sto, h, Go.ret_bind]
    unfold parseGRH
    rw [Go.pure_eq, Go.ret_bind]
    by_cases h40 : GRHLen ≤ s.len
    · rw [show s.sfrom GRHLen = .ret [] ⟨s.vis.drop GRHLen, s.extra⟩ from if_pos h40, Go.ret_bind]
      obtain h | ⟨t, b, h1, h2, h | ⟨u, h3, h4⟩⟩ := bth_short ⟨s.vis.drop GRHLen, s.extra⟩
        (by simp only [Slice.len, GRHLen, List.length_drop] at *; omega)
      · rw [h]; rfl
      · rw [h1, Go.ret_bind, h2, Go.ret_bind, h]; rfl
      · rw [h1, Go.ret_bind, h2, Go.ret_bind, h3, Go.ret_bind, h4]; rfl
    · rw [show s.sfrom GRHLen = .panic [] from if_neg h40]; rfl

/-- C74 for RoCE packets: the same packet, log or panic. -/
theorem C74_spare_roce (v e e' : Bytes) :
    asSeen (parseRoCEv2 ⟨v, e⟩) = asSeen (parseRoCEv2 ⟨v, e'⟩) ∧
    asSeen (parseRoCEv1 ⟨v, e⟩) = asSeen (parseRoCEv1 ⟨v, e'⟩) := by
  have rest : ∀ t g v, asSeen (parseRest t g v e) = asSeen (parseRest t g v e') := by
    intro t g v
    unfold parseRest
    cases BTH.parse {} ⟨v.take 12, []⟩ with
    | panic l => rfl
    | ret l b =>
      cases LLC.parseLLC ⟨(v.drop 12).take (v.length - 16), []⟩ with
      | panic l => rfl
      | ret l m => rfl
  constructor
  · by_cases h : v.length < 16
    · rw [parseRoCEv2_short ⟨v, e⟩ h, parseRoCEv2_short ⟨v, e'⟩ h]
    · rw [parseRoCEv2_eq v e (by omega), parseRoCEv2_eq v e' (by omega), rest]
  · by_cases h : v.length < 56
    · rw [parseRoCEv1_short ⟨v, e⟩ h, parseRoCEv1_short ⟨v, e'⟩ h]
    · rw [parseRoCEv1_eq v e (by omega), parseRoCEv1_eq v e' (by omega), rest]

/-! ## C27 -/

/-- C27: below the GRH both versions agree, in result, log and panic. -/
theorem C27_v1_v2 (g p e : Bytes) (hg : g.length = 40) :
    (∀ l r, parseRoCEv1 ⟨g ++ p, e⟩ = .ret l r →
      ∃ r', parseRoCEv2 ⟨p, e⟩ = .ret l r' ∧ r.BTH = r'.BTH ∧ r.LLC = r'.LLC ∧ r.ICRC = r'.ICRC) ∧
    (Go.Panics (parseRoCEv1 ⟨g ++ p, e⟩) ↔ Go.Panics (parseRoCEv2 ⟨p, e⟩)) := by
  by_cases h : p.length < 16
  · have h1 : Go.Panics (parseRoCEv1 ⟨g ++ p, e⟩) := (parseRoCEv1_needs _).panics (by simp [hg]; omega)
    have h2 : Go.Panics (parseRoCEv2 ⟨p, e⟩) := (parseRoCEv2_needs _).panics (by simpa using h)
    refine ⟨?_, ⟨fun _ => h2, fun _ => h1⟩⟩
    intro l r hr
    obtain ⟨_, h1⟩ := h1
    rw [h1] at hr; cases hr
  · rw [parseRoCEv1_eq _ _ (by simp [hg]; omega), parseRoCEv2_eq _ _ (by omega)]
    have hd : (g ++ p).drop 40 = p := by rw [← hg, List.drop_left]
    rw [hd]
    unfold parseRest
    obtain ⟨b, hb, _⟩ := C23_bth_wire {} ⟨p.take 12, []⟩ (by simp; omega)
    rw [hb, Go.ret_bind, Go.ret_bind]
    cases LLC.parseLLC ⟨(p.drop 12).take (p.length - 16), []⟩ with
    | panic l => exact ⟨(fun _ _ h => nomatch h), ⟨fun _ => ⟨l, rfl⟩, fun _ => ⟨l, rfl⟩⟩⟩
    | ret l m =>
      simp only [Bind.bind, Go.bind, Go.pure_eq, List.append_nil]
      refine ⟨?_, ⟨(fun ⟨_, h⟩ => nomatch h), (fun ⟨_, h⟩ => nomatch h)⟩⟩
      intro l' r hr
      cases hr
      exact ⟨_, rfl, rfl, rfl, rfl⟩

/-- the case of a packet that is parsed -/
example : ∃ r, parseRoCEv1 ⟨zeros 40 ++ zeros 16, []⟩ = .ret [] r := ⟨_, rfl⟩

end SMC.Props
