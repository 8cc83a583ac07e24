import Verif.Spec.Packet
import Verif.Props.RoCE
import Verif.Props.LLCBits
/-!
# C91, C92: RoCE packets from their parts, and the text of the GRH
-/

namespace SMC.Props

open SMC Spec RoCE

/-! ## C91 -/

theorem wireGRH_bits {v : Bytes} {g : GRH} (hw : WireGRH v g) (hl : v.length = 40) : bitsGRH g = toBits v := by
  unfold bitsGRH
  rw [hw.version, hw.trafficClass, hw.flowLabel, hw.length, hw.nextHeader, hw.hopLimit, hw.src, hw.dst]
  bit_join
  exact seg_all (by rw [toBits_length, hl])

theorem wireGRH_fits {v : Bytes} {g : GRH} (hw : WireGRH v g) (hl : v.length = 40) : FitsGRH g :=
  ⟨hw.version ▸ num_lt, hw.flowLabel ▸ num_lt, by rw [hw.src]; simp [raw]; omega, by rw [hw.dst]; simp [raw]; omega⟩

theorem bitsGRH_length {g : GRH} (hg : FitsGRH g) : (bitsGRH g).length = 8 * 40 := by
  simp [bitsGRH, toBits_length, hg.src, hg.dst]

theorem bitsGRH_inj {a b : GRH} (ha : FitsGRH a) (hb : FitsGRH b) (h : bitsGRH a = bitsGRH b) :
    a = { b with Contents := a.Contents } := by
  obtain ⟨a1, a2, a3, a4⟩ := ha
  obtain ⟨b1, b2, b3, b4⟩ := hb
  bit_fields [bitsGRH] at h
  cases a; cases b; simp_all

/-- C91: the fields of a GRH in wire order are the bits of the header. -/
theorem C91_grh_lossless (s : Slice) (hs : s.len = 40) :
    ∃ g, parseGRH s = .ret [] g ∧ bitsGRH g = toBits s.vis ∧ pack (bitsGRH g) = s.vis ∧ FitsGRH g ∧ g.Contents = s.vis := by
  obtain ⟨g, hg, hw⟩ := C26_grh_wire s (by omega)
  have hl : s.vis.length = 40 := hs
  have key := wireGRH_bits hw hl
  exact ⟨g, hg, key, by rw [key, pack_toBits], wireGRH_fits hw hl, by rw [hw.contents]; simp [raw, ← hl]⟩

/-- C91: decoding the encoding of field values of a GRH gives these values back. -/
theorem C91_grh_roundtrip (g : GRH) (hg : FitsGRH g) (v e : Bytes) (hv : v = pack (bitsGRH g)) :
    parseGRH ⟨v, e⟩ = .ret [] { g with Contents := v } := by
  have hl : v.length = 40 := by rw [hv]; exact pack_length 40 _ (bitsGRH_length hg)
  have ht : toBits v = bitsGRH g := by rw [hv]; exact toBits_pack 40 _ (bitsGRH_length hg)
  clear hv
  obtain ⟨m, hm, h1, _, hf, hc⟩ := C91_grh_lossless ⟨v, e⟩ hl
  rw [hm, bitsGRH_inj hf hg (h1.trans ht), hc]

theorem parseRest_parts (typ : Bytes) (g : Option GRH) (b : BTH) (hb : FitsBTH b) (p c e : Bytes) (hc : c.length = 4) :
    parseRest typ g (pack (bitsBTH b) ++ p ++ c) e = (LLC.parseLLC ⟨p, []⟩ >>= fun m =>
      pure { Typ := typ, GRH := g, BTH := { b with Raw := pack (bitsBTH b) }, LLC := m, ICRC := ⟨c, e⟩ }) := by
  have hl : (pack (bitsBTH b)).length = 12 := pack_length 12 _ (bitsBTH_length b)
  have hp := C24_bth_roundtrip b hb _ [] rfl
  generalize pack (bitsBTH b) = v at hl hp
  have e1 : (v ++ p ++ c).take 12 = v := by rw [List.append_assoc, ← hl, List.take_left]
  have e2 : (v ++ p ++ c).drop 12 = p ++ c := by rw [List.append_assoc, ← hl, List.drop_left]
  have e3 : (v ++ p ++ c).length - 16 = p.length := by simp; omega
  have e4 : (v ++ p ++ c).length - 4 = (v ++ p).length := by simp; omega
  unfold parseRest
  rw [e1, e2, e3, e4, List.take_left, List.drop_left]
  change parseBTH ⟨v, []⟩ >>= _ = _
  rw [hp, Go.ret_bind]

/-- C91: a RoCEv2 packet written from the fields of a BTH, a payload and an ICRC is cut into just
these parts, and its payload is parsed by `ParseLLC`. -/
theorem C91_v2_parts (b : BTH) (hb : FitsBTH b) (p c e : Bytes) (hc : c.length = 4) :
    parseRoCEv2 ⟨pack (bitsBTH b) ++ p ++ c, e⟩ = (LLC.parseLLC ⟨p, []⟩ >>= fun m =>
      pure { Typ := go! "RoCEv2", GRH := none, BTH := { b with Raw := pack (bitsBTH b) }, LLC := m, ICRC := ⟨c, e⟩ }) := by
  have hl : (pack (bitsBTH b)).length = 12 := pack_length 12 _ (bitsBTH_length b)
  rw [parseRoCEv2_eq _ _ (by simp; omega), parseRest_parts _ _ b hb p c e hc]

/-- C91: the same for RoCEv1 packets, which begin with a GRH. -/
theorem C91_v1_parts (g : GRH) (hg : FitsGRH g) (b : BTH) (hb : FitsBTH b) (p c e : Bytes) (hc : c.length = 4) :
    parseRoCEv1 ⟨pack (bitsGRH g) ++ (pack (bitsBTH b) ++ p ++ c), e⟩ = (LLC.parseLLC ⟨p, []⟩ >>= fun m =>
      pure { Typ := go! "RoCEv1", GRH := some { g with Contents := pack (bitsGRH g) },
             BTH := { b with Raw := pack (bitsBTH b) }, LLC := m, ICRC := ⟨c, e⟩ }) := by
  have hl : (pack (bitsBTH b)).length = 12 := pack_length 12 _ (bitsBTH_length b)
  have hk : (pack (bitsGRH g)).length = 40 := pack_length 40 _ (bitsGRH_length hg)
  have hr := C91_grh_roundtrip g hg _ [] rfl
  have hr : decodeIPv6 (pack (bitsGRH g)) = { g with Contents := pack (bitsGRH g) } := (Go.ret.inj hr).2
  rw [parseRoCEv1_eq _ _ (by simp; omega)]
  have e1 : (pack (bitsGRH g) ++ (pack (bitsBTH b) ++ p ++ c)).take 40 = pack (bitsGRH g) := by rw [← hk, List.take_left]
  have e2 : (pack (bitsGRH g) ++ (pack (bitsBTH b) ++ p ++ c)).drop 40 = pack (bitsBTH b) ++ p ++ c := by
    rw [← hk, List.drop_left]
  rw [e1, e2, hr, parseRest_parts _ _ b hb p c e hc]

theorem decoded_bytes {bs : Bytes} {l : List Bytes} {r : RoCE} (h : Decoded bs l r) :
    pack (bitsBTH r.BTH) ++ pack (bitsMsg r.LLC) ++ r.ICRC.vis = bs := by
  obtain ⟨b, p, c, rfl, hb, hc, hw, hp, hi⟩ := h.cut
  have h1 : pack (bitsBTH r.BTH) = b := by
    obtain ⟨m, hm, hbits, hpk, -, -⟩ := C24_bth_lossless ⟨b, []⟩ hb
    obtain ⟨m', hm', hw'⟩ := C23_bth_wire {} ⟨b, []⟩ (by simp; omega)
    have hmm : m' = m := by
      change parseBTH ⟨b, []⟩ = _ at hm'
      rw [hm] at hm'; cases hm'; rfl
    subst hmm
    have : r.BTH = m' := by
      obtain ⟨a1, a2, a3, a4, a5, a6, a7, a8, a9, a10, a11, a12, a13, a14⟩ := hw
      obtain ⟨b1, b2, b3, b4, b5, b6, b7, b8, b9, b10, b11, b12, b13, b14⟩ := hw'
      generalize r.BTH = x at *
      cases x; cases m'
      simp only [RoCE.BTH.mk.injEq] at *
      refine ⟨a1.trans b1.symm, UInt8.toNat_inj.1 (a2.trans b2.symm), a3.trans b3.symm, a4.trans b4.symm,
        UInt8.toNat_inj.1 (a5.trans b5.symm), UInt8.toNat_inj.1 (a6.trans b6.symm), UInt16.toNat_inj.1 (a7.trans b7.symm),
        a8.trans b8.symm, a9.trans b9.symm, UInt8.toNat_inj.1 (a10.trans b10.symm), UInt32.toNat_inj.1 (a11.trans b11.symm),
        a12.trans b12.symm, UInt8.toNat_inj.1 (a13.trans b13.symm), UInt32.toNat_inj.1 (a14.trans b14.symm)⟩
    rw [this, hpk]
  rw [h1, (C13_lossless_partial ⟨p, []⟩ l r.LLC (hp [])).2, hi]

/-- C91: the parts of a parsed RoCEv2 packet written one after the other are the packet. -/
theorem C91_v2_lossless (s : Slice) (l : List Bytes) (r : RoCE) (h : parseRoCEv2 s = .ret l r) : bytesRoCE r = s.vis := by
  obtain ⟨-, hd, -, hg⟩ := C22_v2_cut s l r h
  unfold bytesRoCE
  rw [hg, ← decoded_bytes hd]
  rfl

/-- C91: the same for RoCEv1 packets. -/
theorem C91_v1_lossless (s : Slice) (l : List Bytes) (r : RoCE) (h : parseRoCEv1 s = .ret l r) : bytesRoCE r = s.vis := by
  obtain ⟨-, g, bs, gr, hv, hl, hg, hw, hd, -⟩ := C22_v1_cut s l r h
  unfold bytesRoCE
  rw [hg, hv, ← decoded_bytes hd]
  simp only [wireGRH_bits hw hl, pack_toBits, List.append_assoc]

/-- C91: RoCE packets that carry an LLC message written from its fields are read back, all fields
of all parts. Missing: Confirm RKey Continuation messages, on which the parser panics (C01). -/
theorem C91_message_partial (g : GRH) (hg : FitsGRH g) (b : BTH) (hb : FitsBTH b) (m : LLC.Msg) (hf : Fits m)
    (ht : (m.getType, kindOf m) ∈ codes) (hk : kindOf m ≠ .confirmRKeyCont) (c e : Bytes) (hc : c.length = 4) :
    ∃ m', decoded m' = decoded m ∧ m'.base.Raw = pack (bitsMsg m) ∧
      parseRoCEv2 ⟨pack (bitsBTH b) ++ pack (bitsMsg m) ++ c, e⟩ = .ret []
        { Typ := go! "RoCEv2", GRH := none, BTH := { b with Raw := pack (bitsBTH b) }, LLC := m', ICRC := ⟨c, e⟩ } ∧
      parseRoCEv1 ⟨pack (bitsGRH g) ++ (pack (bitsBTH b) ++ pack (bitsMsg m) ++ c), e⟩ = .ret []
        { Typ := go! "RoCEv1", GRH := some { g with Contents := pack (bitsGRH g) },
          BTH := { b with Raw := pack (bitsBTH b) }, LLC := m', ICRC := ⟨c, e⟩ } := by
  obtain ⟨m', hm, h1, h2⟩ := C13_roundtrip_partial m hf ht hk _ [] rfl
  refine ⟨m', h1, h2, ?_, ?_⟩
  · rw [C91_v2_parts b hb _ c e hc, hm]; rfl
  · rw [C91_v1_parts g hg b hb _ c e hc, hm]; rfl

/-- C91 is false of Confirm RKey Continuation messages: every RoCE packet that carries one makes the
parsers panic. -/
theorem C91_message_false (g : GRH) (hg : FitsGRH g) (b : BTH) (hb : FitsBTH b) (m : LLC.ConfirmRKeyCont)
    (hf : Fits (.confirmRKeyCont m)) (ht : m.base.Typ = 8) (c e : Bytes) (hc : c.length = 4) :
    Go.Panics (parseRoCEv2 ⟨pack (bitsBTH b) ++ pack (bitsConfirmRKeyCont m) ++ c, e⟩) ∧
    Go.Panics (parseRoCEv1 ⟨pack (bitsGRH g) ++ (pack (bitsBTH b) ++ pack (bitsConfirmRKeyCont m) ++ c), e⟩) := by
  obtain ⟨l, hl⟩ := C13_confirmRKeyCont_false m hf ht _ [] rfl
  constructor
  · rw [C91_v2_parts b hb _ c e hc, hl]; exact ⟨l, rfl⟩
  · rw [C91_v1_parts g hg b hb _ c e hc, hl]; exact ⟨l, rfl⟩

example : Fits (.confirmRKeyCont { base.Typ := 8, base.Length := 44 }) := ⟨by decide, by decide, by decide, rfl⟩

/-- a GRH, a BTH and a Test Link message -/
def packetGRH : GRH := { Version := 6, Length := 72, NextHeader := 0x1b, HopLimit := 255, SrcIP := hex! "fe8000000000000098039bfffeabcdef", DstIP := hex! "fe8000000000000098039bfffeabcdee" }
def packetBTH : BTH := { Opcode := 4, M := true, PKey := 0xffff, DestQP := 263, A := true, PSN := 5 }
def packetMsg : LLC.Msg := .testLink { base := { Typ := 7, Length := 44 }, UserData := hex! "000102030405060708090a0b0c0d0e0f", res3 := zeros 24 }

example : FitsGRH packetGRH ∧ FitsBTH packetBTH ∧ Fits packetMsg ∧ (packetMsg.getType, kindOf packetMsg) ∈ codes ∧
    kindOf packetMsg ≠ .confirmRKeyCont ∧
    pack (bitsGRH packetGRH) ++ (pack (bitsBTH packetBTH) ++ pack (bitsMsg packetMsg) ++ [1, 2, 3, 4]) =
      hex! "6000000000481bfffe8000000000000098039bfffeabcdeffe8000000000000098039bfffeabcdee" ++
      hex! "0440ffff0000010780000005072c0000000102030405060708090a0b0c0d0e0f" ++ zeros 24 ++ hex! "01020304" :=
  ⟨⟨by decide, by decide, by decide, by decide⟩, ⟨by decide, by decide, by decide, by decide, by decide, by decide⟩,
    ⟨by decide, by decide, by decide, by decide⟩, by decide, by decide, by decide +kernel⟩

/-! ## C92 -/

/-- C92: two GRHs with the same text agree on all fields but the next header, of which the name is
shown. `name` is gopacket's name of an IP protocol; the names contain no commas, and none is `BTH`. -/
theorem C92_grh_text (name : UInt8 → Bytes) (hn : ∀ p, 44 ∉ name p) (hb : ∀ p, name p ≠ go! "BTH") (a b : GRH)
    (ha : a.SrcIP.length = 16 ∧ a.DstIP.length = 16) (hb' : b.SrcIP.length = 16 ∧ b.DstIP.length = 16)
    (h : a.string name = b.string name) :
    { a with NextHeader := 0, Contents := [] } = { b with NextHeader := 0, Contents := [] } ∧
      (a.NextHeader = 0x1B ↔ b.NextHeader = 0x1B) ∧ (a.NextHeader ≠ 0x1B → name a.NextHeader = name b.NextHeader) := by
  have no : ∀ p, (44 : UInt8) ∉ (if p ≠ BTHNextHeader then name p else go! "BTH") := by
    intro p; split
    · exact hn p
    · decide
  obtain ⟨a1, a2⟩ := ha
  obtain ⟨b1, b2⟩ := hb'
  have i1 : a.SrcIP.length ≠ 4 := by omega
  have i2 : b.SrcIP.length ≠ 4 := by omega
  have i3 : a.DstIP.length ≠ 4 := by omega
  have i4 : b.DstIP.length ≠ 4 := by omega
  unfmt [GRH.string] at h
  simp (disch := first | decide | assumption) only [List.append_cancel_left_eq, dec_sep, UInt8.toNat_inj,
    UInt16.toNat_inj, UInt32.toNat_inj] at h
  obtain ⟨h1, h2, h3, h4, h⟩ := h
  obtain ⟨h5, h⟩ := (str_sep (no a.NextHeader) (no b.NextHeader)).1 h
  simp (disch := first | decide | assumption) only [dec_sep, ipStr_sep, UInt8.toNat_inj] at h
  obtain ⟨h6, h7, h8, -⟩ := h
  have key : (a.NextHeader = 0x1B ↔ b.NextHeader = 0x1B) ∧ (a.NextHeader ≠ 0x1B → name a.NextHeader = name b.NextHeader) := by
    by_cases c : a.NextHeader = BTHNextHeader <;> by_cases d : b.NextHeader = BTHNextHeader
    · exact ⟨⟨fun _ => d, fun _ => c⟩, fun x => absurd c x⟩
    · rw [if_neg (fun x => x c), if_pos d] at h5
      exact absurd h5.symm (hb _)
    · rw [if_pos c, if_neg (fun x => x d)] at h5
      exact absurd h5 (hb _)
    · rw [if_pos c, if_pos d] at h5
      exact ⟨⟨fun x => absurd x c, fun x => absurd x d⟩, fun _ => h5⟩
  refine ⟨?_, key⟩
  cases a; cases b; simp_all

/-- C92: of headers in front of a BTH, the text determines all 40 bytes. -/
theorem C92_grh_bytes (name : UInt8 → Bytes) (hn : ∀ p, 44 ∉ name p) (hb : ∀ p, name p ≠ go! "BTH") (s s' : Slice)
    (hs : s.len = 40) (hs' : s'.len = 40) (g g' : GRH) (l l' : List Bytes) (h : parseGRH s = .ret l g)
    (h' : parseGRH s' = .ret l' g') (hx : num s.vis 6 0 8 = 0x1B) (ht : g.string name = g'.string name) : s.vis = s'.vis := by
  obtain ⟨g1, e1, -, p1, f1, c1⟩ := C91_grh_lossless s hs
  obtain ⟨g2, e2, -, p2, f2, c2⟩ := C91_grh_lossless s' hs'
  rw [h] at e1; cases e1
  rw [h'] at e2; cases e2
  obtain ⟨k1, k2, -⟩ := C92_grh_text name hn hb g g' ⟨f1.src, f1.dst⟩ ⟨f2.src, f2.dst⟩ ht
  obtain ⟨g3, e3, w⟩ := C26_grh_wire s (by omega)
  rw [h] at e3; cases e3
  have q1 : g.NextHeader = 0x1B := UInt8.toNat_inj.1 (w.nextHeader.trans hx)
  have q2 := k2.1 q1
  rw [← p1, ← p2]
  congr 1
  clear p1 p2 h h' ht w f1 f2
  cases g; cases g'
  simp only [GRH.mk.injEq] at *
  simp_all [bitsGRH]

/-- a header in front of a BTH, and names of protocols -/
example : (⟨pack (bitsGRH packetGRH), []⟩ : Slice).len = 40 ∧ num (pack (bitsGRH packetGRH)) 6 0 8 = 0x1B ∧
    (∀ p, (44 : UInt8) ∉ (fun p : UInt8 => if p = 17 then go! "UDP" else go! "TCP") p) :=
  ⟨by decide +kernel, by decide +kernel, by intro p; dsimp only; split <;> decide⟩

end SMC.Props
