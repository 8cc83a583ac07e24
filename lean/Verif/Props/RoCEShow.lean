import Verif.Spec.RoCEShow
import Verif.Lemmas.Show
import Verif.Props.RoCE
/-!
# C77: what the texts of RoCE headers are
-/

namespace SMC.Props

open SMC Spec RoCE

set_option maxRecDepth 20000

theorem opcode_show (o : UInt8) : opcodeStr o = .ret [] (binInt o.toNat ++ (go! " (" ++ (opcodeName o ++ go! ")"))) := by
  have bin : ∀ o : UInt8, go! "0b" ++ binaryText o = binInt o.toNat := by byte_decide
  rw [C25_opcode_text, bin]
  simp only [List.append_assoc]

theorem bth_string {bs : Bytes} {b : BTH} (w : WireBTH bs b) : b.string = .ret [] (bthString bs) := by
  unfold BTH.string
  rw [opcode_show, Go.ret_bind, Go.pure_eq]
  congr 1
  simp only [bthString, bthItems, line, visibleItems, field, rsvd, List.filter_cons, List.filter_nil, Bool.not_true,
    Bool.not_false, if_true, Bool.false_eq_true, if_false, row_cons, row_one, Item.text, decimal_eq, hexadecimal_eq,
    binary_eq, truth_eq, List.append_assoc, ← w.opcode, UInt8.ofNat_toNat]
  unfmt [w.se, w.m, w.pad, w.tver, w.pkey, w.fecn, w.becn, w.res1, w.destQP, w.a, w.res2, w.psn, List.append_nil]
  rfl

theorem bth_reserved {bs : Bytes} {b : BTH} (w : WireBTH bs b) : b.reserved = .ret [] (bthReserved bs) := by
  unfold BTH.reserved
  rw [opcode_show, Go.ret_bind, Go.pure_eq]
  congr 1
  simp only [bthReserved, bthItems, line, field, rsvd, row_cons, row_one, Item.text, decimal_eq, hexadecimal_eq,
    binary_eq, truth_eq, List.append_assoc, ← w.opcode, UInt8.ofNat_toNat]
  unfmt [w.se, w.m, w.pad, w.tver, w.pkey, w.fecn, w.becn, w.res1, w.destQP, w.a, w.res2, w.psn, List.append_nil]
  rfl

theorem grh_string {bs : Bytes} {g : GRH} (name : Nat → Bytes) (h : 40 ≤ bs.length) (w : WireGRH bs g) :
    g.string (fun p => name p.toNat) = grhString name bs := by
  have hn : g.NextHeader = 27 ↔ num bs 6 0 8 = 27 := by
    rw [← w.nextHeader, ← UInt8.toNat_inj]; rfl
  simp only [grhString, grhItems, line, field, row_cons, row_one, Item.text, decimal_eq,
    List.append_assoc, address_eq (raw bs 8 16) (by simp [raw]; omega),
    address_eq (raw bs 24 16) (by simp [raw]; omega), ← hn]
  unfold GRH.string BTHNextHeader
  unfmt [ne_eq, ite_not, w.version, w.trafficClass, w.flowLabel, w.length, w.nextHeader, w.hopLimit, w.src, w.dst, List.append_nil]
  rfl

/-- C77 for RoCEv2: the texts of the BTH of every packet that is parsed. -/
theorem C77_v2_texts (s : Slice) (l : List Bytes) (r : RoCE) (h : parseRoCEv2 s = .ret l r) :
    r.BTH.string = .ret [] (bthString (raw s.vis 0 12)) ∧ r.BTH.reserved = .ret [] (bthReserved (raw s.vis 0 12)) := by
  obtain ⟨-, ⟨b, p, c, hs, hb, -, w, -⟩, -⟩ := C22_v2_cut s l r h
  have : raw s.vis 0 12 = b := by
    rw [hs, raw, List.drop_zero, List.append_assoc, List.take_append_of_le_length (by omega), List.take_of_length_le (by omega)]
  rw [this]
  exact ⟨bth_string w, bth_reserved w⟩

/-- the hypothesis holds of a packet with an opcode, flags and reserved bits set -/
example : (∃ l r, parseRoCEv2 ⟨hex! "04 e3 ff ff c5 00 01 07 83 00 00 05 de ad be ef", []⟩ = .ret l r) ∧
    bthReserved (hex! "04 e3 ff ff c5 00 01 07 83 00 00 05") = go! "BTH: OpCode: 0b100 (RC SEND Only), SE: true, M: true, Pad: 2, TVer: 3, PKey: 65535, FECN: true, BECN: true, Res: 0x5, DestQP: 263, A: true, Res: 0x3, PSN: 5\n" :=
  ⟨⟨_, _, rfl⟩, by decide +kernel⟩

/-- C77 for RoCEv1: the texts of GRH and BTH of every packet that is parsed, for all names of
next header values. -/
theorem C77_v1_texts (s : Slice) (l : List Bytes) (r : RoCE) (h : parseRoCEv1 s = .ret l r) (name : Nat → Bytes) :
    (∃ g, r.GRH = some g ∧ g.string (fun p => name p.toNat) = grhString name (raw s.vis 0 40) ∧
      g.reserved (fun p => name p.toNat) = grhString name (raw s.vis 0 40)) ∧
    r.BTH.string = .ret [] (bthString (raw s.vis 40 12)) ∧
    r.BTH.reserved = .ret [] (bthReserved (raw s.vis 40 12)) := by
  obtain ⟨-, g, bs, gr, hs, hg, hgr, wg, ⟨b, p, c, hb, hb', -, w, -⟩, -⟩ := C22_v1_cut s l r h
  have h1 : raw s.vis 0 40 = g := by
    rw [hs, raw, List.drop_zero, List.take_append_of_le_length (by omega), List.take_of_length_le (by omega)]
  have h2 : raw s.vis 40 12 = b := by
    rw [hs, raw, ← hg, List.drop_left, hb, List.append_assoc, List.take_append_of_le_length (by omega), List.take_of_length_le (by omega)]
  rw [h1, h2]
  exact ⟨⟨gr, hgr, grh_string name (by omega) wg, grh_string name (by omega) wg⟩, bth_string w, bth_reserved w⟩

/-- the text of a GRH whose next header is a BTH -/
example : grhString (fun _ => go! "?") (hex! "60 00 00 00 00 4c 1b 01 fe 80 00 00 00 00 00 00 9a 03 9b ff fe ab cd ef fe 80 00 00 00 00 00 00 9a 03 9b ff fe ab cd f0")
    = go! "GRH: Version: 6, Traffic Class: 0, Flow Label: 0, Length: 76, Next Header: BTH, Hop Limit: 1, Source: fe80::9a03:9bff:feab:cdef, Destination: fe80::9a03:9bff:feab:cdf0\n" := by
  decide +kernel

end SMC.Props
