import Verif.Spec.LLCBits
import Verif.Lemmas.Bits
import Verif.Props.LLCText
/-!
# C13: decoding of LLC and CDC messages is lossless and invertible
-/

namespace SMC.Props

open SMC Spec LLC

theorem wireBase_bits {bs : Bytes} {b : BaseMsg} (h : WireBase bs b) (hl : 2 ≤ bs.length) :
    bitsBase b = seg (toBits bs) 0 16 := by
  unfold bitsBase
  rw [h.typ, h.length]
  bit_join

theorem wireRKeyPair_bits {bs : Bytes} {k : Nat} {r : RKeyPair} (h : WireRKeyPair bs k r) (hl : k + 16 ≤ bs.length) :
    bitsRKeyPair r = seg (toBits bs) (8 * k) 128 := by
  unfold bitsRKeyPair
  rw [h.ref, h.key, h.addr]
  bit_join

theorem wireRMBSpec_bits {bs : Bytes} {k : Nat} {r : RMBSpec} (h : WireRMBSpec bs k r) (hl : k + 13 ≤ bs.length) :
    bitsRMBSpec r = seg (toBits bs) (8 * k) 104 := by
  unfold bitsRMBSpec
  rw [h.link, h.key, h.addr]
  bit_join

/-- The wire fields of a message of 44 bytes are all of its bits. -/
theorem wireMsg_bits {bs : Bytes} {m : Msg} (h : WireMsg bs m) (hl : bs.length = 44) : bitsMsg m = toBits bs := by
  have all : seg (toBits bs) 0 352 = toBits bs := seg_all (by rw [toBits_length, hl])
  rw [← all]
  cases m with
  | other m => rw [all]; exact congrArg toBits h.1
  | confirmLink m =>
    simp only [bitsMsg, bitsConfirmLink, wireBase_bits h.base (by omega)]
    rw [h.res1, h.reply, h.res2, h.mac, h.gid, h.qp, h.link, h.userID, h.maxLinks, h.res3]
    bit_join
  | addLink m =>
    have h4 : m.res4.take 8 = raw bs 36 8 := by
      rw [h.res4, List.take_append_of_le_length (by simp [raw]; omega), List.take_of_length_le (by simp [raw]; omega)]
    simp only [bitsMsg, bitsAddLink, wireBase_bits h.base (by omega)]
    rw [h4, h.res1, h.rsnCode, h.reply, h.reject, h.res2, h.mac, h.res5, h.gid, h.qp, h.link, h.res3, h.mtu, h.psn]
    bit_join
  | addLinkCont m =>
    obtain ⟨r₁, r₂, hr, h1, h2⟩ := h.pairs
    simp only [bitsMsg, bitsAddLinkCont, wireBase_bits h.base (by omega), hr, List.flatMap_cons, List.flatMap_nil,
      List.append_nil, wireRKeyPair_bits h1 (by omega), wireRKeyPair_bits h2 (by omega)]
    rw [h.res1, h.reply, h.res2, h.link, h.numRTokens, h.res3, h.res4]
    bit_join
  | deleteLink m =>
    simp only [bitsMsg, bitsDeleteLink, wireBase_bits h.base (by omega)]
    rw [h.res1, h.reply, h.all, h.orderly, h.res2, h.link, h.rsnCode, h.res3]
    bit_join
  | confirmRKey m =>
    obtain ⟨r₁, r₂, hr, h1, h2⟩ := h.rmbs
    simp only [bitsMsg, bitsConfirmRKey, wireBase_bits h.base (by omega), hr, List.flatMap_cons, List.flatMap_nil,
      List.append_nil, wireRMBSpec_bits h1 (by omega), wireRMBSpec_bits h2 (by omega)]
    rw [h.res1, h.reply, h.res2, h.reject, h.retry, h.res3, h.numTkns, h.rkey, h.vaddr, h.res4]
    bit_join
  | confirmRKeyCont m =>
    obtain ⟨r₁, r₂, r₃, hr, h1, h2, h3⟩ := h.rmbs
    simp only [bitsMsg, bitsConfirmRKeyCont, wireBase_bits h.base (by omega), hr, List.flatMap_cons, List.flatMap_nil,
      List.append_nil, wireRMBSpec_bits h1 (by omega), wireRMBSpec_bits h2 (by omega), wireRMBSpec_bits h3 (by omega)]
    rw [h.res1, h.reply, h.res2, h.reject, h.res3, h.numTkns]
    bit_join
  | deleteRKey m =>
    have hk : m.rkeys.flatMap (fun k => natBits 32 k.toNat) = seg (toBits bs) 64 256 := by
      obtain ⟨a, b, c, d, e, f, g, i, hr⟩ := list8 h.rkeysLen
      have hk := h.rkeys
      rw [hr] at hk ⊢
      have k0 := hk 0; have k1 := hk 1; have k2 := hk 2; have k3 := hk 3
      have k4 := hk 4; have k5 := hk 5; have k6 := hk 6; have k7 := hk 7
      simp at k0 k1 k2 k3 k4 k5 k6 k7
      simp only [List.flatMap_cons, List.flatMap_nil, List.append_nil]
      rw [k0, k1, k2, k3, k4, k5, k6, k7]
      bit_join
    simp only [bitsMsg, bitsDeleteRKey, wireBase_bits h.base (by omega)]
    rw [hk, h.res1, h.reply, h.res2, h.reject, h.res3, h.count, h.errorMask, h.res4, h.res5]
    bit_join
  | testLink m =>
    simp only [bitsMsg, bitsTestLink, wireBase_bits h.base (by omega)]
    rw [h.res1, h.reply, h.res2, h.userData, h.res3]
    bit_join
  | cdc m =>
    obtain ⟨x, hx, h4⟩ := h.res4
    have h : WireCDC bs m := h
    show bitsCDC m = _
    unfold bitsCDC
    rw [wireBase_bits h.base (by omega), h4]
    simp only [List.headD_cons, List.drop_succ_cons, List.drop_zero]
    rw [hx, h.seqNum, h.alertTkn, h.res1, h.prodWrap, h.prodCurs, h.res2, h.consWrap, h.consCurs, h.b, h.p, h.u, h.r,
      h.f, h.res3, h.d, h.c, h.a]
    bit_join

/-- C13, lossless: the decoded fields in wire order are the bits of the message, for every
message `ParseLLC` returns. Missing for the full property: Confirm RKey Continuation, for
which it never returns; see `C13_confirmRKeyCont_lossless_partial`. -/
theorem C13_lossless_partial (s : Slice) (l : List Bytes) (m : Msg) (h : parseLLC s = .ret l m) :
    bitsMsg m = toBits s.vis ∧ pack (bitsMsg m) = s.vis := by
  obtain ⟨hk, hw⟩ := C02_parseLLC_dispatch_partial s l m h
  have key : bitsMsg m = toBits s.vis := by
    by_cases hl : s.vis.length = 44
    · exact wireMsg_bits hw hl
    · simp only [expectedKind, hl, if_false] at hk
      cases m <;> simp only [kindOf, reduceCtorEq] at hk
      exact congrArg toBits hw.1
  exact ⟨key, by rw [key, pack_toBits]⟩

/-- C13, lossless, for Confirm RKey Continuation in a longer buffer. -/
theorem C13_confirmRKeyCont_lossless_partial (s : Slice) (hs : s.len = 45) :
    ∃ m, parseConfirmRKeyCont s = .ret [] m ∧ bitsConfirmRKeyCont m ++ natBits 8 m.res4.toNat = toBits s.vis := by
  obtain ⟨m, hm, h, h4⟩ := C09_confirmRKeyCont_wire_partial {} rfl s (by omega)
  have hl : s.vis.length = 45 := hs
  refine ⟨m, hm, ?_⟩
  obtain ⟨r₁, r₂, r₃, hr, h1, h2, h3⟩ := h.rmbs
  simp only [bitsConfirmRKeyCont, wireBase_bits h.base (by omega), hr, List.flatMap_cons, List.flatMap_nil,
    List.append_nil, wireRMBSpec_bits h1 (by omega), wireRMBSpec_bits h2 (by omega), wireRMBSpec_bits h3 (by omega)]
  rw [h.res1, h.reply, h.res2, h.reject, h.res3, h.numTkns, h4]
  bit_join
  exact seg_all (by rw [toBits_length, hl])

theorem wireMsg_fits {bs : Bytes} {m : Msg} (h : WireMsg bs m) (hl : kindOf m ≠ .other → bs.length = 44) : Fits m := by
  have hraw : ∀ k n, bs.length = 44 → k + n ≤ 44 → (raw bs k n).length = n := by intro k n hl hn; simp [raw]; omega
  have tonat : ∀ {x y w : Nat}, x = num bs y 0 8 → x < 2 ^ 8 := fun h => h ▸ num_lt
  cases m with
  | other m => exact ⟨h.2.1, by rw [h.1]; exact h.2.2⟩
  | confirmLink m =>
    have hl := hl nofun
    exact ⟨h.base.length ▸ num_lt, h.res2 ▸ num_lt, by rw [h.mac, hraw _ _ hl (by omega)],
      by rw [h.gid, hraw _ _ hl (by omega)], h.qp ▸ num_lt, by rw [h.res3, hraw _ _ hl (by omega)]⟩
  | addLink m =>
    have hl := hl nofun
    have h4 := hraw 36 8 hl (by omega)
    refine ⟨h.base.length ▸ num_lt, h.res1 ▸ num_lt, h.rsnCode ▸ num_lt, h.res2 ▸ num_lt,
      by rw [h.mac, hraw _ _ hl (by omega)], by rw [h.res5, hraw _ _ hl (by omega)],
      by rw [h.gid, hraw _ _ hl (by omega)], h.qp ▸ num_lt, h.res3 ▸ num_lt, h.mtu ▸ num_lt, h.psn ▸ num_lt, ?_, ?_⟩
    · rw [h.res4, List.length_append, h4]; rfl
    · rw [h.res4, List.drop_append, h4, List.drop_eq_nil_of_le (by omega)]; rfl
  | addLinkCont m =>
    have hl := hl nofun
    obtain ⟨_, _, hr, _⟩ := h.pairs
    exact ⟨h.base.length ▸ num_lt, h.res2 ▸ num_lt, by rw [h.res3, hraw _ _ hl (by omega)], by rw [hr]; rfl,
      by rw [h.res4, hraw _ _ hl (by omega)]⟩
  | deleteLink m =>
    have hl := hl nofun
    exact ⟨h.base.length ▸ num_lt, h.res2 ▸ num_lt, by rw [h.res3, hraw _ _ hl (by omega)]⟩
  | confirmRKey m =>
    obtain ⟨_, _, hr, _⟩ := h.rmbs
    exact ⟨h.base.length ▸ num_lt, h.res2 ▸ num_lt, h.res3 ▸ num_lt, by rw [hr]; rfl⟩
  | confirmRKeyCont m =>
    obtain ⟨_, _, _, hr, _⟩ := h.rmbs
    exact ⟨h.base.length ▸ num_lt, h.res2 ▸ num_lt, h.res3 ▸ num_lt, by rw [hr]; rfl⟩
  | deleteRKey m =>
    have hl := hl nofun
    exact ⟨h.base.length ▸ num_lt, h.res2 ▸ num_lt, h.res3 ▸ num_lt, by rw [h.res4, hraw _ _ hl (by omega)],
      h.rkeysLen, by rw [h.res5, hraw _ _ hl (by omega)]⟩
  | testLink m =>
    have hl := hl nofun
    exact ⟨h.base.length ▸ num_lt, h.res2 ▸ num_lt, by rw [h.userData, hraw _ _ hl (by omega)],
      by rw [h.res3, hraw _ _ hl (by omega)]⟩
  | cdc m =>
    have hl := hl nofun
    obtain ⟨x, hx, h4⟩ := h.res4
    exact ⟨h.base.length ▸ num_lt, by rw [h.res1, hraw _ _ hl (by omega)], by rw [h.res2, hraw _ _ hl (by omega)],
      h.res3 ▸ num_lt, by rw [h4, List.length_cons, hraw _ _ hl (by omega)], by rw [h4]; exact hx ▸ num_lt⟩

theorem bitsRKeyPair_append {l l' : List Bool} {a b : RKeyPair} :
    l ++ bitsRKeyPair a = l' ++ bitsRKeyPair b ↔ l = l' ∧ a = b := by
  constructor
  · intro h
    simp only [bitsRKeyPair, ← List.append_assoc] at h
    bit_fields [] at h
    cases a; cases b; simp_all
  · rintro ⟨rfl, rfl⟩; rfl

theorem bitsRMBSpec_append {l l' : List Bool} {a b : RMBSpec} :
    l ++ bitsRMBSpec a = l' ++ bitsRMBSpec b ↔ l = l' ∧ a = b := by
  constructor
  · intro h
    simp only [bitsRMBSpec, ← List.append_assoc] at h
    bit_fields [] at h
    cases a; cases b; simp_all
  · rintro ⟨rfl, rfl⟩; rfl

/-- the encoding determines the message -/
theorem bitsMsg_inj {m m' : Msg} (hk : kindOf m = kindOf m') (ht : m.base.Typ = m'.base.Typ) (hf : Fits m) (hf' : Fits m')
    (ho : kindOf m ≠ .other) (hc : kindOf m ≠ .confirmRKeyCont)
    (h : bitsMsg m = bitsMsg m') : decoded m = decoded m' := by
  cases m <;> cases m' <;> simp only [kindOf, reduceCtorEq, ne_eq, not_true_eq_false] at hk ho hc <;>
    simp only [bitsMsg] at h <;> simp only [Fits] at hf hf' <;> simp only [Msg.base] at ht
  case confirmLink.confirmLink a b =>
    obtain ⟨a1, a2, a3, a4, a5, a6⟩ := hf
    obtain ⟨b1, b2, b3, b4, b5, b6⟩ := hf'
    bit_fields [bitsConfirmLink, bitsBase] at h
    rcases a with ⟨⟨⟩⟩; rcases b with ⟨⟨⟩⟩; simp_all [decoded]
  case addLink.addLink a b =>
    obtain ⟨a1, a2, a3, a4, a5, a6, a7, a8, a9, a10, a11, a12, a13⟩ := hf
    obtain ⟨b1, b2, b3, b4, b5, b6, b7, b8, b9, b10, b11, b12, b13⟩ := hf'
    have h8 : (a.res4.take 8).length = (b.res4.take 8).length := by simp [a12, b12]
    bit_fields [bitsAddLink, bitsBase] at h
    have h4 : a.res4 = b.res4 := by
      rw [← List.take_append_drop 8 a.res4, ← List.take_append_drop 8 b.res4, a13, b13, h.2]
    rcases a with ⟨⟨⟩⟩; rcases b with ⟨⟨⟩⟩; simp_all [decoded]
  case addLinkCont.addLinkCont a b =>
    obtain ⟨a1, a2, a3, a4, a5⟩ := hf
    obtain ⟨b1, b2, b3, b4, b5⟩ := hf'
    obtain ⟨r₁, r₂, hr⟩ := list2 a4
    obtain ⟨q₁, q₂, hq⟩ := list2 b4
    simp only [bitsAddLinkCont, hr, hq, List.flatMap_cons, List.flatMap_nil, List.append_nil, ← List.append_assoc] at h
    bit_fields [bitsRKeyPair_append, bitsBase] at h
    rcases a with ⟨⟨⟩⟩; rcases b with ⟨⟨⟩⟩; simp_all [decoded]
  case deleteLink.deleteLink a b =>
    obtain ⟨a1, a2, a3⟩ := hf
    obtain ⟨b1, b2, b3⟩ := hf'
    bit_fields [bitsDeleteLink, bitsBase] at h
    rcases a with ⟨⟨⟩⟩; rcases b with ⟨⟨⟩⟩; simp_all [decoded]
  case confirmRKey.confirmRKey a b =>
    obtain ⟨a1, a2, a3, a4⟩ := hf
    obtain ⟨b1, b2, b3, b4⟩ := hf'
    obtain ⟨r₁, r₂, hr⟩ := list2 a4
    obtain ⟨q₁, q₂, hq⟩ := list2 b4
    simp only [bitsConfirmRKey, hr, hq, List.flatMap_cons, List.flatMap_nil, List.append_nil, ← List.append_assoc] at h
    bit_fields [bitsRMBSpec_append, bitsBase] at h
    rcases a with ⟨⟨⟩⟩; rcases b with ⟨⟨⟩⟩; simp_all [decoded]
  case deleteRKey.deleteRKey a b =>
    obtain ⟨a1, a2, a3, a4, a5, a6⟩ := hf
    obtain ⟨b1, b2, b3, b4, b5, b6⟩ := hf'
    obtain ⟨r₁, r₂, r₃, r₄, r₅, r₆, r₇, r₈, hr⟩ := list8 a5
    obtain ⟨q₁, q₂, q₃, q₄, q₅, q₆, q₇, q₈, hq⟩ := list8 b5
    simp only [bitsDeleteRKey, hr, hq, List.flatMap_cons, List.flatMap_nil, List.append_nil, ← List.append_assoc] at h
    bit_fields [bitsBase] at h
    rcases a with ⟨⟨⟩⟩; rcases b with ⟨⟨⟩⟩; simp_all [decoded]
  case testLink.testLink a b =>
    obtain ⟨a1, a2, a3, a4⟩ := hf
    obtain ⟨b1, b2, b3, b4⟩ := hf'
    bit_fields [bitsTestLink, bitsBase] at h
    rcases a with ⟨⟨⟩⟩; rcases b with ⟨⟨⟩⟩; simp_all [decoded]
  case cdc.cdc a b =>
    obtain ⟨a1, a2, a3, a4, a5, a6⟩ := hf
    obtain ⟨b1, b2, b3, b4, b5, b6⟩ := hf'
    have hd : (a.res4.drop 1).length = (b.res4.drop 1).length := by simp [a5, b5]
    unfold bitsCDC at h
    bit_fields [bitsBase] at h
    have h4 : a.res4 = b.res4 := by
      have : ∀ l : Bytes, l.length = 19 → l = l.headD 0 :: l.drop 1 := by
        intro l hl
        cases l with
        | nil => cases hl
        | cons x r => rfl
      rw [this _ a5, this _ b5, h.2, h.1.2]
    rcases a with ⟨⟨⟩⟩; rcases b with ⟨⟨⟩⟩; simp_all [decoded]

theorem fits_size {m : Msg} (hf : Fits m) (ho : kindOf m ≠ .other) :
    (bitsMsg m).length = 8 * 44 ∧ ∃ r, bitsMsg m = natBits 8 m.base.Typ ++ r := by
  cases m <;> simp only [kindOf, reduceCtorEq, ne_eq, not_true_eq_false] at ho <;> simp only [Fits] at hf <;>
    simp only [Msg.base, bitsMsg, bitsConfirmLink, bitsAddLink, bitsAddLinkCont, bitsDeleteLink, bitsConfirmRKey,
      bitsConfirmRKeyCont, bitsDeleteRKey, bitsTestLink, bitsBase]
  case cdc m =>
    unfold bitsCDC bitsBase
    simp only [List.append_assoc]
    exact ⟨by simp [hf], ⟨_, rfl⟩⟩
  all_goals refine ⟨?_, by simp only [List.append_assoc]; exact ⟨_, rfl⟩⟩
  case addLinkCont m =>
    obtain ⟨r₁, r₂, hr⟩ := list2 hf.2.2.2.1
    simp [hr, hf, bitsRKeyPair]
  case confirmRKey m =>
    obtain ⟨r₁, r₂, hr⟩ := list2 hf.2.2.2
    simp [hr, bitsRMBSpec]
  case confirmRKeyCont m =>
    obtain ⟨r₁, r₂, r₃, hr⟩ := list3 hf.2.2.2
    simp [hr, bitsRMBSpec]
  case deleteRKey m =>
    obtain ⟨r₁, r₂, r₃, r₄, r₅, r₆, r₇, r₈, hr⟩ := list8 hf.2.2.2.2.1
    simp [hr, hf]
  all_goals simp [hf]

/-- C13, round trip: `ParseLLC` of the encoding of field values returns these values. `codes`
are the type codes of the message kinds. Missing: Confirm RKey Continuation. -/
theorem C13_roundtrip_partial (m : Msg) (hf : Fits m) (ht : (m.getType, kindOf m) ∈ codes)
    (hc : kindOf m ≠ .confirmRKeyCont) (v e : Bytes) (hv : v = pack (bitsMsg m)) :
    ∃ m', parseLLC ⟨v, e⟩ = .ret [] m' ∧ decoded m' = decoded m ∧ m'.base.Raw = v := by
  have ho : kindOf m ≠ .other := by
    intro ho
    rw [ho] at ht
    simp [codes] at ht
  obtain ⟨hl, r, hr⟩ := fits_size hf ho
  have hb : toBits v = bitsMsg m := by rw [hv, toBits_pack 44 _ hl]
  have hlen : v.length = 44 := by rw [hv]; exact pack_length 44 _ hl
  clear hv
  have ht8 : m.base.Typ < 2 ^ 8 := by
    have : ∀ p ∈ codes, p.1 < 2 ^ 8 := by decide
    exact this _ ht
  have hkind : expectedKind v = kindOf m := by
    match v, hlen with
    | b :: v', hlen =>
      have hbt : b.toNat = m.getType := by
        have := num_8 (b :: v') 0 (by simp)
        simp only [List.getElem_cons_zero] at this
        rw [← this, num_seg, hb, hr, Nat.mul_zero, Nat.zero_add, seg_left (by simp), seg_all (by simp), ofBits_natBits,
          Nat.mod_eq_of_lt ht8]
        rfl
      have : ∀ p ∈ codes, codes.lookup p.1 = some p.2 := by decide
      simp only [expectedKind, hlen, if_true, List.head?_cons, Option.bind_some, hbt]
      rw [this _ ht]; rfl
  obtain ⟨m', hm, hk⟩ := C02_parseLLC_returns_partial ⟨v, e⟩ (by simp only [hkind]; exact hc)
  obtain ⟨_, hw⟩ := C02_parseLLC_dispatch_partial _ _ _ hm
  simp only at hk hw
  rw [hkind] at hk
  have ho' : kindOf m' ≠ .other := by rw [hk]; exact ho
  have hbase := wireMsg_base hw ho'
  have hf' := wireMsg_fits hw fun _ => hlen
  have hbits : bitsMsg m' = bitsMsg m := (wireMsg_bits hw hlen).trans hb
  refine ⟨m', hm, bitsMsg_inj hk ?_ hf' hf ho' (by rw [hk]; exact hc) hbits, hbase.raw⟩
  obtain ⟨_, r', hr'⟩ := fits_size hf' ho'
  rw [hr, hr'] at hbits
  have := (List.append_inj hbits (by simp)).1
  exact (natBits_inj (hbase.typ ▸ num_lt) ht8).1 this

/-- a message that fits, its code, and its encoding -/
example : Fits (.testLink { base.Typ := 7, base.Length := 44, Reply := true, UserData := zeros 15 ++ [9] }) ∧
    ((7 : Nat), Kind.testLink) ∈ codes ∧
    pack (bitsMsg (.testLink { base.Typ := 7, base.Length := 44, Reply := true, UserData := zeros 15 ++ [9] }))
      = [7, 44, 0, 0x80] ++ zeros 15 ++ [9] ++ zeros 24 :=
  ⟨⟨by decide, by decide, rfl, rfl⟩, by decide, by decide +kernel⟩

/-- C13 is false of the code for Confirm RKey Continuation: its encodings make `ParseLLC`
panic. -/
theorem C13_confirmRKeyCont_false (m : ConfirmRKeyCont) (hf : Fits (.confirmRKeyCont m)) (ht : m.base.Typ = 8)
    (v e : Bytes) (hv : v = pack (bitsConfirmRKeyCont m)) : Go.Panics (parseLLC ⟨v, e⟩) := by
  obtain ⟨hl, r, hr⟩ := fits_size hf nofun
  have hb : toBits v = bitsConfirmRKeyCont m := by rw [hv]; exact toBits_pack 44 _ hl
  have hlen : v.length = 44 := by rw [hv]; exact pack_length 44 _ hl
  rw [C01_parseLLC_panics_iff]
  refine ⟨hlen, ?_⟩
  clear hv
  match v, hlen with
  | b :: v', hlen =>
    have : b.toNat = 8 := by
      have := num_8 (b :: v') 0 (by simp)
      simp only [List.getElem_cons_zero] at this
      simp only [bitsMsg] at hr
      rw [← this, num_seg, hb, hr, Nat.mul_zero, Nat.zero_add, seg_left (by simp), seg_all (by simp), ofBits_natBits]
      simp [Msg.base, ht]
    simp only [List.head?_cons, Option.some.injEq]
    exact UInt8.toNat_inj.1 this

example : Fits (.confirmRKeyCont { base.Typ := 8, base.Length := 44 }) := ⟨by decide, by decide, by decide, rfl⟩

end SMC.Props
