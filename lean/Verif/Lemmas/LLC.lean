import Verif.LLC
import Verif.Lemmas.Go
/-!
# Closed forms of the pkg/llc parsers

For every slice that is long enough, whatever its capacity and whatever the receiver held
before, the result of `Parse` written with indexes into the visible bytes; and the number
of bytes each parser needs.
-/

namespace SMC.LLC

theorem setBaseMsg_eq (b : BaseMsg) (v e : Bytes) (h : 2 ≤ v.length) :
    b.setBaseMsg ⟨v, e⟩ = .ret [] ⟨v, v[0].toNat, v[1].toNat⟩ := by
  simp [BaseMsg.setBaseMsg, BaseMsg.setRaw, Slice.idx_of_lt, Slice.sfrom_mk, show 0 < v.length by omega,
    show 1 ≤ v.length by omega, show 0 < v.length - 1 by omega, copyInto_eq]

theorem setRaw_eq (b : BaseMsg) (v e : Bytes) : b.setRaw ⟨v, e⟩ = ⟨v, b.Typ, b.Length⟩ := by
  simp [BaseMsg.setRaw, copyInto_eq]

/-- runs a straight-line parser on a slice known to be long enough -/
syntax "goparse" "[" Lean.Parser.Tactic.simpLemma,* "]" : tactic
macro_rules
  | `(tactic| goparse [$ls,*]) => `(tactic|
    simp (disch := first | omega | (simp; omega)) only [setBaseMsg_eq, setRaw_eq, Go.ret_bind, Slice.idx_of_lt,
      Slice.idx_drop, Slice.sub_mk, Slice.sfrom_mk, List.drop_drop, List.getElem_drop,
      be16_drop, be32_drop, be64_drop, Go.pure_eq, copyInto_eq, Nat.reduceAdd, Nat.reduceSub, u24, Nat.add_zero,
      List.drop_zero, $ls,*])

theorem confirmLink_parse (c : ConfirmLink) (v e : Bytes) (h : 35 ≤ v.length) :
    c.parse ⟨v, e⟩ = .ret [] {
      base := ⟨v, v[0].toNat, v[1].toNat⟩, res1 := v[2], Reply := decide (v[3] &&& 0x80 > 0)
      res2 := v[3] &&& 0x7f
      SenderMAC := (v.drop 4).take 6, SenderGID := (v.drop 10).take 16
      SenderQP := u24 v[26] v[27] v[28], Link := v[29]
      SenderLinkUserID := u32 v[30] v[31] v[32] v[33], MaxLinks := v[34]
      res3 := copyInto c.res3 (v.drop 35) } := by
  goparse [ConfirmLink.parse]

theorem addLink_parse (a : AddLink) (v e : Bytes) (h : 36 ≤ v.length) :
    a.parse ⟨v, e⟩ = .ret [] {
      base := ⟨v, v[0].toNat, v[1].toNat⟩, res1 := v[2] >>> 4, RsnCode := v[2] &&& 0x0f
      Reply := decide (v[3] &&& 0x80 > 0), Reject := decide (v[3] &&& 0x40 > 0), res2 := v[3] &&& 0x3f
      SenderMAC := (v.drop 4).take 6, res5 := copyInto a.res5 ((v.drop 10).take 2)
      SenderGID := (v.drop 12).take 16
      SenderQP := u24 v[28] v[29] v[30], Link := v[31], res3 := v[32] >>> 4, MTU := v[32] &&& 0x0f
      PSN := u24 v[33] v[34] v[35]
      res4 := copyInto a.res4 (v.drop 36) } := by
  goparse [AddLink.parse]

theorem addLinkCont_parse (a : AddLinkCont) {r₁ r₂ : RKeyPair} (ha : a.RKeyPairs = [r₁, r₂]) (v e : Bytes)
    (h : 40 ≤ v.length) :
    a.parse ⟨v, e⟩ = .ret [] {
      base := ⟨v, v[0].toNat, v[1].toNat⟩, res1 := v[2], Reply := decide (v[3] &&& 0x80 > 0)
      res2 := v[3] &&& 0x7f, Link := v[4], NumRTokens := v[5]
      res3 := copyInto a.res3 ((v.drop 6).take 2)
      RKeyPairs := [
        ⟨u32 v[8] v[9] v[10] v[11], u32 v[12] v[13] v[14] v[15],
          u64 v[16] v[17] v[18] v[19] v[20] v[21] v[22] v[23]⟩,
        ⟨u32 v[24] v[25] v[26] v[27], u32 v[28] v[29] v[30] v[31],
          u64 v[32] v[33] v[34] v[35] v[36] v[37] v[38] v[39]⟩]
      res4 := copyInto a.res4 (v.drop 40) } := by
  goparse [AddLinkCont.parse, ha, parsePairs, RKeyPair.parse]

theorem deleteLink_parse (d : DeleteLink) (v e : Bytes) (h : 9 ≤ v.length) :
    d.parse ⟨v, e⟩ = .ret [] {
      base := ⟨v, v[0].toNat, v[1].toNat⟩, res1 := v[2], Reply := decide (v[3] &&& 0x80 > 0)
      All := decide (v[3] &&& 0x40 > 0), Orderly := decide (v[3] &&& 0x20 > 0), res2 := v[3] &&& 0x1f
      Link := v[4], RsnCode := u32 v[5] v[6] v[7] v[8]
      res3 := copyInto d.res3 (v.drop 9) } := by
  goparse [DeleteLink.parse]

theorem confirmRKey_parse (c : ConfirmRKey) {r₁ r₂ : RMBSpec} (hc : c.OtherRMBs = [r₁, r₂]) (v e : Bytes)
    (h : 44 ≤ v.length) :
    c.parse ⟨v, e⟩ = .ret [] {
      base := ⟨v, v[0].toNat, v[1].toNat⟩, res1 := v[2]
      Reply := decide (v[3] &&& 0x80 > 0), res2 := (v[3] &&& 0x40) >>> 6, Reject := decide (v[3] &&& 0x20 > 0)
      Retry := decide (v[3] &&& 0x10 > 0), res3 := v[3] &&& 0x0f
      NumTkns := v[4], RKey := u32 v[5] v[6] v[7] v[8]
      VAddr := u64 v[9] v[10] v[11] v[12] v[13] v[14] v[15] v[16]
      OtherRMBs := [
        ⟨v[17], u32 v[18] v[19] v[20] v[21], u64 v[22] v[23] v[24] v[25] v[26] v[27] v[28] v[29]⟩,
        ⟨v[30], u32 v[31] v[32] v[33] v[34], u64 v[35] v[36] v[37] v[38] v[39] v[40] v[41] v[42]⟩]
      res4 := v[43] } := by
  goparse [ConfirmRKey.parse, hc, parseRMBs, RMBSpec.parse]

theorem confirmRKeyCont_parse (c : ConfirmRKeyCont) {r₁ r₂ r₃ : RMBSpec} (hc : c.OtherRMBs = [r₁, r₂, r₃])
    (v e : Bytes) (h : 45 ≤ v.length) :
    c.parse ⟨v, e⟩ = .ret [] {
      base := ⟨v, v[0].toNat, v[1].toNat⟩, res1 := v[2]
      Reply := decide (v[3] &&& 0x80 > 0), res2 := (v[3] &&& 0x40) >>> 6, Reject := decide (v[3] &&& 0x20 > 0)
      res3 := v[3] &&& 0x1f
      NumTkns := v[4]
      OtherRMBs := [
        ⟨v[5], u32 v[6] v[7] v[8] v[9], u64 v[10] v[11] v[12] v[13] v[14] v[15] v[16] v[17]⟩,
        ⟨v[18], u32 v[19] v[20] v[21] v[22], u64 v[23] v[24] v[25] v[26] v[27] v[28] v[29] v[30]⟩,
        ⟨v[31], u32 v[32] v[33] v[34] v[35], u64 v[36] v[37] v[38] v[39] v[40] v[41] v[42] v[43]⟩]
      res4 := v[44] } := by
  goparse [ConfirmRKeyCont.parse, hc, parseRMBs, RMBSpec.parse]

theorem confirmRKeyCont_parse_44 (c : ConfirmRKeyCont) {r₁ r₂ r₃ : RMBSpec} (hc : c.OtherRMBs = [r₁, r₂, r₃])
    (v e : Bytes) (h : v.length = 44) : c.parse ⟨v, e⟩ = .panic [] := by
  have h2 : (Slice.mk (v.drop 44) e).idx 0 = .panic [] := Slice.idx_of_ge (by simp; omega)
  goparse [ConfirmRKeyCont.parse, hc, parseRMBs, RMBSpec.parse, h2, Go.panic_bind]

theorem deleteRKey_parse (d : DeleteRKey) {k₀ k₁ k₂ k₃ k₄ k₅ k₆ k₇ : UInt32}
    (hd : d.rkeys = [k₀, k₁, k₂, k₃, k₄, k₅, k₆, k₇]) (v e : Bytes) (h : 40 ≤ v.length) :
    d.parse ⟨v, e⟩ = .ret [] {
      base := ⟨v, v[0].toNat, v[1].toNat⟩, res1 := v[2]
      reply := decide (v[3] &&& 0x80 > 0), res2 := (v[3] &&& 0x40) >>> 6, reject := decide (v[3] &&& 0x20 > 0)
      res3 := v[3] &&& 0x1f
      count := v[4], errorMask := v[5], res4 := copyInto d.res4 ((v.drop 6).take 2)
      rkeys := [u32 v[8] v[9] v[10] v[11], u32 v[12] v[13] v[14] v[15], u32 v[16] v[17] v[18] v[19],
        u32 v[20] v[21] v[22] v[23], u32 v[24] v[25] v[26] v[27], u32 v[28] v[29] v[30] v[31],
        u32 v[32] v[33] v[34] v[35], u32 v[36] v[37] v[38] v[39]]
      res5 := copyInto d.res5 (v.drop 40) } := by
  goparse [DeleteRKey.parse, hd, parseRKeys]

theorem testLink_parse (t : TestLink) (v e : Bytes) (h : 20 ≤ v.length) :
    t.parse ⟨v, e⟩ = .ret [] {
      base := ⟨v, v[0].toNat, v[1].toNat⟩, res1 := v[2], Reply := decide (v[3] &&& 0x80 > 0)
      res2 := v[3] &&& 0x7f
      UserData := copyInto t.UserData ((v.drop 4).take 16)
      res3 := copyInto t.res3 (v.drop 20) } := by
  goparse [TestLink.parse]

theorem cdc_parse (c : CDC) (v e : Bytes) (h : 26 ≤ v.length) :
    c.parse ⟨v, e⟩ = .ret [] {
      base := ⟨v, v[0].toNat, v[1].toNat⟩
      SeqNum := u16 v[2] v[3], AlertTkn := u32 v[4] v[5] v[6] v[7]
      res1 := copyInto c.res1 ((v.drop 8).take 2)
      ProdWrap := u16 v[10] v[11], ProdCurs := u32 v[12] v[13] v[14] v[15]
      res2 := copyInto c.res2 ((v.drop 16).take 2)
      ConsWrap := u16 v[18] v[19], ConsCurs := u32 v[20] v[21] v[22] v[23]
      B := decide (v[24] &&& 0x80 > 0), P := decide (v[24] &&& 0x40 > 0), U := decide (v[24] &&& 0x20 > 0)
      R := decide (v[24] &&& 0x10 > 0), F := decide (v[24] &&& 0x08 > 0), res3 := v[24] &&& 0x07
      D := decide (v[25] &&& 0x80 > 0), C := decide (v[25] &&& 0x40 > 0), A := decide (v[25] &&& 0x20 > 0)
      res4 := (copyInto c.res4 [v[25] &&& 0x1f]).take 1
        ++ copyInto ((copyInto c.res4 [v[25] &&& 0x1f]).drop 1) (v.drop 26) } := by
  goparse [CDC.parse]

theorem other_parse (o : Other) (v e : Bytes) :
    o.parse ⟨v, e⟩ = .ret [] ⟨⟨v, 0x101, v.length⟩⟩ := by
  simp [Other.parse, setRaw_eq, TypeOther]

/-! ## Least lengths -/

theorem parsePairs_ret (rs : List RKeyPair) (s : Slice) (l p) (h : parsePairs rs s = .ret l p) :
    s.len = 16 * rs.length + p.2.len := by
  induction rs generalizing s l p with
  | nil => simp [parsePairs] at h; simp [← h.2]
  | cons r rs ih =>
    simp only [parsePairs, Go.bind_eq_ret, Slice.sfrom_eq_ret] at h
    obtain ⟨_, _, _, _, ⟨_, _, _, ⟨h1, _, rfl⟩, ⟨_, _, _, h3, h4, _⟩, _⟩, _⟩ := h
    have := ih _ _ _ h3
    cases h4
    simp only [Slice.len, List.length_drop, List.length_cons] at *; omega

theorem Needs.pairs {β : Type} {n m : Nat} {rs : List RKeyPair} {s : Slice} {f : List RKeyPair × Slice → Go β}
    (hm : 16 * rs.length = m) (h : ∀ rs t, Needs n t (f (rs, t))) : Needs (n + m) s (parsePairs rs s >>= f) := by
  intro l b hb
  obtain ⟨_, t, _, h1, h2, _⟩ := (Go.bind_eq_ret _ _ _ _).1 hb
  have h3 := parsePairs_ret _ _ _ _ h1
  have := h _ _ _ _ h2
  omega

theorem parseRMBs_ret (rs : List RMBSpec) (s : Slice) (l p) (h : parseRMBs rs s = .ret l p) :
    s.len = 13 * rs.length + p.2.len := by
  induction rs generalizing s l p with
  | nil => simp [parseRMBs] at h; simp [← h.2]
  | cons r rs ih =>
    simp only [parseRMBs, Go.bind_eq_ret, Slice.sfrom_eq_ret] at h
    obtain ⟨_, _, _, _, ⟨_, _, _, ⟨h1, _, rfl⟩, ⟨_, _, _, h3, h4, _⟩, _⟩, _⟩ := h
    have := ih _ _ _ h3
    cases h4
    simp only [Slice.len, List.length_drop, List.length_cons] at *; omega

theorem Needs.rmbs {β : Type} {n m : Nat} {rs : List RMBSpec} {s : Slice} {f : List RMBSpec × Slice → Go β}
    (hm : 13 * rs.length = m) (h : ∀ rs t, Needs n t (f (rs, t))) : Needs (n + m) s (parseRMBs rs s >>= f) := by
  intro l b hb
  obtain ⟨_, t, _, h1, h2, _⟩ := (Go.bind_eq_ret _ _ _ _).1 hb
  have h3 := parseRMBs_ret _ _ _ _ h1
  have := h _ _ _ _ h2
  omega

theorem parseRKeys_ret (rs : List UInt32) (s : Slice) (l p) (h : parseRKeys rs s = .ret l p) :
    s.len = 4 * rs.length + p.2.len := by
  induction rs generalizing s l p with
  | nil => simp [parseRKeys] at h; simp [← h.2]
  | cons r rs ih =>
    simp only [parseRKeys, Go.bind_eq_ret, Slice.sfrom_eq_ret] at h
    obtain ⟨_, _, _, _, ⟨_, _, _, _, ⟨_, _, _, ⟨h1, _, rfl⟩, ⟨_, _, _, h3, h4, _⟩, _⟩, _⟩, _⟩ := h
    have := ih _ _ _ h3
    cases h4
    simp only [Slice.len, List.length_drop, List.length_cons] at *; omega

theorem Needs.rkeys {β : Type} {n m : Nat} {rs : List UInt32} {s : Slice} {f : List UInt32 × Slice → Go β}
    (hm : 4 * rs.length = m) (h : ∀ rs t, Needs n t (f (rs, t))) : Needs (n + m) s (parseRKeys rs s >>= f) := by
  intro l b hb
  obtain ⟨_, t, _, h1, h2, _⟩ := (Go.bind_eq_ret _ _ _ _).1 hb
  have h3 := parseRKeys_ret _ _ _ _ h1
  have := h _ _ _ _ h2
  omega

theorem confirmLink_needs (c : ConfirmLink) (s : Slice) : Needs 35 s (c.parse s) := by
  unfold ConfirmLink.parse
  needs

theorem addLink_needs (c : AddLink) (s : Slice) : Needs 36 s (c.parse s) := by
  unfold AddLink.parse
  needs

theorem addLinkCont_needs (c : AddLinkCont) (hc : 16 * c.RKeyPairs.length = 32) (s : Slice) :
    Needs 40 s (c.parse s) := by
  unfold AddLinkCont.parse
  repeat (first
    | (refine Needs.sfrom fun _ => ?_)
    | (refine Needs.pairs (m := 32) hc fun _ _ => ?_)
    | exact Needs.zero _ _
    | (refine Needs.skip fun _ => ?_))

theorem deleteLink_needs (c : DeleteLink) (s : Slice) : Needs 9 s (c.parse s) := by
  unfold DeleteLink.parse
  needs

theorem confirmRKey_needs (c : ConfirmRKey) (hc : 13 * c.OtherRMBs.length = 26) (s : Slice) :
    Needs 44 s (c.parse s) := by
  unfold ConfirmRKey.parse
  repeat (first
    | (refine Needs.sfrom fun _ => ?_)
    | (refine Needs.rmbs (m := 26) hc fun _ _ => ?_)
    | exact Needs.idx
    | (refine Needs.skip fun _ => ?_))

theorem confirmRKeyCont_needs (c : ConfirmRKeyCont) (hc : 13 * c.OtherRMBs.length = 39) (s : Slice) :
    Needs 45 s (c.parse s) := by
  unfold ConfirmRKeyCont.parse
  repeat (first
    | (refine Needs.sfrom fun _ => ?_)
    | (refine Needs.rmbs (m := 39) hc fun _ _ => ?_)
    | exact Needs.idx
    | (refine Needs.skip fun _ => ?_))

theorem deleteRKey_needs (c : DeleteRKey) (hc : 4 * c.rkeys.length = 32) (s : Slice) :
    Needs 40 s (c.parse s) := by
  unfold DeleteRKey.parse
  repeat (first
    | (refine Needs.sfrom fun _ => ?_)
    | (refine Needs.rkeys (m := 32) hc fun _ _ => ?_)
    | exact Needs.zero _ _
    | (refine Needs.skip fun _ => ?_))

theorem testLink_needs (c : TestLink) (s : Slice) : Needs 20 s (c.parse s) := by
  unfold TestLink.parse
  needs

theorem cdc_needs (c : CDC) (s : Slice) : Needs 26 s (c.parse s) := by
  unfold CDC.parse
  needs

end SMC.LLC
