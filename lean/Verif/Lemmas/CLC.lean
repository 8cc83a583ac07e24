import Verif.CLC.Message
import Verif.Lemmas.Go
/-!
# Closed forms of the pkg/clc parsers for messages of fixed layout
-/

namespace SMC.CLC

/-- the header in closed form -/
def hdrOf (v : Bytes) (h : 8 ≤ v.length) : Header where
  Eyecatcher := v.take 4
  Typ := v[4]
  Length := u16 v[5] v[6]
  Version := (v[7] &&& 0b11110000) >>> 4
  Flag := (v[7] &&& 0b00001000) >>> 3
  rsv := (v[7] &&& 0b00000100) >>> 2
  Pathv2 := (v[7] &&& 0b00001100) >>> 2
  Path := v[7] &&& 0b00000011

theorem header_parse (h : Header) (hh : h.Eyecatcher.length = 4) (v e : Bytes) (hv : 8 ≤ v.length) :
    h.parse ⟨v, e⟩ = .ret [] (hdrOf v hv) := by
  simp (disch := first | omega | (simp; omega)) only [Header.parse, Slice.sto, EyecatcherLen, Slice.sub_mk, Go.ret_bind,
    Slice.idx_of_lt, Nat.reduceSub, List.drop_zero, copyInto_eq, be16_drop, Go.pure_eq, hdrOf, Nat.reduceAdd]

theorem header_needs (h : Header) (s : Slice) : Needs 8 s (h.parse s) := by
  unfold Header.parse
  refine Needs.skip fun _ => Needs.skip fun _ => Needs.skip fun _ => Needs.skip fun _ => ?_
  exact Needs.idx

/-! ## Trailer -/

/-- the last four bytes -/
def last4 (v : Bytes) : Bytes := v.drop (v.length - 4)

@[simp] theorem last4_length {v : Bytes} (h : 4 ≤ v.length) : (last4 v).length = 4 := by
  simp [last4]; omega

theorem last4_drop {v : Bytes} {k : Nat} (h : k + 4 ≤ v.length) : last4 (v.drop k) = last4 v := by
  simp only [last4, List.drop_drop, List.length_drop]
  congr 1; omega

/-- the text of `errDump` -/
def dumpText (v : Bytes) : Bytes := sprintf (go! "Message Buffer Hex Dump:\n%s") [.str (hexDump v)]

/-- what `Trailer.Parse` logs for the last four bytes `t` -/
def trailerLog (t : Bytes) : List Bytes :=
  if t = SMCREyecatcher ∨ t = SMCDEyecatcher then []
  else [go! "Error parsing CLC message: invalid trailer", dumpText t]

theorem lastBytes_eq (v e : Bytes) (h : 4 ≤ v.length) : lastBytes ⟨v, e⟩ = .ret [] ⟨last4 v, e⟩ := by
  simp only [lastBytes, Slice.len_mk, TrailerLen, EyecatcherLen, show ¬ v.length < 4 by omega, if_false]
  rw [Slice.sfrom_mk (by omega)]; rfl

theorem hasEyecatcher_eq (v e : Bytes) (h : 4 ≤ v.length + e.length) :
    hasEyecatcher ⟨v, e⟩ =
      .ret [] (decide ((v ++ e).take 4 = SMCREyecatcher ∨ (v ++ e).take 4 = SMCDEyecatcher)) := by
  have hs : (Slice.mk v e).sto EyecatcherLen = .ret [] ⟨(v ++ e).take 4, (v ++ e).drop 4⟩ := by
    simp [Slice.sto, Slice.sub, EyecatcherLen, h]
  simp only [hasEyecatcher, hs, Go.ret_bind, Go.pure_eq]
  split
  · simp_all
  · split <;> simp_all

theorem trailer_parse (t : Bytes) (ht : t.length = 4) (v e : Bytes) (h : 4 ≤ v.length) :
    trailerParse t ⟨v, e⟩ = .ret (trailerLog (last4 v)) (last4 v) := by
  have h4 : (last4 v).length = 4 := last4_length h
  unfold trailerParse
  simp only [lastBytes_eq v e h, Go.ret_bind, copyInto_eq (ht.trans h4.symm)]
  rw [hasEyecatcher_eq _ _ (by simp [h4]), List.append_nil, List.take_of_length_le (by omega), Go.ret_bind]
  unfold trailerLog
  by_cases hc : last4 v = SMCREyecatcher ∨ last4 v = SMCDEyecatcher
  · simp [hc]
  · rw [decide_eq_false hc, if_pos rfl, if_neg hc]; rfl

theorem trailer_needs {β : Type} (t : Bytes) (s : Slice) (f : Bytes → Go β) :
    Needs 4 s (trailerParse t s >>= f) := by
  intro l b hb
  obtain ⟨_, _, _, h1, _, _⟩ := (Go.bind_eq_ret _ _ _ _).1 hb
  unfold trailerParse at h1
  obtain ⟨_, _, _, h2, _, _⟩ := (Go.bind_eq_ret _ _ _ _).1 h1
  unfold lastBytes at h2
  split at h2
  · cases h2
  · simp only [TrailerLen, EyecatcherLen] at *; omega

/-! ## Rejected messages -/

/-- the result of logging `msg` and the first `n` bytes of the buffer, then returning `x` -/
def reject {α : Type} (msg : Bytes) (v e : Bytes) (n : Nat) (x : α) : Go α :=
  if n ≤ v.length + e.length then .ret [msg, dumpText ((v ++ e).take n)] x else .panic [msg]

theorem reject_eq {α : Type} (msg : Bytes) (v e : Bytes) (n : Nat) (x : α) :
    (Go.log msg >>= fun _ => (Slice.mk v e).sto n >>= fun s => errDump s >>= fun _ => (pure x : Go α))
      = reject msg v e n x := by
  unfold reject Slice.sto Slice.sub
  by_cases h : n ≤ v.length + e.length
  · simp only [Slice.cap_mk, Nat.zero_le, true_and, h, if_true]; rfl
  · simp only [Slice.cap_mk, Nat.zero_le, true_and, h, if_false]; rfl

/-! ## Parsers -/

/-- runs a straight-line parser on a slice known to be long enough -/
syntax "clcparse" "[" Lean.Parser.Tactic.simpLemma,* "]" : tactic
macro_rules
  | `(tactic| clcparse [$ls,*]) => `(tactic|
    simp (disch := first | omega | (simp; omega)) only [header_parse, Go.ret_bind, Slice.idx_of_lt, Slice.sto,
      Slice.idx_drop, Slice.sub_mk, Slice.sfrom_mk, List.drop_drop, List.getElem_drop,
      be16_drop, be32_drop, be64_drop, Go.pure_eq, copyInto_eq, Nat.reduceAdd, Nat.reduceSub, Nat.add_zero,
      List.drop_zero, HeaderLen, PeerIDLen, EIDLen, rawParse, $ls,*])

/-- appends the log of the trailer to a result -/
theorem trailer_last {β : Type} (t : Bytes) (ht : t.length = 4) (v e : Bytes) (k : Nat) (h : k + 4 ≤ v.length)
    (f : Bytes → β) :
    (trailerParse t ⟨v.drop k, e⟩ >>= fun t => Go.ret [] (f t)) = .ret (trailerLog (last4 v)) (f (last4 v)) := by
  rw [trailer_parse t ht _ e (by simp; omega), last4_drop h]
  show Go.bind _ _ = _
  simp [Go.bind]

/-- adds up what a parser ending with the trailer consumes -/
macro "clcneeds" : tactic => `(tactic|
  repeat (first | exact trailer_needs _ _ _ | refine Needs.sfrom fun _ => ?_ | refine Needs.skip fun _ => ?_))

section
variable (v e : Bytes) (hv : 8 ≤ v.length)

/-! ### Decline -/

theorem decline_short (d : Decline) (hh : d.hdr.Eyecatcher.length = 4) (hl : (hdrOf v hv).Length.toNat < 28) :
    d.parse ⟨v, e⟩ = reject (go! "Error parsing CLC Decline: message too short") v e (hdrOf v hv).Length.toNat
      { d with raw := ⟨v, e⟩, hdr := hdrOf v hv } := by
  rw [← reject_eq]
  simp only [Decline.parse, header_parse _ hh v e hv, Go.ret_bind, DeclineLen, hl, if_true, rawParse]

theorem decline_parse (d : Decline) (hh : d.hdr.Eyecatcher.length = 4) (h1 : d.SenderPeerID.length = 8)
    (h2 : d.rsv.length = 4) (h3 : d.trailer.length = 4)
    (hl : 28 ≤ (hdrOf v hv).Length.toNat) (h : 28 ≤ v.length) :
    d.parse ⟨v, e⟩ = .ret (trailerLog (last4 v)) {
      raw := ⟨v, e⟩, hdr := hdrOf v hv, SenderPeerID := (v.drop 8).take 8
      PeerDiagnosis := u32 v[16] v[17] v[18] v[19], OSType := d.OSType, rsv := (v.drop 20).take 4
      trailer := last4 v } := by
  have hl' : ¬ (hdrOf v hv).Length.toNat < 28 := by omega
  clcparse [Decline.parse, hl', if_false, DeclineLen, trailer_last]

theorem decline_needs (d : Decline) (hh : d.hdr.Eyecatcher.length = 4) (hl : 28 ≤ (hdrOf v hv).Length.toNat) :
    Needs 28 ⟨v, e⟩ (d.parse ⟨v, e⟩) := by
  have hl' : ¬ (hdrOf v hv).Length.toNat < 28 := by omega
  simp only [Decline.parse, header_parse _ hh v e hv, Go.ret_bind, hl', if_false, DeclineLen, HeaderLen, PeerIDLen]
  clcneeds

/-! ### Decline version 2 -/

theorem declineV2_short (d : DeclineV2) (hh : d.hdr.Eyecatcher.length = 4) (hl : (hdrOf v hv).Length.toNat < 28) :
    d.parse ⟨v, e⟩ = reject (go! "Error parsing CLC Decline: message too short") v e (hdrOf v hv).Length.toNat
      { d with raw := ⟨v, e⟩, hdr := hdrOf v hv } := by
  rw [← reject_eq]
  simp only [DeclineV2.parse, header_parse _ hh v e hv, Go.ret_bind, DeclineLen, hl, if_true, rawParse]

theorem declineV2_parse (d : DeclineV2) (hh : d.hdr.Eyecatcher.length = 4) (h1 : d.SenderPeerID.length = 8)
    (h2 : d.rsv.length = 4) (h3 : d.trailer.length = 4)
    (hl : 28 ≤ (hdrOf v hv).Length.toNat) (h : 28 ≤ v.length) :
    d.parse ⟨v, e⟩ = .ret (trailerLog (last4 v)) {
      raw := ⟨v, e⟩, hdr := hdrOf v hv, SenderPeerID := (v.drop 8).take 8
      PeerDiagnosis := u32 v[16] v[17] v[18] v[19], OSType := v[20] >>> 4
      rsv := [v[20] &&& 0b00001111, v[21], v[22], v[23]]
      trailer := last4 v } := by
  have hl' : ¬ (hdrOf v hv).Length.toNat < 28 := by omega
  have h4 : ((v.drop 20).take 4).modify 0 (· &&& 0b00001111) = [v[20] &&& 0b00001111, v[21], v[22], v[23]] := by
    apply List.ext_getElem
    · simp; omega
    · intro i hi _
      have : i = 0 ∨ i = 1 ∨ i = 2 ∨ i = 3 := by simp at hi; omega
      rcases this with rfl | rfl | rfl | rfl <;> simp
  clcparse [DeclineV2.parse, hl', if_false, DeclineLen, trailer_last, h4]

theorem declineV2_needs (d : DeclineV2) (hh : d.hdr.Eyecatcher.length = 4) (hl : 28 ≤ (hdrOf v hv).Length.toNat) :
    Needs 28 ⟨v, e⟩ (d.parse ⟨v, e⟩) := by
  have hl' : ¬ (hdrOf v hv).Length.toNat < 28 := by omega
  simp only [DeclineV2.parse, header_parse _ hh v e hv, Go.ret_bind, hl', if_false, DeclineLen, HeaderLen, PeerIDLen]
  clcneeds

/-! ### Accept -/

/-- the first text logged for a short Accept or Confirm -/
def acceptText (t : UInt8) : Bytes :=
  if t = TypeConfirm then go! "Error parsing CLC Confirm: message too short"
  else go! "Error parsing CLC Accept: message too short"

/-- likewise for SMC-Dv2 -/
def acceptV2Text (t : UInt8) : Bytes :=
  if t = TypeConfirm then go! "Error parsing SMC-Dv2 CLC Confirm: message too short"
  else go! "Error parsing SMC-Dv2 CLC Accept: message too short"

theorem smcr_short (a : AcceptSMCR) (hh : a.hdr.Eyecatcher.length = 4) (hl : (hdrOf v hv).Length.toNat < 68) :
    a.parse ⟨v, e⟩ = reject (acceptText v[4]) v e (hdrOf v hv).Length.toNat
      { a with raw := ⟨v, e⟩, hdr := hdrOf v hv } := by
  rw [← reject_eq]
  simp only [AcceptSMCR.parse, header_parse _ hh v e hv, Go.ret_bind, AcceptSMCRLen, hl, if_true, rawParse, acceptText]
  rfl

theorem smcr_parse (a : AcceptSMCR) (hh : a.hdr.Eyecatcher.length = 4) (h1 : a.SenderPeerID.length = 8)
    (h3 : a.trailer.length = 4) (hl : 68 ≤ (hdrOf v hv).Length.toNat) (h : 68 ≤ v.length) :
    a.parse ⟨v, e⟩ = .ret (trailerLog (last4 v)) {
      raw := ⟨v, e⟩, hdr := hdrOf v hv, SenderPeerID := (v.drop 8).take 8
      IBGID := (v.drop 16).take 16, IBMAC := (v.drop 32).take 6
      QPN := v[38].toNat <<< 16 ||| v[39].toNat <<< 8 ||| v[40].toNat
      RMBRKey := u32 v[41] v[42] v[43] v[44], RMBEIdx := v[45]
      RMBEAlertToken := u32 v[46] v[47] v[48] v[49]
      RMBESize := (v[50] &&& 0b11110000) >>> 4, QPMTU := v[50] &&& 0b00001111, rsv := v[51]
      RMBDMAAddr := u64 v[52] v[53] v[54] v[55] v[56] v[57] v[58] v[59]
      rsv2 := v[60], PSN := v[61].toNat <<< 16 ||| v[62].toNat <<< 8 ||| v[63].toNat
      trailer := last4 v } := by
  have hl' : ¬ (hdrOf v hv).Length.toNat < 68 := by omega
  clcparse [AcceptSMCR.parse, hl', if_false, AcceptSMCRLen, trailer_last]

theorem smcr_needs (a : AcceptSMCR) (hh : a.hdr.Eyecatcher.length = 4) (hl : 68 ≤ (hdrOf v hv).Length.toNat) :
    Needs 68 ⟨v, e⟩ (a.parse ⟨v, e⟩) := by
  have hl' : ¬ (hdrOf v hv).Length.toNat < 68 := by omega
  simp only [AcceptSMCR.parse, header_parse _ hh v e hv, Go.ret_bind, hl', if_false, AcceptSMCRLen, HeaderLen, PeerIDLen]
  clcneeds

theorem smcd_short (a : AcceptSMCD) (hh : a.hdr.Eyecatcher.length = 4) (hl : (hdrOf v hv).Length.toNat < 48) :
    a.parse ⟨v, e⟩ = reject (acceptText v[4]) v e (hdrOf v hv).Length.toNat
      { a with raw := ⟨v, e⟩, hdr := hdrOf v hv } := by
  rw [← reject_eq]
  simp only [AcceptSMCD.parse, header_parse _ hh v e hv, Go.ret_bind, AcceptSMCDLen, hl, if_true, rawParse, acceptText]
  rfl

theorem smcd_parse (a : AcceptSMCD) (hh : a.hdr.Eyecatcher.length = 4) (h1 : a.rsv2.length = 2)
    (h2 : a.rsv3.length = 12) (h3 : a.trailer.length = 4) (hl : 48 ≤ (hdrOf v hv).Length.toNat) (h : 48 ≤ v.length) :
    a.parse ⟨v, e⟩ = .ret (trailerLog (last4 v)) {
      raw := ⟨v, e⟩, hdr := hdrOf v hv
      GID := u64 v[8] v[9] v[10] v[11] v[12] v[13] v[14] v[15]
      Token := u64 v[16] v[17] v[18] v[19] v[20] v[21] v[22] v[23]
      DMBEIdx := v[24], DMBESize := (v[25] &&& 0b11110000) >>> 4, rsv := v[25] &&& 0b00001111
      rsv2 := (v.drop 26).take 2, LinkID := u32 v[28] v[29] v[30] v[31]
      rsv3 := (v.drop 32).take 12, trailer := last4 v } := by
  have hl' : ¬ (hdrOf v hv).Length.toNat < 48 := by omega
  clcparse [AcceptSMCD.parse, hl', if_false, AcceptSMCDLen, trailer_last]

theorem smcd_needs (a : AcceptSMCD) (hh : a.hdr.Eyecatcher.length = 4) (hl : 48 ≤ (hdrOf v hv).Length.toNat) :
    Needs 48 ⟨v, e⟩ (a.parse ⟨v, e⟩) := by
  have hl' : ¬ (hdrOf v hv).Length.toNat < 48 := by omega
  simp only [AcceptSMCD.parse, header_parse _ hh v e hv, Go.ret_bind, hl', if_false, AcceptSMCDLen, HeaderLen]
  clcneeds

theorem smcdv2_short (a : AcceptSMCDv2) (hh : a.hdr.Eyecatcher.length = 4)
    (hl : (hdrOf v hv).Length.toNat < 78 ∨ v.length < 78) :
    a.parse ⟨v, e⟩ = reject (acceptV2Text v[4]) v e (hdrOf v hv).Length.toNat
      { a with raw := ⟨v, e⟩, hdr := hdrOf v hv } := by
  rw [← reject_eq]
  simp only [AcceptSMCDv2.parse, header_parse _ hh v e hv, Go.ret_bind, AcceptSMCDv2Len, Slice.len_mk, hl, if_true, rawParse,
    acceptV2Text]
  rfl

/-- the result of parsing a message without first contact extension -/
def smcdv2Of (a : AcceptSMCDv2) (h : 78 ≤ v.length) : AcceptSMCDv2 := {
  raw := ⟨v, e⟩, hdr := hdrOf v hv
  GID := u64 v[8] v[9] v[10] v[11] v[12] v[13] v[14] v[15]
  Token := u64 v[16] v[17] v[18] v[19] v[20] v[21] v[22] v[23]
  DMBEIdx := v[24], DMBESize := (v[25] &&& 0b11110000) >>> 4, rsv := v[25] &&& 0b00001111
  rsv2 := (v.drop 26).take 2, LinkID := u32 v[28] v[29] v[30] v[31], ISMv2VCHID := u16 v[32] v[33]
  EID := (v.drop 34).take 32, rsv3 := (v.drop 66).take 8
  rsv4 := a.rsv4, OSType := a.OSType, Release := a.Release, rsv5 := a.rsv5, Hostname := a.Hostname
  trailer := last4 v }

theorem smcdv2_parse (a : AcceptSMCDv2) (hh : a.hdr.Eyecatcher.length = 4) (h1 : a.rsv2.length = 2)
    (h2 : a.EID.length = 32) (h3 : a.rsv3.length = 8) (h4 : a.trailer.length = 4)
    (hl : 78 ≤ (hdrOf v hv).Length.toNat) (hn : (hdrOf v hv).Length.toNat ≠ 114) (h : 78 ≤ v.length) :
    a.parse ⟨v, e⟩ = .ret (trailerLog (last4 v)) (smcdv2Of v e hv a h) := by
  have hl' : ¬ ((hdrOf v hv).Length.toNat < 78 ∨ v.length < 78) := by omega
  clcparse [AcceptSMCDv2.parse, hl', if_false, AcceptSMCDv2Len, AcceptSMCDv2FCELen, hn, Slice.len_mk, trailer_last, smcdv2Of]

theorem smcdv2_parse_fce (a : AcceptSMCDv2) (hh : a.hdr.Eyecatcher.length = 4) (h1 : a.rsv2.length = 2)
    (h2 : a.EID.length = 32) (h3 : a.rsv3.length = 8) (h4 : a.trailer.length = 4) (h5 : a.rsv5.length = 2)
    (h6 : a.Hostname.length = 32)
    (hl : (hdrOf v hv).Length.toNat = 114) (h : 114 ≤ v.length) :
    a.parse ⟨v, e⟩ = .ret (trailerLog (last4 v)) { smcdv2Of v e hv a (by omega) with
      rsv4 := v[74], OSType := v[75] >>> 4, Release := v[75] &&& 0b00001111, rsv5 := (v.drop 76).take 2
      Hostname := (v.drop 78).take 32 } := by
  have hl' : ¬ (114 < 78 ∨ v.length < 78) := by omega
  clcparse [AcceptSMCDv2.parse, hl', if_false, if_true, AcceptSMCDv2Len, AcceptSMCDv2FCELen, hl, Slice.len_mk, trailer_last,
    AcceptSMCDv2.parseFCE, smcdv2Of]

theorem parseFCE_ret (a : AcceptSMCDv2) (s : Slice) (l p) (h : a.parseFCE s = .ret l p) :
    s.len = 36 + p.2.len := by
  simp only [AcceptSMCDv2.parseFCE, Go.bind_eq_ret, Slice.sfrom_eq_ret] at h
  obtain ⟨_, _, _, _, ⟨_, _, _, ⟨h1, _, rfl⟩, ⟨_, _, _, _, ⟨_, _, _, _, ⟨_, _, _, ⟨h2, _, rfl⟩, ⟨_, _, _, _, ⟨_, _, _, ⟨h3, _, rfl⟩,
    ⟨_, _, _, _, ⟨_, _, _, ⟨h4, _, rfl⟩, h5, _⟩, _⟩, _⟩, _⟩, _⟩, _⟩, _⟩, _⟩, _⟩ := h
  cases h5
  simp only [Slice.len, List.length_drop, EIDLen] at *; omega

theorem smcdv2_needs (a : AcceptSMCDv2) (hh : a.hdr.Eyecatcher.length = 4) (hl : (hdrOf v hv).Length.toNat = 114)
    (h : 78 ≤ v.length) : Needs 114 ⟨v, e⟩ (a.parse ⟨v, e⟩) := by
  have hl' : ¬ (114 < 78 ∨ v.length < 78) := by omega
  simp only [AcceptSMCDv2.parse, header_parse _ hh v e hv, Go.ret_bind, hl', if_false, AcceptSMCDv2Len, HeaderLen,
    Slice.len_mk, AcceptSMCDv2FCELen, hl, if_true]
  have key : ∀ (a : AcceptSMCDv2) (s : Slice) (f : AcceptSMCDv2 × Slice → Go AcceptSMCDv2),
      (∀ a t, Needs 4 t (f (a, t))) → Needs 40 s (a.parseFCE s >>= f) := by
    intro a s f hf l b hb
    obtain ⟨_, t, _, h1, h2, _⟩ := (Go.bind_eq_ret _ _ _ _).1 hb
    have := parseFCE_ret _ _ _ _ h1
    have := hf _ _ _ _ h2
    omega
  repeat (first | (refine key _ _ _ fun _ _ => ?_) | exact trailer_needs _ _ _ | refine Needs.sfrom fun _ => ?_ |
    refine Needs.skip fun _ => ?_)

end

end SMC.CLC
