import Verif.Lemmas.CLC
/-!
# Closed form of `Proposal.Parse` on complete messages
-/

namespace SMC.CLC

/-- the prefix at position `k` -/
def pfxAt (v : Bytes) (k : Nat) : IPv6Prefix := ⟨(v.drop k).take 16, v.getD (k + 16) 0⟩

/-- `n` prefixes from position `k` on -/
def pfxs (v : Bytes) : Nat → Nat → List IPv6Prefix
  | _, 0 => []
  | k, n + 1 => pfxAt v k :: pfxs v (k + 17) n

/-- how many entries of `w` bytes fit between `k` and the trailer of a message of `L` bytes -/
def fits (L k w : Nat) : Nat := (L - 4 - k) / w

theorem fits_zero {L k w : Nat} (hw : 0 < w) (h : L < k + w + 4) : fits L k w = 0 := by
  unfold fits
  exact Nat.div_eq_of_lt (by omega)

theorem fits_succ {L k w : Nat} (hw : 0 < w) (h : k + w + 4 ≤ L) : fits L k w = fits L (k + w) w + 1 := by
  unfold fits
  rw [show L - 4 - (k + w) = L - 4 - k - w by omega, ← Nat.sub_add_cancel (show w ≤ L - 4 - k by omega),
    Nat.add_div_right _ hw, Nat.add_sub_cancel]

theorem fits_le {L k w n : Nat} (hw : 0 < w) (h : n ≤ fits L k w) (hk : k + 4 ≤ L) : k + w * n + 4 ≤ L := by
  unfold fits at h
  have := (Nat.le_div_iff_mul_le hw).1 h
  rw [Nat.mul_comm] at this
  omega

/-- an error text and the dump of the first `L` bytes -/
def errLog (msg v : Bytes) (L : Nat) : List Bytes := [msg, dumpText (v.take L)]

theorem reject_ret {α : Type} (msg v e : Bytes) (L : Nat) (x : α) (h : L ≤ v.length) :
    reject msg v e L x = .ret (errLog msg v L) x := by
  unfold reject errLog
  rw [if_pos (by omega), List.take_append_of_le_length h]

/-- the error text of the prefix loop -/
def pfxText : Bytes := go! "Error parsing CLC Proposal: IPv6 prefix count too big"

/-- what the prefix loop logs for `n` announced prefixes -/
def pfxLog (msg v : Bytes) (L k w n : Nat) : List Bytes := if n ≤ fits L k w then [] else errLog msg v L

theorem pfxLog_zero (msg v : Bytes) (L k w : Nat) : pfxLog msg v L k w 0 = [] := if_pos (Nat.zero_le _)

theorem pfxLog_succ {msg v : Bytes} {L k w n : Nat} (hw : 0 < w) (h : k + w + 4 ≤ L) :
    pfxLog msg v L k w (n + 1) = pfxLog msg v L (k + w) w n := by
  unfold pfxLog; rw [fits_succ hw h]; simp

theorem parsePrefixes_eq (L : UInt16) (v e : Bytes) (hL : L.toNat ≤ v.length) (n k : Nat) (ps : List IPv6Prefix) :
    parsePrefixes L ⟨v, e⟩ n k ps
      = .ret (pfxLog pfxText v L.toNat (k + 1) 17 n) (ps ++ pfxs v (k + 1) (min n (fits L.toNat (k + 1) 17))) := by
  induction n generalizing k ps with
  | zero => simp [parsePrefixes, pfxLog_zero, pfxs]
  | succ n ih =>
    have hc : ((L.toNat : Int) - ((k + 1 : Nat) : Int) < IPv6PrefixLen + TrailerLen) ↔ L.toNat < k + 1 + 17 + 4 := by
      simp only [IPv6PrefixLen, TrailerLen, EyecatcherLen]; omega
    unfold parsePrefixes
    simp only [hc]
    by_cases h : L.toNat < k + 1 + 17 + 4
    · simp only [h, if_true]
      have hz := fits_zero (k := k + 1) (w := 17) (by omega) h
      have := reject_eq pfxText v e L.toNat ps
      rw [reject_ret _ _ _ _ _ hL] at this
      simp only [pfxLog, hz, Nat.min_zero, pfxs, List.append_nil]
      exact this
    · simp only [h, if_false]
      have h' : k + 1 + 17 + 4 ≤ L.toNat := by omega
      rw [Slice.sub_mk (by omega) (by omega), Go.ret_bind, Slice.idx_of_lt (by omega), Go.ret_bind, ih,
        pfxLog_succ (k := k + 1) (w := 17) (by omega) h', fits_succ (k := k + 1) (w := 17) (by omega) h',
        Nat.succ_min_succ, pfxs, show k + 1 + 16 + 1 = k + 1 + 17 by omega]
      have h16 : (v.drop (k + 1)).take (k + 1 + 16 - (k + 1)) = (v.drop (k + 1)).take 16 := by
        congr 1; omega
      have hg : v.getD (k + 1 + 16) 0 = v[k + 1 + 16] := by
        rw [List.getD_eq_getElem?_getD, List.getElem?_eq_getElem (by omega)]; rfl
      simp only [h16, List.append_assoc, List.singleton_append, pfxAt, hg]
      rw [copyInto_eq (by simp; omega)]

section
variable (v e : Bytes) (hv : 8 ≤ v.length)

theorem proposal_short (p : Proposal) (hh : p.hdr.Eyecatcher.length = 4) (hl : (hdrOf v hv).Length.toNat < 52) :
    p.parse ⟨v, e⟩ = reject (go! "Error parsing CLC Proposal: message too short") v e (hdrOf v hv).Length.toNat
      { p with raw := ⟨v, e⟩, hdr := hdrOf v hv } := by
  rw [← reject_eq]
  simp only [Proposal.parse, header_parse _ hh v e hv, Go.ret_bind, ProposalLen, hl, if_true, rawParse]

/-- the fields before the SMC-D info -/
def propBase (p : Proposal) (h : 52 ≤ v.length) : Proposal := { p with
  raw := ⟨v, e⟩, hdr := hdrOf v hv, SenderPeerID := (v.drop 8).take 8, IBGID := (v.drop 16).take 16
  IBMAC := (v.drop 32).take 6, IPAreaOffset := u16 v[38] v[39] }

/-- the fields before the IP area -/
def propFixed (p : Proposal) (h : 52 ≤ v.length) : Proposal :=
  if (u16 v[38] v[39]).toNat = 40 then
    { propBase v e hv p h with
      SMCDGID := u64 v[40] v[41] v[42] v[43] v[44] v[45] v[46] v[47], rsv := ((v ++ e).drop 48).take 32 }
  else propBase v e hv p h

theorem parseSMCD_eq (p : Proposal) (hr : p.rsv.length = 32) (h : 52 ≤ v.length)
    (hc : (u16 v[38] v[39]).toNat = 40 → 80 ≤ v.length + e.length) :
    (propBase v e hv p h).parseSMCD ⟨v, e⟩ 40
      = .ret [] (propFixed v e hv p h, 40 + (u16 v[38] v[39]).toNat) := by
  unfold Proposal.parseSMCD propFixed
  by_cases ho : (u16 v[38] v[39]).toNat = 40
  · have hsub : (Slice.mk v e).sub 48 80 = .ret [] ⟨((v ++ e).drop 48).take 32, (v ++ e).drop 80⟩ := by
      unfold Slice.sub; rw [if_pos ⟨by omega, hc ho⟩]
    simp only [show (propBase v e hv p h).IPAreaOffset = u16 v[38] v[39] from rfl, ho, SMCDIPAreaOffset, if_true,
      Nat.reduceAdd]
    have hcap := hc ho
    have hcopy : copyInto p.rsv (((v ++ e).drop 48).take 32) = ((v ++ e).drop 48).take 32 :=
      copyInto_eq (by simp; omega)
    rw [Slice.sub_mk (by omega) (by omega), Go.ret_bind, be64_drop (by omega), Go.ret_bind, hsub, Go.ret_bind]
    simp only [Go.pure_eq, propBase, hcopy]
  · simp only [show (propBase v e hv p h).IPAreaOffset = u16 v[38] v[39] from rfl, ho, SMCDIPAreaOffset, if_false,
      Go.pure_eq]

theorem parseSMCD_panic (p : Proposal) (h : 52 ≤ v.length)
    (ho : (u16 v[38] v[39]).toNat = 40) (hc : v.length + e.length < 80) :
    (propBase v e hv p h).parseSMCD ⟨v, e⟩ 40 = .panic [] := by
  unfold Proposal.parseSMCD
  have hsub : (Slice.mk v e).sub 48 80 = .panic [] := by
    unfold Slice.sub; rw [if_neg (by simp; omega)]
  simp only [show (propBase v e hv p h).IPAreaOffset = u16 v[38] v[39] from rfl, ho, SMCDIPAreaOffset, if_true,
    Nat.reduceAdd]
  rw [Slice.sub_mk (by omega) (by omega), Go.ret_bind, be64_drop (by omega), Go.ret_bind, hsub, Go.panic_bind]

/-- what follows the SMC-D info -/
def propRest (p : Proposal) (buf : Slice) (skip : Nat) : Go Proposal :=
  if (p.hdr.Length.toNat : Int) - skip < 4 + 1 + 2 + 1 + TrailerLen then do
    Go.log (go! "Error parsing CLC Proposal: IP Area Offset too big")
    errDump (← buf.sto p.hdr.Length.toNat)
    pure p
  else do
    let p := { p with Prefix := copyInto (zeros 4) (← buf.sub skip (skip + 4)).vis }
    let skip := skip + 4
    let p := { p with PrefixLen := ← buf.idx skip }
    let skip := skip + 1
    let p := { p with rsv2 := copyInto p.rsv2 (← buf.sub skip (skip + 2)).vis }
    let skip := skip + 2
    let p := { p with IPv6PrefixesCnt := ← buf.idx skip }
    let p := { p with IPv6Prefixes := ← parsePrefixes p.hdr.Length buf p.IPv6PrefixesCnt.toNat skip p.IPv6Prefixes }
    let p := { p with trailer := ← trailerParse p.trailer buf }
    pure p

theorem proposal_step (p : Proposal) (hh : p.hdr.Eyecatcher.length = 4) (h1 : p.SenderPeerID.length = 8)
    (hl : 52 ≤ (hdrOf v hv).Length.toNat) (h : 52 ≤ v.length) :
    p.parse ⟨v, e⟩ = ((propBase v e hv p h).parseSMCD ⟨v, e⟩ 40 >>= fun q => propRest q.1 ⟨v, e⟩ q.2) := by
  have hl' : ¬ (hdrOf v hv).Length.toNat < 52 := by omega
  clcparse [Proposal.parse, hl', if_false, ProposalLen]
  rfl

/-- the fields of a message with its IP area at `k` -/
def propFull (p : Proposal) (k : Nat) : Proposal := { p with
  Prefix := (v.drop k).take 4, PrefixLen := v.getD (k + 4) 0, rsv2 := (v.drop (k + 5)).take 2
  IPv6PrefixesCnt := v.getD (k + 7) 0
  IPv6Prefixes := p.IPv6Prefixes ++ pfxs v (k + 8) (min (v.getD (k + 7) 0).toNat (fits p.hdr.Length.toNat (k + 8) 17))
  trailer := last4 v }

theorem getD_lt {v : Bytes} {i : Nat} (h : i < v.length) : v.getD i 0 = v[i] := by
  rw [List.getD_eq_getElem?_getD, List.getElem?_eq_getElem h]; rfl

theorem propRest_big (p : Proposal) (k : Nat) (hL : p.hdr.Length.toNat ≤ v.length) (h : p.hdr.Length.toNat < k + 12) :
    propRest p ⟨v, e⟩ k = .ret (errLog (go! "Error parsing CLC Proposal: IP Area Offset too big") v p.hdr.Length.toNat) p := by
  have hc : (p.hdr.Length.toNat : Int) - (k : Int) < 4 + 1 + 2 + 1 + TrailerLen := by
    simp only [TrailerLen, EyecatcherLen]; omega
  rw [propRest, if_pos hc, ← reject_ret _ v e _ _ hL, ← reject_eq]

theorem propRest_full (p : Proposal) (k : Nat) (hr : p.rsv2.length = 2) (ht : p.trailer.length = 4)
    (hL : p.hdr.Length.toNat ≤ v.length) (h : k + 12 ≤ p.hdr.Length.toNat) :
    propRest p ⟨v, e⟩ k = .ret
      (pfxLog pfxText v p.hdr.Length.toNat (k + 8) 17 (v.getD (k + 7) 0).toNat ++ trailerLog (last4 v))
      (propFull v p k) := by
  have hc : ¬ (p.hdr.Length.toNat : Int) - (k : Int) < 4 + 1 + 2 + 1 + TrailerLen := by
    simp only [TrailerLen, EyecatcherLen]; omega
  rw [propRest, if_neg hc]
  have e1 := parsePrefixes_eq p.hdr.Length v e hL
  have e2 := trailer_parse p.trailer ht v e (by omega)
  unfold propFull
  rw [getD_lt (show k + 4 < v.length by omega), getD_lt (show k + 7 < v.length by omega)]
  simp (disch := first | omega | (simp; omega)) only [Slice.sub_mk, Go.ret_bind, Slice.idx_of_lt, e1, e2, copyInto_eq,
    Nat.add_assoc, Nat.reduceAdd, Nat.add_sub_cancel_left, Go.pure_eq, show k + 7 - (k + 5) = 2 by omega]
  simp only [Go.bind_withLog, Go.withLog_ret, List.append_nil]

end

end SMC.CLC
