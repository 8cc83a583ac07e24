import Verif.Lemmas.Proposal
/-!
# Closed form of `ProposalV2.Parse` on complete messages
-/

namespace SMC.CLC

/-! ## Loops -/

/-- error text of the prefix loop -/
def pfxTextV2 : Bytes := go! "Error parsing CLC Proposal v2: IPv6 prefix count too big"
/-- error text of the EID loop -/
def eidText : Bytes := go! "Error parsing CLC Proposal v2: EID number too big"
/-- error text of the GID loop -/
def gidText : Bytes := go! "Error parsing CLC Proposal v2: GID number too big"

theorem parsePrefixesV2_eq (L : UInt16) (v e : Bytes) (hL : L.toNat ≤ v.length) (n k : Nat) (ps : List IPv6Prefix) :
    parsePrefixesV2 L ⟨v, e⟩ n k ps
      = .ret (pfxLog pfxTextV2 v L.toNat k 17 n)
          (ps ++ pfxs v k (min n (fits L.toNat k 17)), k + 17 * min n (fits L.toNat k 17)) := by
  induction n generalizing k ps with
  | zero => simp [parsePrefixesV2, pfxLog_zero, pfxs]
  | succ n ih =>
    have hc : ((L.toNat : Int) - (k : Int) < IPv6PrefixLen + TrailerLen) ↔ L.toNat < k + 17 + 4 := by
      simp only [IPv6PrefixLen, TrailerLen, EyecatcherLen]; omega
    unfold parsePrefixesV2
    simp only [hc]
    by_cases h : L.toNat < k + 17 + 4
    · simp only [h, if_true]
      have hz := fits_zero (k := k) (w := 17) (by omega) h
      have := reject_eq pfxTextV2 v e L.toNat (ps, k)
      rw [reject_ret _ _ _ _ _ hL] at this
      simp only [pfxLog, hz, Nat.min_zero, pfxs, List.append_nil, Nat.mul_zero, Nat.add_zero]
      exact this
    · simp only [h, if_false]
      have h' : k + 17 + 4 ≤ L.toNat := by omega
      rw [Slice.sub_mk (by omega) (by omega), Go.ret_bind, Slice.idx_of_lt (by omega), Go.ret_bind, ih,
        pfxLog_succ (k := k) (w := 17) (by omega) h', fits_succ (k := k) (w := 17) (by omega) h',
        Nat.succ_min_succ, pfxs, show k + 16 + 1 = k + 17 by omega]
      have h16 : (v.drop k).take (k + 16 - k) = (v.drop k).take 16 := by
        congr 1; omega
      have hg : v.getD (k + 16) 0 = v[k + 16] := by
        rw [List.getD_eq_getElem?_getD, List.getElem?_eq_getElem (by omega)]; rfl
      simp only [h16, List.append_assoc, List.singleton_append, pfxAt, hg]
      rw [copyInto_eq (by simp; omega), Nat.mul_succ, Nat.add_assoc, Nat.add_comm 17]

/-- `n` EIDs from position `k` on -/
def eids (v : Bytes) : Nat → Nat → List Bytes
  | _, 0 => []
  | k, n + 1 => (v.drop k).take 32 :: eids v (k + 32) n

theorem eids_length (v : Bytes) (k n : Nat) : (eids v k n).length = n := by
  induction n generalizing k with
  | zero => rfl
  | succ n ih => simp [eids, ih]

theorem parseEIDs_eq (L : UInt16) (v e : Bytes) (hL : L.toNat ≤ v.length) (n k : Nat) (a b : List Bytes)
    (hb : ∀ x ∈ b, x.length = 32) :
    parseEIDs L ⟨v, e⟩ n a.length k (a ++ b)
      = if min n (fits L.toNat k 32) ≤ b.length then
          .ret (pfxLog eidText v L.toNat k 32 n)
            (a ++ eids v k (min n (fits L.toNat k 32)) ++ b.drop (min n (fits L.toNat k 32)),
              k + 32 * min n (fits L.toNat k 32))
        else .panic [] := by
  induction n generalizing k a b with
  | zero => simp [parseEIDs, pfxLog_zero, eids]
  | succ n ih =>
    have hc : ((L.toNat : Int) - (k : Int) < EIDLen + TrailerLen) ↔ L.toNat < k + 32 + 4 := by
      simp only [EIDLen, TrailerLen, EyecatcherLen]; omega
    unfold parseEIDs
    simp only [hc]
    by_cases h : L.toNat < k + 32 + 4
    · simp only [h, if_true]
      have hz := fits_zero (k := k) (w := 32) (by omega) h
      have := reject_eq eidText v e L.toNat (a ++ b, k)
      rw [reject_ret _ _ _ _ _ hL] at this
      simp only [pfxLog, hz, Nat.min_zero, eids, List.append_nil, Nat.mul_zero, Nat.add_zero, Nat.zero_le, if_true,
        List.drop_zero]
      exact this
    · simp only [h, if_false]
      have h' : k + 32 + 4 ≤ L.toNat := by omega
      rw [fits_succ (k := k) (w := 32) (by omega) h', Nat.succ_min_succ]
      cases b with
      | nil => simp
      | cons x b =>
        have hx := hb x (by simp)
        have hget : (a ++ x :: b)[a.length]? = some x := by simp
        simp only [hget, EIDLen]
        rw [Slice.sub_mk (by omega) (by omega), Go.ret_bind]
        have h32 : (v.drop k).take (k + 32 - k) = (v.drop k).take 32 := by
          congr 1; omega
        simp only [h32]
        rw [copyInto_eq (by simp [hx]; omega)]
        have hset : (a ++ x :: b).set a.length ((v.drop k).take 32) = (a ++ [(v.drop k).take 32]) ++ b := by simp
        rw [hset, show a.length + 1 = (a ++ [(v.drop k).take 32]).length by simp, ih _ _ _ (fun y hy => hb y (by simp [hy])),
          pfxLog_succ (k := k) (w := 32) (by omega) h']
        simp only [List.length_cons, Nat.succ_eq_add_one, Nat.add_le_add_iff_right, eids, List.drop_succ_cons]
        split
        · simp; omega
        · rfl

/-- the GID entry at position `k` -/
def gidAt (v : Bytes) (k : Nat) : GIDEntry :=
  ⟨u64 (v.getD k 0) (v.getD (k + 1) 0) (v.getD (k + 2) 0) (v.getD (k + 3) 0) (v.getD (k + 4) 0) (v.getD (k + 5) 0)
    (v.getD (k + 6) 0) (v.getD (k + 7) 0), u16 (v.getD (k + 8) 0) (v.getD (k + 9) 0)⟩

/-- `n` GID entries from position `k` on -/
def gids (v : Bytes) : Nat → Nat → List GIDEntry
  | _, 0 => []
  | k, n + 1 => gidAt v k :: gids v (k + 10) n

theorem gids_length (v : Bytes) (k n : Nat) : (gids v k n).length = n := by
  induction n generalizing k with
  | zero => rfl
  | succ n ih => simp [gids, ih]

theorem parseGIDs_eq (L : UInt16) (v e : Bytes) (hL : L.toNat ≤ v.length) (n k : Nat) (a b : List GIDEntry) :
    parseGIDs L ⟨v, e⟩ n a.length k (a ++ b)
      = if min n (fits L.toNat k 10) ≤ b.length then
          .ret (pfxLog gidText v L.toNat k 10 n)
            (a ++ gids v k (min n (fits L.toNat k 10)) ++ b.drop (min n (fits L.toNat k 10)))
        else .panic [] := by
  induction n generalizing k a b with
  | zero => simp [parseGIDs, pfxLog_zero, gids]
  | succ n ih =>
    have hc : ((L.toNat : Int) - (k : Int) < 8 + 2 + TrailerLen) ↔ L.toNat < k + 10 + 4 := by
      simp only [TrailerLen, EyecatcherLen]; omega
    unfold parseGIDs
    simp only [hc]
    by_cases h : L.toNat < k + 10 + 4
    · simp only [h, if_true]
      have hz := fits_zero (k := k) (w := 10) (by omega) h
      have := reject_eq gidText v e L.toNat (a ++ b)
      rw [reject_ret _ _ _ _ _ hL] at this
      simp only [pfxLog, hz, Nat.min_zero, gids, List.append_nil, Nat.zero_le, if_true, List.drop_zero]
      exact this
    · simp only [h, if_false]
      have h' : k + 10 + 4 ≤ L.toNat := by omega
      rw [fits_succ (k := k) (w := 10) (by omega) h', Nat.succ_min_succ]
      cases b with
      | nil => simp
      | cons x b =>
        have hget : (a ++ x :: b)[a.length]? = some x := by simp
        simp only [hget]
        rw [Slice.sub_mk (by omega) (by omega), Go.ret_bind]
        have h8 : (v.drop k).take (k + 8 - k) = (v.drop k).take 8 := by congr 1; omega
        have h2 : (v.drop (k + 8)).take (k + 8 + 2 - (k + 8)) = (v.drop (k + 8)).take 2 := by congr 1; omega
        rw [h8, be64_drop (by omega), Go.ret_bind, Slice.sub_mk (by omega) (by omega), Go.ret_bind, h2, be16_drop (by omega),
          Go.ret_bind]
        have hg : gidAt v k = ⟨u64 v[k] v[k+1] v[k+2] v[k+3] v[k+4] v[k+5] v[k+6] v[k+7], u16 v[k+8] v[k+8+1]⟩ := by
          unfold gidAt
          rw [getD_lt, getD_lt, getD_lt, getD_lt, getD_lt, getD_lt, getD_lt, getD_lt, getD_lt, getD_lt] <;> omega
        rw [← hg]
        have hset : (a ++ x :: b).set a.length (gidAt v k) = (a ++ [gidAt v k]) ++ b := by simp
        rw [hset, show a.length + 1 = (a ++ [gidAt v k]).length by simp, ih,
          pfxLog_succ (k := k) (w := 10) (by omega) h']
        simp only [List.length_cons, Nat.succ_eq_add_one, Nat.add_le_add_iff_right, gids, List.drop_succ_cons,
          Nat.add_assoc, Nat.reduceAdd]
        split
        · simp
        · rfl

/-! ## Stages -/

section
variable (v e : Bytes) (hv : 8 ≤ v.length)

theorem proposalV2_short (p : ProposalV2) (hh : p.hdr.Eyecatcher.length = 4) (hl : (hdrOf v hv).Length.toNat < 84) :
    p.parse ⟨v, e⟩ = reject (go! "Error parsing CLC Proposal v2: message too short") v e (hdrOf v hv).Length.toNat
      { p with raw := ⟨v, e⟩, hdr := hdrOf v hv } := by
  rw [← reject_eq]
  simp only [ProposalV2.parse, header_parse _ hh v e hv, Go.ret_bind, ProposalV2Len, hl, if_true, rawParse]

/-- raw bytes, header and the fields up to byte 80 -/
def v2Fixed (p : ProposalV2) (h : 84 ≤ v.length) : ProposalV2 := { p with
  raw := ⟨v, e⟩, hdr := hdrOf v hv, SenderPeerID := (v.drop 8).take 8, IBGID := (v.drop 16).take 16
  IBMAC := (v.drop 32).take 6, IPAreaOffset := u16 v[38] v[39]
  SMCDGID := u64 v[40] v[41] v[42] v[43] v[44] v[45] v[46] v[47]
  ISMv2VCHID := u16 v[48] v[49], SMCv2Offset := u16 v[50] v[51], rsv := (v.drop 52).take 28 }

/-- what follows the fixed fields -/
def v2Rest (p : ProposalV2) (buf : Slice) : Go ProposalV2 :=
  p.parseIPArea buf 80 >>= fun r => match r with
  | (p, none) => pure p
  | (p, some skip) => p.parseV2Ext buf skip >>= fun r => match r with
    | (p, none) => pure p
    | (p, some skip) => p.parseSMCDExt buf skip >>= fun r => match r with
      | (p, none) => pure p
      | (p, some _) => trailerParse p.trailer buf >>= fun t => pure { p with trailer := t }

theorem proposalV2_step (p : ProposalV2) (hh : p.hdr.Eyecatcher.length = 4) (h1 : p.SenderPeerID.length = 8)
    (h2 : p.rsv.length = 28) (hl : 84 ≤ (hdrOf v hv).Length.toNat) (h : 84 ≤ v.length) :
    p.parse ⟨v, e⟩ = v2Rest (v2Fixed v e hv p h) ⟨v, e⟩ := by
  have hl' : ¬ (hdrOf v hv).Length.toNat < 84 := by omega
  clcparse [ProposalV2.parse, ProposalV2.parseFixed, hl', if_false, ProposalV2Len]
  rfl

/-- the fields of the IP area -/
def v2IP (p : ProposalV2) : ProposalV2 := { p with
  Prefix := (v.drop 80).take 4, PrefixLen := v.getD 84 0, rsv2 := (v.drop 85).take 2
  IPv6PrefixesCnt := v.getD 87 0
  IPv6Prefixes := p.IPv6Prefixes ++ pfxs v 88 (min (v.getD 87 0).toNat (fits p.hdr.Length.toNat 88 17)) }

theorem parseIPArea_none (p : ProposalV2) (hp : p.hdr.Path = 2) : p.parseIPArea ⟨v, e⟩ 80 = .ret [] (p, some 80) := by
  simp [ProposalV2.parseIPArea, hp, SMCTypeN]

theorem parseIPArea_big (p : ProposalV2) (hp : p.hdr.Path ≠ 2) (hL : p.hdr.Length.toNat ≤ v.length)
    (h : p.hdr.Length.toNat < 92) :
    p.parseIPArea ⟨v, e⟩ 80 = .ret (errLog (go! "Error parsing CLC Proposal v2: IP Area Offset too big") v
      p.hdr.Length.toNat) (p, none) := by
  have hc : (p.hdr.Length.toNat : Int) - (80 : Nat) < 4 + 1 + 2 + 1 + TrailerLen := by
    simp only [TrailerLen, EyecatcherLen]; omega
  unfold ProposalV2.parseIPArea
  rw [if_pos (show p.hdr.Path ≠ SMCTypeN from hp), if_pos hc, ← reject_ret _ v e _ _ hL, ← reject_eq]

theorem parseIPArea_full (p : ProposalV2) (hp : p.hdr.Path ≠ 2) (hr : p.rsv2.length = 2)
    (hL : p.hdr.Length.toNat ≤ v.length) (h : 92 ≤ p.hdr.Length.toNat) :
    p.parseIPArea ⟨v, e⟩ 80 = .ret (pfxLog pfxTextV2 v p.hdr.Length.toNat 88 17 (v.getD 87 0).toNat)
      (v2IP v p, some (88 + 17 * min (v.getD 87 0).toNat (fits p.hdr.Length.toNat 88 17))) := by
  have hc : ¬ (p.hdr.Length.toNat : Int) - (80 : Nat) < 4 + 1 + 2 + 1 + TrailerLen := by
    simp only [TrailerLen, EyecatcherLen]; omega
  unfold ProposalV2.parseIPArea
  rw [if_pos (show p.hdr.Path ≠ SMCTypeN from hp), if_neg hc]
  have e1 := parsePrefixesV2_eq p.hdr.Length v e hL
  unfold v2IP
  rw [getD_lt (show 84 < v.length by omega), getD_lt (show 87 < v.length by omega)]
  simp (disch := first | omega | (simp; omega)) only [Slice.sub_mk, Go.ret_bind, Slice.idx_of_lt, e1, copyInto_eq,
    Nat.reduceAdd, Nat.reduceSub, Go.pure_eq]
  simp only [Go.bind_withLog, Go.withLog_ret, List.append_nil]

/-- the fields of the v2 extension at `k` -/
def v2Ext (p : ProposalV2) (k : Nat) : ProposalV2 := { p with
  EIDNumber := v.getD k 0, GIDNumber := v.getD (k + 1) 0, rsv3 := v.getD (k + 2) 0
  Release := v.getD (k + 3) 0 >>> 4, rsv4 := (v.getD (k + 3) 0 &&& 0b00001110) >>> 1
  SEIDInd := v.getD (k + 3) 0 &&& 0b00000001
  rsv5 := (v.drop (k + 4)).take 2, SMCDv2Off := u16 (v.getD (k + 6) 0) (v.getD (k + 7) 0), rsv6 := (v.drop (k + 8)).take 32
  EIDArea := eids v (k + 40) (min (v.getD k 0).toNat (fits p.hdr.Length.toNat (k + 40) 32))
    ++ p.EIDArea.drop (min (v.getD k 0).toNat (fits p.hdr.Length.toNat (k + 40) 32)) }

theorem parseV2Ext_none (p : ProposalV2) (k : Nat) (hp : p.hdr.Pathv2 = 2) :
    p.parseV2Ext ⟨v, e⟩ k = .ret [] (p, some k) := by
  simp [ProposalV2.parseV2Ext, hp, SMCTypeN]

theorem parseV2Ext_big (p : ProposalV2) (k : Nat) (hp : p.hdr.Pathv2 ≠ 2) (hL : p.hdr.Length.toNat ≤ v.length)
    (h : p.hdr.Length.toNat < k + 44) :
    p.parseV2Ext ⟨v, e⟩ k = .ret (errLog (go! "Error parsing CLC Proposal v2: Not enough space for Proposal v2 Extension") v
      p.hdr.Length.toNat) (p, none) := by
  have hc : (p.hdr.Length.toNat : Int) - k < ProposalV2ExtLen + TrailerLen := by
    simp only [ProposalV2ExtLen, TrailerLen, EyecatcherLen]; omega
  unfold ProposalV2.parseV2Ext
  rw [if_pos (show p.hdr.Pathv2 ≠ SMCTypeN from hp), if_pos hc, ← reject_ret _ v e _ _ hL, ← reject_eq]

theorem parseV2Ext_full (p : ProposalV2) (k : Nat) (hp : p.hdr.Pathv2 ≠ 2) (h5 : p.rsv5.length = 2)
    (h6 : p.rsv6.length = 32) (h7 : ∀ x ∈ p.EIDArea, x.length = 32) (h8 : p.EIDArea.length = 8)
    (hL : p.hdr.Length.toNat ≤ v.length) (h : k + 44 ≤ p.hdr.Length.toNat) :
    p.parseV2Ext ⟨v, e⟩ k =
      if min (v.getD k 0).toNat (fits p.hdr.Length.toNat (k + 40) 32) ≤ 8 then
        .ret (pfxLog eidText v p.hdr.Length.toNat (k + 40) 32 (v.getD k 0).toNat)
          (v2Ext v p k, some (k + 40 + 32 * min (v.getD k 0).toNat (fits p.hdr.Length.toNat (k + 40) 32)))
      else .panic [] := by
  have hc : ¬ (p.hdr.Length.toNat : Int) - k < ProposalV2ExtLen + TrailerLen := by
    simp only [ProposalV2ExtLen, TrailerLen, EyecatcherLen]; omega
  unfold ProposalV2.parseV2Ext
  rw [if_pos (show p.hdr.Pathv2 ≠ SMCTypeN from hp), if_neg hc]
  have e1 := parseEIDs_eq p.hdr.Length v e hL v[k].toNat (k + 40) [] p.EIDArea h7
  simp only [List.length_nil, List.nil_append, h8] at e1
  unfold v2Ext
  rw [getD_lt (show k < v.length by omega), getD_lt (show k + 1 < v.length by omega), getD_lt (show k + 2 < v.length by omega),
    getD_lt (show k + 3 < v.length by omega), getD_lt (show k + 6 < v.length by omega),
    getD_lt (show k + 7 < v.length by omega)]
  simp (disch := first | omega | (simp; omega)) only [Slice.sub_mk, Go.ret_bind, Slice.idx_of_lt, copyInto_eq,
    Nat.add_assoc, Nat.reduceAdd, Go.pure_eq, show k + 6 - (k + 4) = 2 by omega,
    show k + 8 - (k + 6) = 2 by omega, show k + 40 - (k + 8) = 32 by omega, be16_drop, e1]
  split
  · simp only [Go.bind_withLog, Go.withLog_ret, List.append_nil]
  · rfl

/-- the fields of the SMC-D extension at `k` -/
def v2SMCD (p : ProposalV2) (k : Nat) : ProposalV2 := { p with
  SEID := (v.drop k).take 32, rsv7 := (v.drop (k + 32)).take 16
  GIDArea := gids v (k + 48) (min p.GIDNumber.toNat (fits p.hdr.Length.toNat (k + 48) 10))
    ++ p.GIDArea.drop (min p.GIDNumber.toNat (fits p.hdr.Length.toNat (k + 48) 10)) }

theorem parseSMCDExt_none (p : ProposalV2) (k : Nat) (hp : ¬ (p.hdr.Pathv2 = 1 ∨ p.hdr.Pathv2 = 3)) :
    p.parseSMCDExt ⟨v, e⟩ k = .ret [] (p, some k) := by
  unfold ProposalV2.parseSMCDExt
  rw [if_neg (show ¬ (p.hdr.Pathv2 = SMCTypeD ∨ p.hdr.Pathv2 = SMCTypeB) from hp)]; rfl

theorem parseSMCDExt_big (p : ProposalV2) (k : Nat) (hp : p.hdr.Pathv2 = 1 ∨ p.hdr.Pathv2 = 3)
    (hL : p.hdr.Length.toNat ≤ v.length) (h : p.hdr.Length.toNat < k + 52) :
    p.parseSMCDExt ⟨v, e⟩ k = .ret (errLog (go! "Error parsing CLC Proposal v2: Not enough space for SMC-D v2 Extension") v
      p.hdr.Length.toNat) (p, none) := by
  have hc : (p.hdr.Length.toNat : Int) - k < SMCDv2ExtLen + TrailerLen := by
    simp only [SMCDv2ExtLen, TrailerLen, EyecatcherLen]; omega
  unfold ProposalV2.parseSMCDExt
  rw [if_pos (show p.hdr.Pathv2 = SMCTypeD ∨ p.hdr.Pathv2 = SMCTypeB from hp), if_pos hc, ← reject_ret _ v e _ _ hL, ← reject_eq]

theorem parseSMCDExt_full (p : ProposalV2) (k : Nat) (hp : p.hdr.Pathv2 = 1 ∨ p.hdr.Pathv2 = 3) (h5 : p.SEID.length = 32)
    (h6 : p.rsv7.length = 16) (h8 : p.GIDArea.length = 8)
    (hL : p.hdr.Length.toNat ≤ v.length) (h : k + 52 ≤ p.hdr.Length.toNat) :
    p.parseSMCDExt ⟨v, e⟩ k =
      if min p.GIDNumber.toNat (fits p.hdr.Length.toNat (k + 48) 10) ≤ 8 then
        .ret (pfxLog gidText v p.hdr.Length.toNat (k + 48) 10 p.GIDNumber.toNat) (v2SMCD v p k, some (k + 48))
      else .panic [] := by
  have hc : ¬ (p.hdr.Length.toNat : Int) - k < SMCDv2ExtLen + TrailerLen := by
    simp only [SMCDv2ExtLen, TrailerLen, EyecatcherLen]; omega
  unfold ProposalV2.parseSMCDExt
  rw [if_pos (show p.hdr.Pathv2 = SMCTypeD ∨ p.hdr.Pathv2 = SMCTypeB from hp), if_neg hc]
  have e1 := parseGIDs_eq p.hdr.Length v e hL p.GIDNumber.toNat (k + 48) [] p.GIDArea
  simp only [List.length_nil, List.nil_append, h8] at e1
  unfold v2SMCD
  simp (disch := first | omega | (simp; omega)) only [Slice.sub_mk, Go.ret_bind, copyInto_eq,
    Nat.add_assoc, Nat.reduceAdd, Nat.add_sub_cancel_left, Go.pure_eq, show k + 48 - (k + 32) = 16 by omega, e1]
  split
  · simp only [Go.bind_withLog, Go.withLog_ret, List.append_nil]
  · rfl

end

end SMC.CLC
