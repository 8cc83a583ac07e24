import Verif.Lemmas.ProposalV2Full
/-!
# Entries of the variable areas and log lines
-/

namespace SMC.CLC

open SMC.Spec SMC.Props

theorem pfxs_length (v : Bytes) (k n : Nat) : (pfxs v k n).length = n := by
  induction n generalizing k with
  | zero => rfl
  | succ n ih => simp [pfxs, ih]

theorem pfxs_get (v : Bytes) (k n i : Nat) (h : i < n) : (pfxs v k n)[i]? = some (pfxAt v (k + 17 * i)) := by
  induction n generalizing k i with
  | zero => omega
  | succ n ih =>
    cases i with
    | zero => rfl
    | succ i =>
      rw [pfxs, List.getElem?_cons_succ, ih _ _ (by omega)]
      congr 2; omega

theorem eids_get (v : Bytes) (k n i : Nat) (h : i < n) : (eids v k n)[i]? = some (raw v (k + 32 * i) 32) := by
  induction n generalizing k i with
  | zero => omega
  | succ n ih =>
    cases i with
    | zero => rfl
    | succ i =>
      rw [eids, List.getElem?_cons_succ, ih _ _ (by omega)]
      congr 2; omega

theorem gids_get (v : Bytes) (k n i : Nat) (h : i < n) : (gids v k n)[i]? = some (gidAt v (k + 10 * i)) := by
  induction n generalizing k i with
  | zero => omega
  | succ n ih =>
    cases i with
    | zero => rfl
    | succ i =>
      rw [gids, List.getElem?_cons_succ, ih _ _ (by omega)]
      congr 2; omega

theorem num_16' (v : Bytes) (k : Nat) (h : k + 2 ≤ v.length) :
    num v k 0 16 = (u16 (v.getD k 0) (v.getD (k + 1) 0)).toNat := by
  rw [num_16 v k h, u16_toNat, getD_lt, getD_lt]

theorem num_64' (v : Bytes) (k : Nat) (h : k + 8 ≤ v.length) :
    num v k 0 64 = (u64 (v.getD k 0) (v.getD (k + 1) 0) (v.getD (k + 2) 0) (v.getD (k + 3) 0) (v.getD (k + 4) 0)
      (v.getD (k + 5) 0) (v.getD (k + 6) 0) (v.getD (k + 7) 0)).toNat := by
  rw [num_64 v k h, u64_toNat, getD_lt, getD_lt, getD_lt, getD_lt, getD_lt, getD_lt, getD_lt, getD_lt]

theorem pfxAt_wire (v : Bytes) (k : Nat) (h : k + 17 ≤ v.length) : WirePrefix v k (pfxAt v k) :=
  ⟨rfl, by rw [num_getD v _ (by omega)]; rfl⟩

theorem gidAt_wire (v : Bytes) (k : Nat) (h : k + 10 ≤ v.length) : WireGID v k (gidAt v k) :=
  ⟨by rw [num_64' v _ (by omega)]; rfl, by rw [num_16' v _ (by omega)]; rfl⟩

/-- entries counted by `entries` lie before the trailer -/
theorem entries_fit {L k w n i : Nat} (hw : 0 < w) (hi : i < entries L k w n) : k + w * i + w + 4 ≤ L := by
  have h : i + 1 ≤ (L - 4 - k) / w := by unfold entries at hi; omega
  have := (Nat.le_div_iff_mul_le hw).1 h
  rw [Nat.add_mul, Nat.mul_comm i w] at this
  omega

theorem pfxs_spec (v : Bytes) (L k n : Nat) (hL : L ≤ v.length) (old : List IPv6Prefix) :
    Prefixes v k (entries L k 17 n) old (old ++ pfxs v k (entries L k 17 n)) where
  length := by simp [pfxs_length]
  kept i hi := List.getElem?_append_left hi
  entry i hi := by
    refine ⟨pfxAt v (k + 17 * i), ?_, pfxAt_wire _ _ ?_⟩
    · rw [List.getElem?_append_right (by omega), Nat.add_sub_cancel_left, pfxs_get _ _ _ _ hi]
    · have := entries_fit (by omega) hi; omega

theorem eids_spec (v : Bytes) (k n : Nat) (old : List Bytes) (hn : n ≤ old.length) :
    EIDs v k n old (eids v k n ++ old.drop n) where
  length := by simp [eids_length]; omega
  entry i hi := by rw [List.getElem?_append_left (by rwa [eids_length]), eids_get _ _ _ _ hi]
  kept i hi := by
    rw [List.getElem?_append_right (by rwa [eids_length]), eids_length, List.getElem?_drop]
    congr 1; omega

theorem gids_spec (v : Bytes) (L k n : Nat) (hL : L ≤ v.length) (old : List GIDEntry)
    (hn : entries L k 10 n ≤ old.length) :
    GIDs v k (entries L k 10 n) old (gids v k (entries L k 10 n) ++ old.drop (entries L k 10 n)) where
  length := by simp [gids_length]; omega
  entry i hi := by
    refine ⟨_, by rw [List.getElem?_append_left (by rwa [gids_length]), gids_get _ _ _ _ hi], gidAt_wire _ _ ?_⟩
    have := entries_fit (by omega) hi; omega
  kept i hi := by
    rw [List.getElem?_append_right (by rwa [gids_length]), gids_length, List.getElem?_drop]
    congr 1; omega

/-! ## Log lines -/

theorem dumpText_head (x : Bytes) : (dumpText x).head? = some 77 := by
  unfold dumpText; rfl

/-- an error text: it starts with an E, unlike a hex dump -/
def IsErr (t : Bytes) : Prop := t.head? = some 69

theorem IsErr.ne_dump {t : Bytes} (h : IsErr t) (x : Bytes) : t ≠ dumpText x := by
  intro c
  have h2 := dumpText_head x
  rw [← c, show t.head? = some 69 from h] at h2
  cases h2

theorem mem_errLog {t : Bytes} (h : IsErr t) (msg v : Bytes) (L : Nat) : t ∈ errLog msg v L ↔ t = msg := by
  simp [errLog, h.ne_dump]

theorem mem_pfxLog {t : Bytes} (h : IsErr t) (msg v : Bytes) (L k w n : Nat) :
    t ∈ pfxLog msg v L k w n ↔ t = msg ∧ entries L k w n < n := by
  unfold pfxLog entries fits
  split
  · simp only [List.not_mem_nil, false_iff]; omega
  · rw [mem_errLog h]
    constructor
    · intro h'; exact ⟨h', by omega⟩
    · exact fun h' => h'.1

/-- error text for a trailer that is no eyecatcher -/
def trailerText : Bytes := go! "Error parsing CLC message: invalid trailer"

theorem mem_trailerLog {t : Bytes} (h : IsErr t) (x : Bytes) : t ∈ trailerLog x ↔ t = trailerText ∧ ¬ IsEye x := by
  unfold trailerLog
  split
  · rename_i hx
    simp only [List.not_mem_nil, false_iff]
    exact fun c => c.2 hx
  · rename_i hx
    simp only [List.mem_cons, h.ne_dump, List.not_mem_nil, or_false]
    exact ⟨fun h' => ⟨h', hx⟩, fun h' => h'.1⟩

end SMC.CLC
