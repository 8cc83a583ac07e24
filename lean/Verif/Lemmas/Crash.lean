import Verif.Spec.Crash
import Verif.Lemmas.ProposalV2Full
import Verif.Lemmas.Entries
/-!
# Returning executions, step by step
-/

namespace SMC

/-- the execution returns a value with property `P` -/
def Ok {α : Type} (x : Go α) (P : α → Prop) : Prop := ∃ l a, x = .ret l a ∧ P a

theorem not_panics_iff {α : Type} (x : Go α) : ¬ x.Panics ↔ Ok x fun _ => True := by
  cases x with
  | ret l a => exact ⟨fun _ => ⟨l, a, rfl, trivial⟩, fun _ => Go.not_panics_ret _ _⟩
  | panic l => exact ⟨fun h => absurd ⟨l, rfl⟩ h, fun ⟨_, _, h, _⟩ => by cases h⟩

theorem ok_bind {α β : Type} (x : Go α) (f : α → Go β) (P : β → Prop) :
    Ok (x >>= f) P ↔ Ok x fun a => Ok (f a) P := by
  constructor
  · rintro ⟨l, b, h, hP⟩
    obtain ⟨l1, a, l2, h1, h2, _⟩ := (Go.bind_eq_ret _ _ _ _).1 h
    exact ⟨l1, a, h1, l2, b, h2, hP⟩
  · rintro ⟨l1, a, h1, l2, b, h2, hP⟩
    exact ⟨l1 ++ l2, b, (Go.bind_eq_ret _ _ _ _).2 ⟨l1, a, l2, h1, h2, rfl⟩, hP⟩

theorem ok_ret {α : Type} (l : List Bytes) (a : α) (P : α → Prop) : Ok (.ret l a) P ↔ P a :=
  ⟨fun ⟨_, _, h, hP⟩ => by cases h; exact hP, fun h => ⟨l, a, rfl, h⟩⟩

theorem ok_pure {α : Type} (a : α) (P : α → Prop) : Ok (pure a) P ↔ P a := ok_ret [] a P

theorem ok_panic {α : Type} (l : List Bytes) (P : α → Prop) : Ok (.panic l) P ↔ False :=
  ⟨fun ⟨_, _, h, _⟩ => (by cases h), False.elim⟩

theorem ok_log (b : Bytes) (P : Unit → Prop) : Ok (Go.log b) P ↔ P () := ok_ret [b] () P

theorem ok_errDump (s : Slice) (P : Unit → Prop) : Ok (CLC.errDump s) P ↔ P () := ok_log _ P

theorem ok_sub (s : Slice) (a b : Nat) (P : Slice → Prop) :
    Ok (s.sub a b) P ↔
      (a ≤ b ∧ b ≤ s.cap) ∧ P ⟨((s.vis ++ s.extra).drop a).take (b - a), (s.vis ++ s.extra).drop b⟩ := by
  unfold Slice.sub
  split
  · rename_i h; rw [ok_ret]; simp [h]
  · rename_i h; rw [ok_panic]; simp [h]

theorem ok_sto (s : Slice) (b : Nat) (P : Slice → Prop) :
    Ok (s.sto b) P ↔ b ≤ s.cap ∧ P ⟨((s.vis ++ s.extra).drop 0).take (b - 0), (s.vis ++ s.extra).drop b⟩ := by
  unfold Slice.sto; rw [ok_sub]; simp

theorem ok_idx (s : Slice) (i : Nat) (P : UInt8 → Prop) :
    Ok (s.idx i) P ↔ i < s.len ∧ P (s.vis.getD i 0) := by
  obtain ⟨v, e⟩ := s
  by_cases h : i < v.length
  · rw [Slice.idx_of_lt h, ok_ret, List.getD_eq_getElem?_getD, List.getElem?_eq_getElem h]
    simp [h]
  · rw [Slice.idx_of_ge (by omega), ok_panic]; simp [h]

theorem ok_be16 (s : Slice) (P : UInt16 → Prop) :
    Ok (be16 s) P ↔ 2 ≤ s.len ∧ P (u16 (s.vis.getD 0 0) (s.vis.getD 1 0)) := by
  unfold be16
  simp only [ok_bind, ok_idx, ok_pure, u16]
  constructor
  · rintro ⟨h1, h0, h⟩; exact ⟨by omega, h⟩
  · rintro ⟨h1, h⟩; exact ⟨by omega, by omega, h⟩

theorem ok_be64 (s : Slice) (P : UInt64 → Prop) (Q : Prop) (hP : ∀ x, P x ↔ Q) :
    Ok (be64 s) P ↔ 8 ≤ s.len ∧ Q := by
  unfold be64
  simp only [ok_bind, ok_idx, ok_pure, hP]
  constructor
  · rintro ⟨h1, _, _, _, _, _, _, _, h⟩; exact ⟨by omega, h⟩
  · rintro ⟨h1, h⟩; refine ⟨?_, ?_, ?_, ?_, ?_, ?_, ?_, ?_, h⟩ <;> omega

theorem ok_congr {α : Type} (x : Go α) {P Q : α → Prop} (h : ∀ a, P a ↔ Q a) : Ok x P ↔ Ok x Q := by
  rw [show P = Q from funext fun a => propext (h a)]

/-- an execution that returns, with a property of the value that depends on nothing -/
theorem ok_const {α : Type} (x : Go α) (Q : Prop) : Ok x (fun _ => Q) ↔ Ok x (fun _ => True) ∧ Q :=
  ⟨fun ⟨l, a, h, q⟩ => ⟨⟨l, a, h, trivial⟩, q⟩, fun ⟨⟨l, a, h, _⟩, q⟩ => ⟨l, a, h, q⟩⟩

namespace CLC

open Spec Props

theorem ok_trailer (t : Bytes) (ht : t.length = 4) (v e : Bytes) (h : 4 ≤ v.length) (P : Bytes → Prop) :
    Ok (trailerParse t ⟨v, e⟩) P ↔ P (last4 v) := by rw [trailer_parse t ht v e h, ok_ret]

/-- the prefixes of a version 1 Proposal -/
theorem ok_prefixes (L : UInt16) (s : Slice) (n k : Nat) (ps : List IPv6Prefix) :
    Ok (parsePrefixes L s n k ps) (fun _ => True) ↔
      (min n (fits L.toNat (k + 1) 17) = 0 ∨ k + 1 + 17 * min n (fits L.toNat (k + 1) 17) ≤ s.len) ∧
      (fits L.toNat (k + 1) 17 < n → L.toNat ≤ s.cap) := by
  induction n generalizing k ps with
  | zero => simp [parsePrefixes, ok_ret]
  | succ n ih =>
    have hc : ((L.toNat : Int) - ((k + 1 : Nat) : Int) < IPv6PrefixLen + TrailerLen) ↔ L.toNat < k + 1 + 17 + 4 := by
      simp only [IPv6PrefixLen, TrailerLen, EyecatcherLen]; omega
    unfold parsePrefixes
    simp only [hc]
    have hcap : s.len ≤ s.cap := by simp [Slice.len, Slice.cap]
    by_cases h : L.toNat < k + 1 + 17 + 4
    · rw [if_pos h, fits_zero (k := k + 1) (w := 17) (by omega) h]
      simp [ok_bind, ok_log, ok_sto, ok_errDump, ok_ret]
    · rw [if_neg h, fits_succ (k := k + 1) (w := 17) (by omega) (by omega)]
      simp only [ok_bind, ok_sub, ok_idx, ih, Nat.succ_min_succ]
      simp only [show k + 1 + 16 + 1 = k + 1 + 17 by omega]
      generalize fits L.toNat (k + 1 + 17) 17 = f
      constructor
      · rintro ⟨h1, h2, h3, h4⟩; exact ⟨by omega, fun h5 => h4 (by omega)⟩
      · rintro ⟨h1, h2⟩; exact ⟨by omega, by omega, by omega, fun h5 => h2 (by omega)⟩

/-- the prefixes of a version 2 Proposal; what follows may depend on the position -/
theorem ok_prefixesV2 (L : UInt16) (s : Slice) (n k : Nat) (ps : List IPv6Prefix) (Q : Nat → Prop) :
    Ok (parsePrefixesV2 L s n k ps) (fun r => Q r.2) ↔
      (min n (fits L.toNat k 17) = 0 ∨ k + 17 * min n (fits L.toNat k 17) ≤ s.len) ∧
      (fits L.toNat k 17 < n → L.toNat ≤ s.cap) ∧ Q (k + 17 * min n (fits L.toNat k 17)) := by
  induction n generalizing k ps with
  | zero => simp [parsePrefixesV2, ok_ret]
  | succ n ih =>
    have hc : ((L.toNat : Int) - (k : Int) < IPv6PrefixLen + TrailerLen) ↔ L.toNat < k + 17 + 4 := by
      simp only [IPv6PrefixLen, TrailerLen, EyecatcherLen]; omega
    unfold parsePrefixesV2
    simp only [hc]
    have hcap : s.len ≤ s.cap := by simp [Slice.len, Slice.cap]
    by_cases h : L.toNat < k + 17 + 4
    · rw [if_pos h, fits_zero (w := 17) (by omega) h]
      simp [ok_bind, ok_log, ok_sto, ok_errDump, ok_ret]
    · rw [if_neg h, fits_succ (k := k) (w := 17) (by omega) (by omega)]
      simp only [ok_bind, ok_sub, ok_idx, ih, Nat.succ_min_succ]
      simp only [show k + 16 + 1 = k + 17 by omega]
      generalize fits L.toNat (k + 17) 17 = f
      rw [show k + 17 * (min n f + 1) = k + 17 + 17 * min n f by omega]
      constructor
      · rintro ⟨h1, h2, h3, h4, h5⟩; exact ⟨by omega, fun h5 => h4 (by omega), h5⟩
      · rintro ⟨h1, h2, h5⟩; exact ⟨by omega, by omega, by omega, fun h5 => h2 (by omega), h5⟩

/-- the EIDs -/
theorem ok_eids (L : UInt16) (s : Slice) (n i k : Nat) (es : List Bytes) (hi : i ≤ es.length) (Q : Nat → Prop) :
    Ok (parseEIDs L s n i k es) (fun r => Q r.2) ↔
      i + min n (fits L.toNat k 32) ≤ es.length ∧
      (min n (fits L.toNat k 32) = 0 ∨ k + 32 * min n (fits L.toNat k 32) ≤ s.cap) ∧
      (fits L.toNat k 32 < n → L.toNat ≤ s.cap) ∧ Q (k + 32 * min n (fits L.toNat k 32)) := by
  induction n generalizing i k es with
  | zero => simp [parseEIDs, ok_ret, hi]
  | succ n ih =>
    have hc : ((L.toNat : Int) - (k : Int) < EIDLen + TrailerLen) ↔ L.toNat < k + 32 + 4 := by
      simp only [EIDLen, TrailerLen, EyecatcherLen]; omega
    unfold parseEIDs
    simp only [hc]
    by_cases h : L.toNat < k + 32 + 4
    · rw [if_pos h, fits_zero (w := 32) (by omega) h]
      simp [ok_bind, ok_log, ok_sto, ok_errDump, ok_ret, hi]
    · rw [if_neg h, fits_succ (k := k) (w := 32) (by omega) (by omega)]
      by_cases he : i < es.length
      · rw [List.getElem?_eq_getElem he]
        simp only [ok_bind, ok_sub, Nat.succ_min_succ, EIDLen]
        rw [ih (i + 1) (k + 32) _ (by simp; omega)]
        simp only [List.length_set]
        generalize fits L.toNat (k + 32) 32 = f
        rw [show k + 32 * (min n f + 1) = k + 32 + 32 * min n f by omega]
        constructor
        · rintro ⟨h1, h2, h3, h4, h5⟩; exact ⟨by omega, by omega, fun h5 => h4 (by omega), h5⟩
        · rintro ⟨h0, h1, h2, h5⟩; exact ⟨by omega, by omega, by omega, fun h5 => h2 (by omega), h5⟩
      · rw [List.getElem?_eq_none (by omega), Nat.succ_min_succ]
        simp only [ok_panic, false_iff]
        omega

/-- the GIDs -/
theorem ok_gids (L : UInt16) (s : Slice) (n i k : Nat) (gs : List GIDEntry) (hi : i ≤ gs.length) :
    Ok (parseGIDs L s n i k gs) (fun _ => True) ↔
      i + min n (fits L.toNat k 10) ≤ gs.length ∧
      (min n (fits L.toNat k 10) = 0 ∨ k + 10 * min n (fits L.toNat k 10) ≤ s.cap) ∧
      (fits L.toNat k 10 < n → L.toNat ≤ s.cap) := by
  induction n generalizing i k gs with
  | zero => simp [parseGIDs, ok_ret, hi]
  | succ n ih =>
    have hc : ((L.toNat : Int) - (k : Int) < 8 + 2 + TrailerLen) ↔ L.toNat < k + 10 + 4 := by
      simp only [TrailerLen, EyecatcherLen]; omega
    unfold parseGIDs
    simp only [hc]
    by_cases h : L.toNat < k + 10 + 4
    · rw [if_pos h, fits_zero (w := 10) (by omega) h]
      simp [ok_bind, ok_log, ok_sto, ok_errDump, ok_ret, hi]
    · rw [if_neg h, fits_succ (k := k) (w := 10) (by omega) (by omega)]
      by_cases he : i < gs.length
      · rw [List.getElem?_eq_getElem he]
        have key : ∀ (x : UInt64) (y : UInt16),
            Ok (parseGIDs L s n (i + 1) (k + 8 + 2) (gs.set i { GID := x, VCHID := y })) (fun _ => True) ↔
            (i + 1 + min n (fits L.toNat (k + 10) 10) ≤ gs.length ∧
            (min n (fits L.toNat (k + 10) 10) = 0 ∨ k + 10 + 10 * min n (fits L.toNat (k + 10) 10) ≤ s.cap) ∧
            (fits L.toNat (k + 10) 10 < n → L.toNat ≤ s.cap)) := fun x y => by
          rw [ih (i + 1) (k + 8 + 2) _ (by simp; omega)]
          simp only [List.length_set]
        simp only [ok_bind, ok_sub, ok_be16, Nat.succ_min_succ, key]
        rw [ok_be64 _ _ _ (fun _ => Iff.rfl)]
        simp only [Slice.len, Slice.cap, List.length_take, List.length_drop, List.length_append]
        generalize fits L.toNat (k + 10) 10 = f
        constructor
        · rintro ⟨h1, h2, h3, h4, h5, h6, h7⟩; exact ⟨by omega, by omega, fun h5 => h7 (by omega)⟩
        · rintro ⟨h0, h1, h2⟩
          exact ⟨by omega, by omega, by omega, by omega, by omega, by omega, fun h5 => h2 (by omega)⟩
      · rw [List.getElem?_eq_none (by omega), Nat.succ_min_succ]
        simp only [ok_panic, false_iff]
        omega

/-! ## Version 1 -/

theorem ok_ite {α : Type} (c : Prop) [Decidable c] (x y : Go α) (P : α → Prop) :
    Ok (if c then x else y) P ↔ if c then Ok x P else Ok y P := by split <;> rfl

theorem u16_take (w : Bytes) (k : Nat) (h : k + 2 ≤ w.length) :
    (u16 (((w.drop k).take 2).getD 0 0) (((w.drop k).take 2).getD 1 0)).toNat = num w k 0 16 := by
  rw [num_16' w k h]
  congr 2 <;> simp [List.getD_eq_getElem?_getD]

/-- what follows the SMC-D info of a version 1 Proposal -/
theorem ok_propRest (v e : Bytes) (hv : 8 ≤ v.length) (p : Proposal) (ht : p.trailer.length = 4)
    (hd : p.hdr.Length.toNat = declared v) (k : Nat) :
    Ok (propRest p ⟨v, e⟩ k) (fun _ => True) ↔
      if declared v < k + 12 then declared v ≤ v.length + e.length
      else k + 8 + 17 * entries (declared v) (k + 8) 17 (num v (k + 7) 0 8) ≤ v.length ∧
        ¬ Overdump v e (entries (declared v) (k + 8) 17 (num v (k + 7) 0 8)) (num v (k + 7) 0 8) := by
  have hc : ((p.hdr.Length.toNat : Int) - (k : Int) < 4 + 1 + 2 + 1 + TrailerLen) ↔ declared v < k + 12 := by
    simp only [hd, TrailerLen, EyecatcherLen]; omega
  unfold propRest
  simp only [hc, ok_ite]
  by_cases h : declared v < k + 12
  · rw [if_pos h, if_pos h]
    simp [ok_bind, ok_log, ok_sto, ok_errDump, ok_ret, hd]
  · rw [if_neg h, if_neg h]
    have key : ∀ (q : Bytes → Proposal), Ok (trailerParse p.trailer ⟨v, e⟩) (fun t => Ok (pure (q t)) fun _ => True) := 
      fun q => (ok_trailer _ ht v e (by omega) _).2 ((ok_pure _ _).2 trivial)
    simp only [ok_bind, ok_sub, ok_idx, key, ok_prefixes, Slice.len_mk, Slice.cap_mk, hd]
    by_cases hl : v.length < k + 8
    · constructor
      · omega
      · omega
    rw [num_getD v (k + 7) (by omega), entries_eq]
    simp only [show k + 4 + 1 + 2 + 1 = k + 8 by omega, show k + 4 + 1 + 2 = k + 7 by omega]
    generalize fits (declared v) (k + 8) 17 = f
    unfold Overdump
    generalize (v.getD (k + 7) 0).toNat = n
    constructor
    · rintro ⟨h1, h2, h3, h4, h5, h6⟩; exact ⟨by omega, by omega⟩
    · rintro ⟨h1, h2⟩; exact ⟨by omega, by omega, by omega, by omega, by omega, by omega⟩

theorem panics_iff_not {α : Type} (x : Go α) : x.Panics ↔ ¬ Ok x fun _ => True := by
  rw [← not_panics_iff, Classical.not_not]

/-- `Parse` with its last part by name -/
theorem parse_propRest (p : Proposal) (buf : Slice) : p.parse buf = (do
    let p := { p with raw := rawParse buf }
    let p := { p with hdr := ← p.hdr.parse buf }
    if p.hdr.Length.toNat < ProposalLen then
      Go.log (go! "Error parsing CLC Proposal: message too short")
      errDump (← buf.sto p.hdr.Length.toNat)
      pure p
    else
      let p := { p with SenderPeerID := copyInto p.SenderPeerID (← buf.sub 8 16).vis }
      let p := { p with IBGID := copyInto (zeros 16) (← buf.sub 16 32).vis }
      let p := { p with IBMAC := copyInto (zeros 6) (← buf.sub 32 38).vis }
      let p := { p with IPAreaOffset := ← be16 (← buf.sub 38 40) }
      let (p, skip) ← p.parseSMCD buf 40
      propRest p buf skip) := rfl

theorem proposal_panics (v e : Bytes) (hv : 8 ≤ v.length) (p : Proposal) (hp : SizedProposal p) :
    (p.parse ⟨v, e⟩).Panics ↔ CrashesV1 v e := by
  have hd := declared_eq v hv
  unfold CrashesV1
  by_cases hs : declared v < 52
  · rw [if_pos hs, proposal_short v e hv p hp.1 (by omega), hd]
    unfold reject
    split
    · exact ⟨fun h => absurd h (Go.not_panics_ret _ _), fun h => by omega⟩
    · exact ⟨fun _ => by omega, fun _ => ⟨_, rfl⟩⟩
  rw [if_neg hs, panics_iff_not, parse_propRest]
  dsimp only
  rw [header_parse _ hp.1 v e hv]
  simp only [Go.ret_bind, ProposalLen, hd, hs, if_false, Proposal.parseSMCD]
  simp only [ok_bind, ok_sub, ok_be16, ok_ite, ok_pure, Slice.len_mk, Slice.cap_mk]
  by_cases hc : v.length + e.length < 40
  · simp only [hc, true_or, iff_true]; rintro ⟨_, _, _, h, _⟩; omega
  have ho := u16_take (v ++ e) 38 (by simp; omega)
  have h2 : 2 ≤ (((v ++ e).drop 38).take (40 - 38)).length := by simp; omega
  have hs : ∀ P : Prop, ((8 ≤ 16 ∧ 16 ≤ v.length + e.length) ∧ (16 ≤ 32 ∧ 32 ≤ v.length + e.length) ∧
      (32 ≤ 38 ∧ 38 ≤ v.length + e.length) ∧ (38 ≤ 40 ∧ 40 ≤ v.length + e.length) ∧
      2 ≤ (((v ++ e).drop 38).take (40 - 38)).length ∧ P) ↔ P := fun P =>
    ⟨fun h => h.2.2.2.2.2, fun h => ⟨by omega, by omega, by omega, by omega, h2, h⟩⟩
  rw [hs]
  simp only [SMCDIPAreaOffset]
  rw [ho]
  by_cases h40 : num (v ++ e) 38 0 16 = 40
  · simp only [h40, if_true]
    rw [ok_be64 _ _ _ (fun x => and_congr Iff.rfl (ok_propRest v e hv _ (by exact hp.2.2.2.2) (by exact hd) _))]
    simp only [Slice.len_mk, List.length_take, List.length_drop, List.length_append, Overdump, Nat.reduceAdd, true_and]
    split <;> omega
  · simp only [h40, if_false]
    rw [ok_propRest v e hv _ (by exact hp.2.2.2.2) (by exact hd)]
    unfold Overdump
    split <;> omega
/-! ## Version 2 -/

theorem go_assoc {α β γ : Type} (x : Go α) (f : α → Go β) (g : β → Go γ) :
    ((x >>= f) >>= g) = (x >>= fun a => f a >>= g) := by
  cases x with
  | panic l => rfl
  | ret l a =>
    rw [Go.bind_withLog, Go.bind_withLog]
    cases f a with
    | panic l' => rfl
    | ret l' b => rw [Go.withLog_ret, Go.bind_withLog, Go.bind_withLog, Go.withLog_withLog]

/-- what the parts of a version 2 Proposal have to do with each other -/
structure Rem (v : Bytes) (p : ProposalV2) : Prop where
  length : p.hdr.Length.toNat = declared v
  pathv2 : p.hdr.Pathv2.toNat = pathv2Of v
  gids : p.GIDArea.length = 8
  trailer : p.trailer.length = 4

/-- the IP area -/
theorem ok_ip (v e : Bytes) (p : ProposalV2) (hp : Rem v p) (hpath : p.hdr.Path.toNat = pathOf v)
    (Q : ProposalV2 × Option Nat → Prop) (R : Nat → Prop) (hn : ∀ q, Q (q, none))
    (hq : ∀ q k, Rem v q → q.EIDArea = p.EIDArea → (Q (q, some k) ↔ ¬ R k)) :
    Ok (p.parseIPArea ⟨v, e⟩ 80) Q ↔ ¬ CrashesIP v e R := by
  have hc : ((p.hdr.Length.toNat : Int) - ((80 : Nat) : Int) < 4 + 1 + 2 + 1 + TrailerLen) ↔ declared v < 92 := by
    simp only [hp.length, TrailerLen, EyecatcherLen]; omega
  unfold ProposalV2.parseIPArea CrashesIP
  by_cases h2 : pathOf v = 2
  · have : p.hdr.Path = 2 := by rw [toNat_eq_two]; omega
    rw [if_neg (by simp [SMCTypeN, this]), if_pos h2, ok_pure, hq p 80 hp rfl]
  · have : p.hdr.Path ≠ 2 := fun h => h2 (by rw [toNat_eq_two] at h; omega)
    rw [if_pos (show p.hdr.Path ≠ SMCTypeN from this), if_neg h2]
    simp only [hc, ok_ite]
    by_cases h : declared v < 92
    · rw [if_pos h, if_pos h]
      simp [ok_bind, ok_log, ok_sto, ok_errDump, ok_ret, hp.length, hn]
    · rw [if_neg h, if_neg h]
      simp only [ok_bind, ok_sub, ok_idx, ok_pure, Slice.len_mk, Slice.cap_mk]
      have key : ∀ (S : List IPv6Prefix × Nat → Prop) (n : Nat) (ps : List IPv6Prefix),
          (∀ a, S a ↔ ¬ R a.2) → (Ok (parsePrefixesV2 p.hdr.Length ⟨v, e⟩ n (80 + 4 + 1 + 2 + 1) ps) S ↔
          (min n (fits (declared v) 88 17) = 0 ∨ 88 + 17 * min n (fits (declared v) 88 17) ≤ v.length) ∧
          (fits (declared v) 88 17 < n → declared v ≤ v.length + e.length) ∧
          ¬ R (88 + 17 * min n (fits (declared v) 88 17))) := fun S n ps hh => by
        rw [ok_congr _ hh, ok_prefixesV2 p.hdr.Length ⟨v, e⟩ n 88 ps (fun k => ¬ R k), hp.length]; rfl
      by_cases hl : v.length < 88
      · constructor
        · rintro ⟨h1, h2, h3, h4, h5⟩; omega
        · intro h; exact absurd (Or.inl (by omega)) h
      rw [key _ _ _ (fun a => by exact hq _ _ ⟨hp.1, hp.2, hp.3, hp.4⟩ rfl)]
      rw [num_getD v 87 (by omega), entries_eq]
      unfold Overdump
      have e87 : 80 + 4 + 1 + 2 = 87 := rfl
      rw [e87]
      generalize fits (declared v) 88 17 = f
      generalize (v.getD 87 0).toNat = n
      generalize hX : R (88 + 17 * min n f) = X
      constructor
      · rintro ⟨h1, h2, h3, h4, h5, h6, h7⟩ (h8 | h8 | h8)
        · omega
        · omega
        · exact h7 h8
      · intro h8
        simp only [not_or] at h8
        exact ⟨by omega, by omega, by omega, by omega, by omega, by omega, h8.2.2⟩

/-- the v2 extension -/
theorem ok_ext (v e : Bytes) (p : ProposalV2) (hp : Rem v p) (h8 : p.EIDArea.length = 8) (k : Nat)
    (Q : ProposalV2 × Option Nat → Prop) (R : Nat → Nat → Prop) (hn : ∀ q, Q (q, none))
    (hs : pathv2Of v = 2 → Q (p, some k))
    (hq : ∀ q k', Rem v q → q.GIDNumber = v.getD (k + 1) 0 → (Q (q, some k') ↔ ¬ R (v.getD (k + 1) 0).toNat k')) :
    Ok (p.parseV2Ext ⟨v, e⟩ k) Q ↔ ¬ CrashesExt v e k R := by
  have hc : ((p.hdr.Length.toNat : Int) - (k : Int) < ProposalV2ExtLen + TrailerLen) ↔ declared v < k + 44 := by
    simp only [hp.length, ProposalV2ExtLen, TrailerLen, EyecatcherLen]; omega
  unfold ProposalV2.parseV2Ext CrashesExt
  by_cases h2 : pathv2Of v = 2
  · have : p.hdr.Pathv2 = 2 := by rw [toNat_eq_two]; have := hp.pathv2; omega
    rw [if_neg (by simp [SMCTypeN, this]), if_pos h2, ok_pure]
    simp [hs h2]
  · have : p.hdr.Pathv2 ≠ 2 := fun h => h2 (by rw [toNat_eq_two] at h; have := hp.pathv2; omega)
    rw [if_pos (show p.hdr.Pathv2 ≠ SMCTypeN from this), if_neg h2]
    simp only [hc, ok_ite]
    by_cases h : declared v < k + 44
    · rw [if_pos h, if_pos h]
      simp [ok_bind, ok_log, ok_sto, ok_errDump, ok_ret, hp.length, hn]
    · rw [if_neg h, if_neg h]
      simp only [ok_bind, ok_sub, ok_idx, ok_be16, ok_pure, Slice.len_mk, Slice.cap_mk]
      have key : ∀ (S : List Bytes × Nat → Prop) (n : Nat),
          (∀ a, S a ↔ ¬ R (v.getD (k + 1) 0).toNat a.2) →
          (Ok (parseEIDs p.hdr.Length ⟨v, e⟩ n 0 (k + 40) p.EIDArea) S ↔
          min n (fits (declared v) (k + 40) 32) ≤ 8 ∧
          (min n (fits (declared v) (k + 40) 32) = 0 ∨
            k + 40 + 32 * min n (fits (declared v) (k + 40) 32) ≤ v.length + e.length) ∧
          (fits (declared v) (k + 40) 32 < n → declared v ≤ v.length + e.length) ∧
          ¬ R (v.getD (k + 1) 0).toNat (k + 40 + 32 * min n (fits (declared v) (k + 40) 32))) := fun S n hh => by
        rw [ok_congr _ hh, ok_eids p.hdr.Length ⟨v, e⟩ n 0 (k + 40) p.EIDArea (by omega) (fun k' => ¬ R (v.getD (k + 1) 0).toNat k'),
          hp.length, h8, Nat.zero_add]; rfl
      by_cases hl : v.length < k + 4
      · constructor
        · rintro ⟨h1, h2, h3, h4, h5⟩; omega
        · intro h; exact absurd (Or.inl (by omega)) h
      simp only [show k + 1 + 1 + 1 + 1 + 2 + 2 + 32 = k + 40 by omega]
      rw [key _ _ (fun a => by exact hq _ _ ⟨hp.1, hp.2, hp.3, hp.4⟩ rfl)]
      rw [num_getD v k (by omega), num_getD v (k + 1) (by omega), entries_eq]
      unfold Overdump
      simp only [List.length_take, List.length_drop, List.length_append]
      generalize fits (declared v) (k + 40) 32 = f
      generalize (v.getD k 0).toNat = n
      generalize hX : R (v.getD (k + 1) 0).toNat (k + 40 + 32 * min n f) = X
      constructor
      · rintro ⟨h1, h2, h3, h4, h5, h6, h7, h8, h9, h10, h11, h12, h13, h14⟩ (h15 | h15 | h15 | h15 | h15)
        · omega
        · omega
        · omega
        · omega
        · exact h14 h15
      · intro h8
        simp only [not_or] at h8
        exact ⟨by omega, by omega, by omega, by omega, by omega, by omega, by omega, by omega, by omega, by omega,
          by omega, by omega, by omega, h8.2.2.2.2⟩

/-- the SMC-Dv2 extension -/
theorem ok_smcd (v e : Bytes) (p : ProposalV2) (hp : Rem v p) (k : Nat)
    (Q : ProposalV2 × Option Nat → Prop) (hn : ∀ q, Q (q, none))
    (hq : ∀ q k', q.trailer.length = 4 → Q (q, some k')) :
    Ok (p.parseSMCDExt ⟨v, e⟩ k) Q ↔ ¬ CrashesSMCD v e p.GIDNumber.toNat k := by
  have hc : ((p.hdr.Length.toNat : Int) - (k : Int) < SMCDv2ExtLen + TrailerLen) ↔ declared v < k + 52 := by
    simp only [hp.length, SMCDv2ExtLen, TrailerLen, EyecatcherLen]; omega
  have hd : (p.hdr.Pathv2 = SMCTypeD ∨ p.hdr.Pathv2 = SMCTypeB) ↔ (pathv2Of v = 1 ∨ pathv2Of v = 3) := by
    show (p.hdr.Pathv2 = 1 ∨ p.hdr.Pathv2 = 3) ↔ _
    rw [toNat_eq_one, toNat_eq_three, hp.pathv2]
  unfold ProposalV2.parseSMCDExt CrashesSMCD
  simp only [hd, hc, ok_ite]
  by_cases h2 : pathv2Of v = 1 ∨ pathv2Of v = 3
  · rw [if_pos h2, if_pos h2]
    by_cases h : declared v < k + 52
    · rw [if_pos h, if_pos h]
      simp [ok_bind, ok_log, ok_sto, ok_errDump, ok_ret, hp.length, hn]
    · rw [if_neg h, if_neg h]
      simp only [ok_bind, ok_sub, ok_pure, Slice.cap_mk]
      rw [ok_congr (Q := fun _ => True) _ (fun a => by exact iff_true_intro (hq _ _ hp.trailer)), ok_gids _ _ _ _ _ _ (by omega), hp.length, hp.gids,
        Slice.cap_mk, entries_eq, show k + 32 + 16 = k + 48 by omega]
      unfold Overdump
      generalize fits (declared v) (k + 48) 10 = f
      generalize p.GIDNumber.toNat = n
      constructor
      · rintro ⟨h1, h2, h3, h4, h5⟩; omega
      · intro h; exact ⟨by omega, by omega, by omega, by omega, by omega⟩
  · rw [if_neg h2, if_neg h2, ok_pure]
    simp [hq p k hp.trailer]

/-- what follows the fixed part -/
theorem ok_v2Rest (v e : Bytes) (hv : 8 ≤ v.length) (p : ProposalV2) (hp : Rem v p) (hpath : p.hdr.Path.toNat = pathOf v)
    (h8 : p.EIDArea.length = 8) :
    Ok (v2Rest p ⟨v, e⟩) (fun _ => True) ↔ ¬ CrashesIP v e fun k => CrashesExt v e k (CrashesSMCD v e) := by
  have ht : ∀ q : ProposalV2, q.trailer.length = 4 →
      Ok (trailerParse q.trailer ⟨v, e⟩ >>= fun t => pure { q with trailer := t }) (fun _ => True) := fun q hq => by
    rw [ok_bind, ok_trailer _ hq v e (by omega), ok_pure]; trivial
  unfold v2Rest
  rw [ok_bind]
  refine ok_ip v e p hp hpath _ _ (fun q => (ok_pure _ _).2 trivial) fun q k hq he => ?_
  dsimp only
  rw [ok_bind]
  refine ok_ext v e q hq (he ▸ h8) k _ _ (fun q => (ok_pure _ _).2 trivial) (fun h2 => ?_) fun q k' hq hg => ?_
  · dsimp only
    rw [ok_bind, ok_smcd v e q hq k _ (fun q => (ok_pure _ _).2 trivial) (fun q k' hq => ht q hq)]
    unfold CrashesSMCD
    rw [if_neg (by omega)]; simp
  · dsimp only
    rw [ok_bind, ok_smcd v e q hq k' _ (fun q => (ok_pure _ _).2 trivial) (fun q k' hq => ht q hq), hg]

/-- `Parse` with its last part by name -/
theorem parse_v2Rest (p : ProposalV2) (buf : Slice) : p.parse buf = (do
    let p := { p with raw := rawParse buf }
    let p := { p with hdr := ← p.hdr.parse buf }
    if p.hdr.Length.toNat < ProposalV2Len then
      Go.log (go! "Error parsing CLC Proposal v2: message too short")
      errDump (← buf.sto p.hdr.Length.toNat)
      pure p
    else
      let p := { p with SenderPeerID := copyInto p.SenderPeerID (← buf.sub 8 16).vis }
      let p := { p with IBGID := copyInto (zeros 16) (← buf.sub 16 32).vis }
      let p := { p with IBMAC := copyInto (zeros 6) (← buf.sub 32 38).vis }
      let p := { p with IPAreaOffset := ← be16 (← buf.sub 38 40) }
      let p := { p with SMCDGID := ← be64 (← buf.sub 40 48) }
      let p := { p with ISMv2VCHID := ← be16 (← buf.sub 48 50) }
      let p := { p with SMCv2Offset := ← be16 (← buf.sub 50 52) }
      let p := { p with rsv := copyInto p.rsv (← buf.sub 52 80).vis }
      v2Rest p buf) := by
  unfold ProposalV2.parse ProposalV2.parseFixed
  simp only [go_assoc, Go.pure_eq, Go.ret_bind, HeaderLen, PeerIDLen, Nat.reduceAdd]
  rfl

theorem proposalV2_panics (v e : Bytes) (hv : 8 ≤ v.length) (p : ProposalV2) (hp : SizedProposalV2 p) :
    (p.parse ⟨v, e⟩).Panics ↔ CrashesV2 v e := by
  have hd := declared_eq v hv
  unfold CrashesV2
  by_cases hs : declared v < 84
  · rw [if_pos hs, proposalV2_short v e hv p hp.1 (by omega), hd]
    unfold reject
    split
    · exact ⟨fun h => absurd h (Go.not_panics_ret _ _), fun h => by omega⟩
    · exact ⟨fun _ => by omega, fun _ => ⟨_, rfl⟩⟩
  rw [if_neg hs, panics_iff_not, parse_v2Rest]
  dsimp only
  rw [header_parse _ hp.1 v e hv]
  simp only [Go.ret_bind, ProposalV2Len, hd, hs, if_false]
  simp only [ok_bind, ok_sub, ok_be16, Slice.len_mk, Slice.cap_mk]
  rw [ok_be64 _ _ _ (fun x => and_congr Iff.rfl (and_congr Iff.rfl (and_congr Iff.rfl (and_congr Iff.rfl (and_congr Iff.rfl
    (ok_v2Rest v e hv _ (by exact ⟨hd, pathv2_eq v hv, hp.2.2.2.2.2.2.2.2.2.2.1, hp.2.2.2.2.2.2.2.2.2.2.2⟩)
      (by exact path_eq v hv) (by exact hp.2.2.2.2.2.2.1)))))))]
  simp only [Slice.len_mk, List.length_take, List.length_drop, List.length_append]
  generalize CrashesIP v e _ = X
  constructor
  · intro h
    by_cases hX : X
    · exact Or.inr hX
    · refine Or.inl (Nat.lt_of_not_le fun hc => h ?_)
      refine ⟨?_, ?_, ?_, ?_, ?_, ?_, ?_, ?_, ?_, ?_, ?_, ?_, hX⟩ <;> omega
  · rintro (h | h)
    · rintro ⟨_, _, _, _, _, _, _, _, _, _, _, hc, _⟩; omega
    · rintro ⟨_, _, _, _, _, _, _, _, _, _, _, _, hX⟩; exact hX h

end CLC
end SMC
