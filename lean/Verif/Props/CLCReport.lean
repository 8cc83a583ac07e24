import Verif.Spec.Report
import Verif.Props.CLCParse
/-!
# C80: what is logged about CLC messages
-/

namespace SMC.Props

open SMC Spec CLC

theorem errLog_eq (msg v : Bytes) (L : Nat) : errLog msg v L = report msg (raw v 0 L) := by
  unfold errLog report dumpText
  congr 2
  unfmt [raw, List.drop_zero, List.append_nil]

theorem trailerLog_eq (v : Bytes) : trailerLog (last4 v) = trailerReport v := by
  unfold trailerLog trailerReport report dumpText
  show (if IsEye (last4 v) then _ else _) = if IsEye (last4 v) then _ else _
  split
  · rfl
  · congr 2
    unfmt [List.append_nil]
    rfl

theorem pfxLog_eq (msg v : Bytes) (k w n : Nat) :
    pfxLog msg v (declared v) k w n = countReport msg v n (entries (declared v) k w n) := by
  unfold countReport
  split
  · next h => exact (pfxLog_nil ..).2 h
  · next h =>
    rw [← errLog_eq]
    unfold pfxLog
    exact if_neg (fun c => h (Nat.min_eq_left c))

/-- C80: if `Parse` returns on a complete message, the log lines are exactly those of the faults. -/
theorem C80_parse_log (m : Message) (hm : Sized m) (s : Slice) (hs : 8 ≤ s.len) (hL : declared s.vis ≤ s.len)
    (l : List Bytes) (m' : Message) (h : m.parse s = .ret l m') : l = reports (clcKind m) s.vis := by
  obtain ⟨v, e⟩ := s
  simp only [Slice.len_mk] at *
  unfold reports
  by_cases hd : declared v < minLen (clcKind m)
  · rw [if_pos hd]
    rw [message_short m hm v e hs hd, reject_ret _ _ _ _ _ hL] at h
    cases h
    exact errLog_eq ..
  · rw [if_neg hd]
    by_cases h1 : clcKind m = .proposal
    · cases m <;> simp only [clcKind, reduceCtorEq] at h1
      rename_i m
      simp only [clcKind, minLen] at hd ⊢
      rw [Message.parse, proposal_result v e hs m hm (by omega) (by omega) hL] at h
      unfold propResult at h
      split at h
      · cases h
      split at h
      · next c =>
        rw [map_ret] at h; cases h
        rw [if_pos c, errLog_eq]
      · next c =>
        rw [map_ret] at h; cases h
        rw [if_neg c, pfxLog_eq, trailerLog_eq]
        rfl
    · by_cases h2 : clcKind m = .proposalV2
      · cases m <;> simp only [clcKind, reduceCtorEq] at h2
        rename_i m
        simp only [clcKind, minLen] at hd ⊢
        rw [Message.parse] at h
        have lp : v2LogP v = if HasIP v then
            countReport (go! "Error parsing CLC Proposal v2: IPv6 prefix count too big") v (num v 87 0 8) (pfxCount v) else [] := by
          unfold v2LogP
          rw [pfxLog_eq, ← ite_not]
          rfl
        have lq : v2LogQ v = if HasExt v then
            countReport (go! "Error parsing CLC Proposal v2: EID number too big") v (num v (extAt v) 0 8) (eidCount v) else [] := by
          unfold v2LogQ
          rw [pfxLog_eq, ← ite_not]
          rfl
        have lr : v2LogR v = if HasSMCD v then
            countReport (go! "Error parsing CLC Proposal v2: GID number too big") v (num v (extAt v + 1) 0 8) (gidCount v) else [] := by
          unfold v2LogR
          rw [pfxLog_eq]
          rfl
        rw [← lp, ← lq, ← lr, ← trailerLog_eq]
        cases hr : m.parse ⟨v, e⟩ with
        | panic l => rw [hr] at h; cases h
        | ret l m1 =>
          rw [hr, map_ret] at h
          cases h
          rcases v2_returns hm hs (by omega) (by omega) hL hr with ⟨c1, rfl, rfl⟩ | ⟨c1, c2, rfl, rfl⟩ |
            ⟨c1, c2, c3, c4, rfl, rfl⟩ | ⟨c1, c2, c3, c4, c5, rfl, rfl⟩
          · rw [if_pos c1, errLog_eq]; rfl
          · rw [if_neg (fun c => c c1), if_pos c2, errLog_eq]; rfl
          · rw [if_neg (fun c => c c1), if_neg (fun c => c c2), if_pos c4, errLog_eq, List.append_assoc]; rfl
          · rw [if_neg (fun c => c c1), if_neg (fun c => c c2), if_neg (fun c => c c4)]
            simp only [List.append_assoc]
      · obtain ⟨m2, h3, h4⟩ := message_fixed m hm v e hs h1 h2 (by omega) hL
        rw [h3] at h
        cases h
        rw [trailerLog_eq]
        cases m <;> simp_all [clcKind]

/-- the hypotheses hold of a Proposal of version 2 that announces two prefixes and has one, and has no
v2 extension and a bad trailer -/
example :
    let v : Bytes := hex! "e2 d4 c3 d9 01 00 6d 28" ++ zeros 72 ++ zeros 7 ++ [2] ++ zeros 17 ++ zeros 4
    8 ≤ v.length ∧ declared v ≤ v.length ∧ Sized (.proposalV2 {}) ∧
    ((Message.proposalV2 {}).parse ⟨v, []⟩).logOf = reports .proposalV2 v ∧ (reports .proposalV2 v).length = 4 := by
  refine ⟨by decide +kernel, by decide +kernel, sized_fresh .proposalV2, by decide +kernel, by decide +kernel⟩

/-- C80 for `NewMessage`: the only report is on messages with an eyecatcher that declare more than 1024 bytes. -/
theorem C80_new_log (s : Slice) (hs : 8 ≤ s.len) (l : List Bytes) (r : Option Message × UInt16)
    (h : newMessage s = .ret l r) :
    l = if IsEye (raw s.vis 0 4) ∧ 1024 < declared s.vis then
      report (go! "Error parsing CLC header: message too big") (raw s.vis 0 8) else [] := by
  have h2 : newMessage s = .ret (newMessageLog s.vis) (newMessageResult s.vis) := newMessage_eq s.vis s.extra hs
  rw [h2] at h
  rw [← (Go.ret.inj h).1]
  unfold newMessageLog
  split
  · exact errLog_eq ..
  · rfl

example : ∃ l, newMessage ⟨hex! "e2 d4 c3 d9 04 04 01 10", []⟩ = .ret l (none, 0) ∧ l ≠ [] ∧
    declared (hex! "e2 d4 c3 d9 04 04 01 10") = 1025 := ⟨_, rfl, by decide, by decide⟩

end SMC.Props
