import Verif.Props.CLCReport
import Verif.Props.CLCLocal
import Verif.Props.CLCSpare
import Verif.Props.Dump
import Verif.Props.Packet
import Verif.Spec.CLCEvery
/-!
# C43, continued, and C98: what is dumped or logged can be parsed again
-/

namespace SMC.Props

open SMC Spec CLC

/-! ## C43: the reports -/

/-- Parts of two lists of reports: equal, but for the report on the trailer, if it is reached. -/
def SameBut (v v' : Bytes) (r r' : List Bytes) : Prop :=
  r = r' ∨ ∃ b, r = b ++ trailerReport v ∧ r' = b ++ trailerReport v'

theorem SameBut.app {v v' : Bytes} {b r r' : List Bytes} (h : SameBut v v' r r') : SameBut v v' (b ++ r) (b ++ r') := by
  rcases h with rfl | ⟨c, rfl, rfl⟩
  · exact .inl rfl
  · exact .inr ⟨b ++ c, by simp, by simp⟩

theorem SameBut.trailer {v v' : Bytes} : SameBut v v' (trailerReport v) (trailerReport v') := .inr ⟨[], rfl, rfl⟩

theorem reports_agree (k : CLCKind) {n : Nat} {v v' : Bytes} (a : Agree n v v') (h8 : 8 ≤ n) (hd : declared v ≤ n) :
    SameBut v v' (reports k v) (reports k v') := by
  have e0 := a.declared h8
  have ew : raw v' 0 (declared v) = raw v 0 (declared v) := (a.mid 0 _ (by omega)).symm
  have ec : ∀ t n m, countReport t v n m = countReport t v' n m := by
    intro t n m; unfold countReport; rw [← e0, ew]
  unfold reports
  simp only [← e0, ew, ← a.num 4 0 8 (by omega)]
  by_cases hs : declared v < minLen k
  · simp only [if_pos hs]; exact .inl rfl
  simp only [if_neg hs]
  cases k <;> try exact SameBut.trailer
  case proposal =>
    have hmin : 52 ≤ declared v := by simpa [minLen] using hs
    have ea : ipAreaAt v = ipAreaAt v' := by unfold ipAreaAt; rw [a.num 38 0 16 (by omega)]
    simp only [← ea]
    by_cases h : declared v < ipAreaAt v + 12
    · simp only [if_pos h]; exact .inl rfl
    · simp only [if_neg h]; rw [← a.num (ipAreaAt v + 7) 0 8 (by omega), ec]
      exact SameBut.trailer.app
  case proposalV2 =>
    have e1 := agree_roomIP a h8
    by_cases c1 : RoomIP v
    case neg => rw [if_pos c1, if_pos (fun x => c1 (e1.2 x))]; exact .inl rfl
    rw [if_neg (not_not_intro c1), if_neg (not_not_intro (e1.1 c1))]
    have eH : HasIP v ↔ HasIP v' := by unfold HasIP; rw [agree_path a h8]
    have eI : (if HasIP v then countReport (go! "Error parsing CLC Proposal v2: IPv6 prefix count too big") v (num v 87 0 8) (pfxCount v) else [])
        = (if HasIP v' then countReport (go! "Error parsing CLC Proposal v2: IPv6 prefix count too big") v' (num v' 87 0 8) (pfxCount v') else []) := by
      by_cases h : HasIP v
      · have := c1 h
        rw [if_pos h, if_pos (eH.1 h), a.num 87 0 8 (by omega), agree_pfxCount a hd h8 h c1, ec]
      · rw [if_neg h, if_neg (fun x => h (eH.2 x))]
    rw [← eI]
    refine SameBut.app ?_
    have e2 := agree_roomExt a hd h8 c1
    by_cases c2 : RoomExt v
    case neg => rw [if_pos c2, if_pos (fun x => c2 (e2.2 x))]; exact .inl rfl
    rw [if_neg (not_not_intro c2), if_neg (not_not_intro (e2.1 c2))]
    have eX : HasExt v ↔ HasExt v' := by unfold HasExt; rw [agree_pathv2 a h8]
    have eE := agree_extAt a hd h8 c1
    have eJ : (if HasExt v then countReport (go! "Error parsing CLC Proposal v2: EID number too big") v (num v (extAt v) 0 8) (eidCount v) else [])
        = (if HasExt v' then countReport (go! "Error parsing CLC Proposal v2: EID number too big") v' (num v' (extAt v') 0 8) (eidCount v') else []) := by
      by_cases h : HasExt v
      · have := c2 h
        rw [if_pos h, if_pos (eX.1 h), ← eE, a.num (extAt v) 0 8 (by omega), agree_eidCount a hd h8 c1 h c2, ec]
      · rw [if_neg h, if_neg (fun x => h (eX.2 x))]
    rw [← eJ]
    refine SameBut.app ?_
    have e3 := agree_roomSMCD a hd h8 c1 c2
    by_cases c3 : RoomSMCD v
    case neg => rw [if_pos c3, if_pos (fun x => c3 (e3.2 x))]; exact .inl rfl
    rw [if_neg (not_not_intro c3), if_neg (not_not_intro (e3.1 c3))]
    have eS : HasSMCD v ↔ HasSMCD v' := by unfold HasSMCD; rw [agree_pathv2 a h8]
    have eK : (if HasSMCD v then countReport (go! "Error parsing CLC Proposal v2: GID number too big") v (num v (extAt v + 1) 0 8) (gidCount v) else [])
        = (if HasSMCD v' then countReport (go! "Error parsing CLC Proposal v2: GID number too big") v' (num v' (extAt v' + 1) 0 8) (gidCount v') else []) := by
      by_cases h : HasSMCD v
      · have h2 : HasExt v := by rcases h with h | h <;> (unfold HasExt; omega)
        have := c2 h2
        rw [if_pos h, if_pos (eS.1 h), ← eE, a.num (extAt v + 1) 0 8 (by omega), agree_gidCount a hd h8 c1 c2 h, ec]
      · rw [if_neg h, if_neg (fun x => h (eS.2 x))]
    rw [← eK]
    exact SameBut.trailer.app

/-- C43 for the log, without the trailer: bytes behind the message change no report but the one on
the trailer. -/
theorem C43_log_partial (m : Message) (hm : Sized m) (s s' : Slice) (hs : 8 ≤ s.len) (hL : declared s.vis ≤ s.len)
    (hs' : 8 ≤ s'.len) (hL' : declared s.vis ≤ s'.len)
    (heq : s.vis.take (max 8 (declared s.vis)) = s'.vis.take (max 8 (declared s.vis)))
    (l l' : List Bytes) (x x' : Message) (h : m.parse s = .ret l x) (h' : m.parse s' = .ret l' x') :
    l = l' ∨ ∃ b, l = b ++ trailerReport s.vis ∧ l' = b ++ trailerReport s'.vis := by
  have a : Agree (max 8 (declared s.vis)) s.vis s'.vis :=
    ⟨Nat.max_le.2 ⟨hs, hL⟩, Nat.max_le.2 ⟨hs', hL'⟩, heq⟩
  rw [C80_parse_log m hm s hs hL l x h,
    C80_parse_log m hm s' hs' (a.declared (Nat.le_max_left _ _) ▸ hL') l' x' h']
  exact reports_agree _ a (Nat.le_max_left _ _) (Nat.le_max_right _ _)

/-- C43 for the log is false: one more byte behind this Decline, and its trailer is reported. -/
theorem C43_log_false : ∃ (s s' : Slice) (l l' : List Bytes) (x x' : Decline),
    declared s.vis = s.len ∧ s'.vis = s.vis ++ [0] ∧
      ({} : Decline).parse s = .ret l x ∧ ({} : Decline).parse s' = .ret l' x' ∧ l ≠ l' := by
  refine ⟨⟨hex! "e2 d4 c3 d9 04 00 1c 10 00 00 00 00 00 00 00 00 03 03 00 00 00 00 00 00 e2 d4 c3 d9", []⟩,
    ⟨hex! "e2 d4 c3 d9 04 00 1c 10 00 00 00 00 00 00 00 00 03 03 00 00 00 00 00 00 e2 d4 c3 d9 00", []⟩,
    _, _, _, _, by decide +kernel, rfl, rfl, rfl, by decide +kernel⟩

/-! ## C98 -/

theorem wireMsg_raw {bs : Bytes} {m : LLC.Msg} (h : WireMsg bs m) : m.base.Raw = bs := by
  cases m with
  | other m => exact h.1
  | _ m => exact h.base.raw

theorem undump_llc {bs : Bytes} {m : LLC.Msg} (h : WireMsg bs m) : undump m.hex = bs := by
  rw [← wireMsg_raw h]
  cases m <;> exact C16_undump_hexDump _

/-- C98: the dump of an LLC or CDC message is that of its bytes; parsed again it gives the same
message. -/
theorem C98_llc (s : Slice) (l : List Bytes) (m : LLC.Msg) (h : LLC.parseLLC s = .ret l m) (e : Bytes) :
    undump m.hex = s.vis ∧ LLC.parseLLC ⟨undump m.hex, e⟩ = .ret l m := by
  have hu := undump_llc (C02_parseLLC_dispatch_partial s l m h).2
  refine ⟨hu, ?_⟩
  rw [hu, C74_spare_llc _ e s.extra]
  exact h

example : ∃ l m, LLC.parseLLC ⟨7 :: 44 :: zeros 41 ++ [9], [1, 2]⟩ = .ret l m := ⟨_, _, rfl⟩

/-- the bytes in the dumps of the parts of a packet, and its ICRC -/
def dumped (r : RoCE.RoCE) : Bytes :=
  (match r.GRH with
   | none => []
   | some g => undump g.hex) ++ undump r.BTH.hex ++ undump r.LLC.hex ++ r.ICRC.vis

theorem decoded_dumped {bs : Bytes} {l : List Bytes} {r : RoCE.RoCE} (h : Decoded bs l r) :
    undump r.BTH.hex ++ undump r.LLC.hex ++ r.ICRC.vis = bs := by
  obtain ⟨b, p, c, rfl, hb, hc, hw, hp, hi⟩ := h.cut
  rw [(C98_llc ⟨p, []⟩ l r.LLC (hp []) []).1, hi, show undump r.BTH.hex = b from (C16_undump_hexDump _).trans hw.raw]

theorem val_seen {x y : Go RoCE.RoCE} {l : List Bytes} {r : RoCE.RoCE} (hy : y = .ret l r)
    (h : asSeen x = asSeen y) : ∃ r', x = .ret l r' ∧ seen r' = seen r := by
  subst hy
  cases x with
  | panic _ => cases h
  | ret l' r' =>
    simp only [asSeen, Bind.bind, Go.bind, Go.pure_eq, List.append_nil] at h
    obtain ⟨h1, h2⟩ := Go.ret.inj h
    exact ⟨r', by rw [h1], h2⟩

/-- C98: the dumps of the parts of a RoCEv2 packet and its ICRC, one after the other, are the
packet; parsed again they give the same parts and the same log. -/
theorem C98_v2 (s : Slice) (l : List Bytes) (r : RoCE.RoCE) (h : RoCE.parseRoCEv2 s = .ret l r) (e : Bytes) :
    dumped r = s.vis ∧ ∃ r', RoCE.parseRoCEv2 ⟨dumped r, e⟩ = .ret l r' ∧ seen r' = seen r := by
  obtain ⟨-, hd, -, hg⟩ := C22_v2_cut s l r h
  have hu : dumped r = s.vis := by
    unfold dumped
    rw [hg, ← decoded_dumped hd]
    rfl
  exact ⟨hu, val_seen h (hu ▸ (C74_spare_roce s.vis e s.extra).1)⟩

/-- C98: the same for RoCEv1 packets. -/
theorem C98_v1 (s : Slice) (l : List Bytes) (r : RoCE.RoCE) (h : RoCE.parseRoCEv1 s = .ret l r) (e : Bytes) :
    dumped r = s.vis ∧ ∃ r', RoCE.parseRoCEv1 ⟨dumped r, e⟩ = .ret l r' ∧ seen r' = seen r := by
  obtain ⟨-, g, bs, gr, hv, hl, hg, hw, hd, -⟩ := C22_v1_cut s l r h
  have hu : dumped r = s.vis := by
    unfold dumped
    rw [hg, hv, ← decoded_dumped hd]
    have : undump gr.hex = g := (C16_undump_hexDump _).trans (by rw [hw.contents]; simp [raw, ← hl])
    simp only [this, List.append_assoc]
  exact ⟨hu, val_seen h (hu ▸ (C74_spare_roce s.vis e s.extra).2)⟩

/-- a test link message in a RoCEv1 packet -/
example : ∃ l r, RoCE.parseRoCEv1 ⟨0x60 :: zeros 39 ++ (0x2a :: zeros 11 ++ (7 :: 44 :: zeros 42) ++ [1, 2, 3, 4]), []⟩ = .ret l r :=
  ⟨_, _, rfl⟩

theorem undump_clc {m x : Message} {v : Bytes} {l : List Bytes} (h : m.parse ⟨v, []⟩ = .ret l x) : undump x.dump = v := by
  obtain ⟨b, hb, hx⟩ := spareSim_message m v [] l x h
  rw [h] at hb
  obtain rfl := (Go.ret.inj hb).2
  refine (C16_undump_hexDump _).trans ?_
  rw [hx]
  cases x <;> rfl

/-- C98: the dump of a CLC message is that of its buffer. Parsed again by `NewMessage` and a fresh
`Parse`, it gives the same message and the same log, if the message was parsed without spare
capacity behind the slice. -/
theorem C98_clc (v : Bytes) (l0 l : List Bytes) (n : UInt16) (m x : Message)
    (h0 : newMessage ⟨v, []⟩ = .ret l0 (some m, n)) (h : m.parse ⟨v, []⟩ = .ret l x) (e : Bytes) :
    undump x.dump = v ∧ newMessage ⟨undump x.dump, e⟩ = .ret l0 (some m, n) ∧
      m.parse ⟨undump x.dump, e⟩ = .ret l (withRawHdr x ⟨v, e⟩ x.hdr) := by
  have hu := undump_clc h
  have hv : 8 ≤ v.length := Nat.le_of_not_lt fun hn => by
    obtain ⟨l', hl⟩ := (parse_needs m ⟨v, []⟩).panics hn
    rw [hl] at h; cases h
  refine ⟨hu, ?_, ?_⟩
  · rw [hu, newMessage_eq v e hv, ← newMessage_eq v [] hv, h0]
  · rw [hu]
    obtain ⟨b, hb, rfl⟩ := spareSim_message m v e l x h
    exact hb

/-- a Decline with two bytes behind it -/
example : ∃ l0 l n m x, newMessage ⟨hex! "e2 d4 c3 d9 04 00 1c 10 00 00 00 00 00 00 00 00 03 03 00 00 00 00 00 00 e2 d4 c3 d9 01 02", []⟩ =
      .ret l0 (some m, n) ∧
    m.parse ⟨hex! "e2 d4 c3 d9 04 00 1c 10 00 00 00 00 00 00 00 00 03 03 00 00 00 00 00 00 e2 d4 c3 d9 01 02", []⟩ = .ret l x :=
  ⟨_, _, _, _, _, rfl, rfl⟩

/-- The first report, unless it is the one on the trailer, shows the whole message. -/
def ShowsAll (v : Bytes) (r : List Bytes) : Prop := ∀ t d r', r = t :: d :: r' →
  t ≠ go! "Error parsing CLC message: invalid trailer" →
  d = go! "Message Buffer Hex Dump:\n" ++ hexDump (raw v 0 (declared v))

theorem ShowsAll.report {v : Bytes} (t : Bytes) (r : List Bytes) : ShowsAll v (report t (raw v 0 (declared v)) ++ r) := by
  intro t' d r' h _
  cases h; rfl

theorem ShowsAll.report' {v : Bytes} (t : Bytes) : ShowsAll v (Spec.report t (raw v 0 (declared v))) := by
  have := ShowsAll.report (v := v) t []
  rwa [List.append_nil] at this

theorem ShowsAll.trailer {v : Bytes} : ShowsAll v (trailerReport v) := by
  intro t d r h ht
  unfold trailerReport at h
  split at h
  · cases h
  · cases h; exact absurd rfl ht

theorem ShowsAll.count {v : Bytes} {c : Prop} [Decidable c] {t : Bytes} {n m : Nat} {r : List Bytes} (h : ShowsAll v r) :
    ShowsAll v ((if c then countReport t v n m else []) ++ r) := by
  unfold countReport
  split
  · split
    · exact h
    · exact ShowsAll.report _ _
  · exact h

theorem reports_head (k : CLCKind) (v : Bytes) : ShowsAll v (reports k v) := by
  unfold reports
  simp only
  split
  · exact ShowsAll.report' _
  split
  · split
    · exact ShowsAll.report' _
    · exact ShowsAll.count (c := True) ShowsAll.trailer
  · split
    · exact ShowsAll.report' _
    · refine ShowsAll.count ?_
      split
      · exact ShowsAll.report' _
      · refine ShowsAll.count ?_
        split
        · exact ShowsAll.report' _
        · exact ShowsAll.count ShowsAll.trailer
  · exact ShowsAll.trailer

/-- C98: the first report on a complete message, unless it is the one on the trailer, holds a dump
of the whole message. Parsed again, it gives the same fields and the same reports but for the one on
the trailer, which is taken from the end of the buffer. Left out are messages declared shorter than
their header, of which only a part is dumped, and the Proposals of `C43_fields_partial`. -/
theorem C98_report (k : CLCKind) (s : Slice) (hd : 8 ≤ declared s.vis) (hL : declared s.vis ≤ s.len)
    (t d : Bytes) (r : List Bytes) (x : Message) (h : (freshCLC k).parse s = .ret (t :: d :: r) x)
    (ht : t ≠ go! "Error parsing CLC message: invalid trailer")
    (hx : ¬ (k = .proposal ∧ num s.vis 38 0 16 = 40 ∧ 52 ≤ declared s.vis ∧ declared s.vis < 80)) :
    ∃ d', d = go! "Message Buffer Hex Dump:\n" ++ d' ∧ undump d' = raw s.vis 0 (declared s.vis) ∧
      ∀ e, ∃ l' x', (freshCLC k).parse ⟨undump d', e⟩ = .ret l' x' ∧ core x' = core x ∧
        (t :: d :: r = l' ∨ ∃ b, t :: d :: r = b ++ trailerReport s.vis ∧ l' = b ++ trailerReport (undump d')) := by
  have hsz := sized_fresh k
  have hkf := kind_fresh k
  have hw := reports_head k s.vis
  have hlog := C80_parse_log _ hsz s (by omega) hL _ x h
  rw [hkf] at hlog
  refine ⟨_, hw t d r hlog.symm ht, C16_undump_hexDump _, fun e => ?_⟩
  rw [C16_undump_hexDump]
  have hlen : (raw s.vis 0 (declared s.vis)).length = declared s.vis := by
    simp only [raw, List.drop_zero, List.length_take]
    exact Nat.min_eq_left hL
  have hmax : max 8 (declared s.vis) = declared s.vis := Nat.max_eq_right hd
  have heq : s.vis.take (max 8 (declared s.vis)) =
      (raw s.vis 0 (declared s.vis)).take (max 8 (declared s.vis)) := by
    rw [hmax]; simp [raw, List.take_take]
  obtain ⟨hp, hf⟩ := C43_fields_partial (freshCLC k) hsz s ⟨raw s.vis 0 (declared s.vis), e⟩ (by omega) hL
    (by simp only [Slice.len_mk]; omega) (by simp only [Slice.len_mk]; omega) heq (by rw [hkf]; exact hx)
  cases hq : (freshCLC k).parse ⟨raw s.vis 0 (declared s.vis), e⟩ with
  | panic l =>
    obtain ⟨l', hl'⟩ := hp.2 ⟨l, hq⟩
    rw [hl'] at h; cases h
  | ret l' x' =>
    exact ⟨l', x', rfl, (hf _ _ _ _ h hq).symm, C43_log_partial (freshCLC k) hsz s ⟨raw s.vis 0 (declared s.vis), e⟩ (by omega) hL
      (by simp only [Slice.len_mk]; omega) (by simp only [Slice.len_mk]; omega) heq _ _ _ _ h hq⟩

/-- a Decline that declares too little, with more behind it -/
example : ∃ t d r x, (freshCLC .decline).parse ⟨hex! "e2 d4 c3 d9 04 00 0a 10 ab cd ef 01 02 03", []⟩ = .ret (t :: d :: r) x ∧
    t ≠ go! "Error parsing CLC message: invalid trailer" ∧
    declared (hex! "e2 d4 c3 d9 04 00 0a 10 ab cd ef 01 02 03") = 10 :=
  ⟨_, _, _, _, rfl, by decide +kernel, by decide +kernel⟩

end SMC.Props
