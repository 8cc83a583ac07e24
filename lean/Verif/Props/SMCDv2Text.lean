import Verif.Props.CLCEvery
import Verif.Props.CLCTextParsed
import Verif.Lemmas.TextSize
/-!
# C50, C90: the texts of SMC-Dv2 messages show all names
-/

namespace SMC.Props

open SMC Spec CLC

/-- Two texts of at most `N` bytes are the same if what follows them looks like `P`, and nothing in it that is at most `N`
bytes further on does. -/
theorem cut_short {N : Nat} (P : Bytes → Prop) {x y c c' : Bytes} (hx : x.length ≤ N) (hy : y.length ≤ N) (hp : P c)
    (hp' : P c') (hc : ∀ d, 0 < d → d ≤ N → ¬ P (c.drop d)) (hc' : ∀ d, 0 < d → d ≤ N → ¬ P (c'.drop d))
    (h : x ++ c = y ++ c') : x = y ∧ c = c' := by
  have key : ∀ {x y c c' : Bytes}, y.length ≤ N → P c' → (∀ d, 0 < d → d ≤ N → ¬ P (c.drop d)) → x ++ c = y ++ c' →
      ¬ x.length < y.length := by
    intro x y c c' hy hp' hc h hlt
    have := congrArg (List.drop y.length) h
    rw [List.drop_left, List.drop_append, List.drop_of_length_le (by omega), List.nil_append] at this
    exact hc _ (by omega) (by omega) (this ▸ hp')
  have h1 := key hy hp' hc h
  have h2 := key hx hp hc' h.symm
  exact List.append_inj h (by omega)

/-- a comma that is not in the first part -/
theorem comma_behind {u c q : Bytes} {d : Nat} (hu : (44 : UInt8) ∉ u) (h : (u ++ c).drop d = 44 :: q) :
    ∃ e, d = u.length + e ∧ c.drop e = 44 :: q := by
  by_cases hd : d < u.length
  · rw [List.drop_append_of_le_length (by omega), List.drop_eq_getElem_cons hd] at h
    exact absurd (List.getElem_mem hd) (by injection h with h1; rw [h1]; exact hu)
  · exact ⟨d - u.length, by omega, by rw [List.drop_append, List.drop_of_length_le (by omega), List.nil_append] at h; exact h⟩

/-- a comma in a text that begins with one -/
theorem comma_next {u c q : Bytes} {d : Nat} (hu : (44 : UInt8) ∉ u) (h : (44 :: (u ++ c)).drop d = 44 :: q) :
    (d = 0 ∧ u ++ c = q) ∨ ∃ e, d = 1 + u.length + e ∧ c.drop e = 44 :: q := by
  cases d with
  | zero => exact .inl ⟨rfl, by injection h⟩
  | succ d =>
    obtain ⟨e, h1, h2⟩ := comma_behind hu (by simpa using h)
    exact .inr ⟨e, by omega, h2⟩

theorem osTypeStr_no : ∀ o : UInt8, (44 : UInt8) ∉ osTypeStr o := by byte_decide

theorem eidStr_len {e : Bytes} (h : e.length ≤ 32) : (eidStr e).length ≤ 32 := by
  obtain ⟨n, rest, h1, -⟩ := (C51_eid_text e).split
  have := congrArg List.length h1
  simp only [List.length_append] at this
  omega

theorem trailerStr_len {t : Bytes} (h : IsEye t) : (trailerStr t).length = 5 := by
  rcases h with rfl | rfl <;> decide

/-- the EID before a first contact extension -/
theorem eid_cut {x y : Bytes} (hx : x.length ≤ 32) (hy : y.length ≤ 32) (o o' : UInt8) (r r' : Nat) (t t' : Bytes)
    (h : x ++ (go! ", OS Type: " ++ (osTypeStr o ++ (go! ", Release: " ++ (dec r ++ (go! ", Hostname: " ++ t))))) =
      y ++ (go! ", OS Type: " ++ (osTypeStr o' ++ (go! ", Release: " ++ (dec r' ++ (go! ", Hostname: " ++ t')))))) :
    x = y ∧ osTypeStr o ++ (go! ", Release: " ++ (dec r ++ (go! ", Hostname: " ++ t))) =
      osTypeStr o' ++ (go! ", Release: " ++ (dec r' ++ (go! ", Hostname: " ++ t'))) := by
  have key : ∀ (o : UInt8) (r : Nat) (t : Bytes) (d : Nat), 0 < d → d ≤ 32 →
      ¬ ∃ q, (go! ", OS Type: " ++ (osTypeStr o ++ (go! ", Release: " ++ (dec r ++ (go! ", Hostname: " ++ t))))).drop d =
        44 :: 32 :: 79 :: q := by
    rintro o r t d h0 h32 ⟨q, h⟩
    have e : go! ", OS Type: " ++ (osTypeStr o ++ (go! ", Release: " ++ (dec r ++ (go! ", Hostname: " ++ t)))) =
        44 :: ((go! " OS Type: " ++ osTypeStr o) ++ (44 :: ((go! " Release: " ++ dec r) ++ (44 :: (go! " Hostname: " ++ t))))) := by
      simp only [List.cons_append, List.nil_append]
    rw [e] at h
    rcases comma_next (by rw [List.mem_append, not_or]; exact ⟨by decide, osTypeStr_no o⟩) h with ⟨rfl, -⟩ | ⟨d1, e1, h⟩
    · omega
    rcases comma_next (by rw [List.mem_append, not_or]; exact ⟨by decide, dec_no r⟩) h with ⟨rfl, h⟩ | ⟨d2, e2, h⟩
    · cases h
    rcases comma_next (u := go! " Hostname: ") (by decide) h with ⟨rfl, h⟩ | ⟨d3, e3, h⟩
    · cases h
    simp only [List.length_append, List.length_cons, List.length_nil] at e1 e2 e3
    omega
  obtain ⟨h1, h2⟩ := cut_short (N := 32) (fun l => ∃ q, l = 44 :: 32 :: 79 :: q) hx hy ⟨_, rfl⟩ ⟨_, rfl⟩ (key o r t) (key o' r' t') h
  exact ⟨h1, List.append_cancel_left (as := go! ", OS Type: ") h2⟩

set_option maxRecDepth 8000 in
theorem smcdv2_text_all (a b : AcceptSMCDv2) (ha : Plain (.acceptSMCDv2 a)) (hb : Plain (.acceptSMCDv2 b))
    (sa : a.EID.length = 32) (sb : b.EID.length = 32) (h : a.string = b.string) :
    eidTexts eidStr (present (.acceptSMCDv2 a)) = eidTexts eidStr (present (.acceptSMCDv2 b)) := by
  unfmt [AcceptSMCDv2.string, List.append_nil] at h
  obtain ⟨h1, h4⟩ := ha
  obtain ⟨g1, g4⟩ := hb
  have tl : (go! ", Trailer: " ++ trailerStr a.trailer).length = (go! ", Trailer: " ++ trailerStr b.trailer).length := by
    rw [List.length_append, List.length_append, trailerStr_len h4, trailerStr_len g4]
  obtain ⟨e, h⟩ := header_cut h1 g1 h
  rw [← hdrFields_rsv, ← hdrFields_rsv] at e
  have hl := hdrFields_length e
  clc_fields [] at h
  obtain ⟨k1, k2, k3, k4, k5, k6, h⟩ := h
  by_cases hx : a.hdr.Length.toNat < 114
  · have hy : b.hdr.Length.toNat < 114 := hl ▸ hx
    have f1 : a.fceString = [] := if_pos hx
    have f2 : b.fceString = [] := if_pos hy
    rw [f1, f2] at h
    simp only [List.nil_append] at h
    obtain ⟨k7, h⟩ := List.append_inj' h tl
    have ht := trailerStr_inj h4 g4 (List.append_cancel_left h)
    cases a; cases b; simp_all [present, noReserved, eidTexts]
  · have hy : ¬ b.hdr.Length.toNat < 114 := hl ▸ hx
    have f1 : a.fceString = _ := if_neg hx
    have f2 : b.fceString = _ := if_neg hy
    rw [f1, f2] at h
    unfmt [] at h
    obtain ⟨k7, h⟩ := eid_cut (eidStr_len (by omega)) (eidStr_len (by omega)) _ _ _ _ _ _ h
    clc_fields [] at h
    obtain ⟨k8, k9, h⟩ := h
    obtain ⟨k10, h⟩ := List.append_inj' h tl
    have ht := trailerStr_inj h4 g4 (List.append_cancel_left h)
    clear f1 f2
    cases a; cases b; simp_all [present, noReserved, eidTexts]
    rw [if_neg (by omega), if_neg (by omega), k10]

/-- the EID in the text of `Reserved` before a first contact extension -/
theorem eid_cut_reserved {x y : Bytes} (hx : x.length ≤ 32) (hy : y.length ≤ 32) (z z' : Bytes) (hz : z.length = 8)
    (hz' : z'.length = 8) (n n' : UInt8) (t t' : Bytes)
    (h : x ++ (go! ", Reserved: " ++ (hexBytes z ++ (go! ", Reserved: " ++ (hexInt n.toNat ++ (go! ", OS Type: " ++ t))))) =
      y ++ (go! ", Reserved: " ++ (hexBytes z' ++ (go! ", Reserved: " ++ (hexInt n'.toNat ++ (go! ", OS Type: " ++ t')))))) :
    x = y ∧ hexBytes z ++ (go! ", Reserved: " ++ (hexInt n.toNat ++ (go! ", OS Type: " ++ t))) =
      hexBytes z' ++ (go! ", Reserved: " ++ (hexInt n'.toNat ++ (go! ", OS Type: " ++ t'))) := by
  have hlen : ∀ z : Bytes, z.length = 8 → (hexBytes z).length = 18 := by
    intro z hz
    unfold hexBytes
    rw [if_neg (by intro c; rw [c] at hz; cases hz), List.length_append, hex2s_length, hz]
    rfl
  have hno : ∀ z : Bytes, (44 : UInt8) ∉ go! " Reserved: " ++ hexBytes z := by
    intro z
    rw [List.mem_append, not_or]
    exact ⟨by decide, not_mem_of_all (hexBytes_all z) (by decide)⟩
  have hni : ∀ n : UInt8, (44 : UInt8) ∉ go! " Reserved: " ++ hexInt n.toNat := by
    intro n
    rw [List.mem_append, not_or]
    exact ⟨by decide, not_mem_of_all (hexInt_all _) (by decide)⟩
  have e : ∀ (z : Bytes) (n : UInt8) (t : Bytes), go! ", Reserved: " ++ (hexBytes z ++ (go! ", Reserved: " ++ (hexInt n.toNat ++
      (go! ", OS Type: " ++ t)))) = 44 :: ((go! " Reserved: " ++ hexBytes z) ++ (44 :: ((go! " Reserved: " ++ hexInt n.toNat) ++
        (44 :: (go! " OS Type: " ++ t))))) := by
    intro z n t
    simp only [List.cons_append, List.nil_append]
  have key : ∀ (z : Bytes) (n : UInt8) (t : Bytes), z.length = 8 → ∀ d, 0 < d → d ≤ 32 →
      ¬ ∃ u q, (go! ", Reserved: " ++ (hexBytes z ++ (go! ", Reserved: " ++ (hexInt n.toNat ++ (go! ", OS Type: " ++ t))))).drop d =
        44 :: (u ++ q) ∧ u.length = 29 ∧ (44 : UInt8) ∉ u := by
    rintro z n t hz d h0 h32 ⟨u, q, h, hu, hu'⟩
    rw [e] at h
    have l1 := hlen z hz
    have l2 : (hexInt n.toNat).length ≤ 4 := upto_hex8 n
    rcases comma_next (hno z) h with ⟨rfl, -⟩ | ⟨d1, e1, h⟩
    · omega
    rcases comma_next (hni n) h with ⟨rfl, hq⟩ | ⟨d2, e2, h⟩
    · refine hu' ?_
      have := congrArg (·[(go! " Reserved: " ++ hexInt n.toNat).length]?) hq
      rw [List.getElem?_append_right (Nat.le_refl _), Nat.sub_self, List.getElem?_append_left
        (by rw [hu, List.length_append]; simp only [List.length_cons, List.length_nil]; omega)] at this
      exact List.mem_of_getElem? this.symm
    · simp only [List.length_append, List.length_cons, List.length_nil] at e1 e2
      omega
  have here : ∀ (z : Bytes) (n : UInt8) (t : Bytes), z.length = 8 →
      ∃ u q, go! ", Reserved: " ++ (hexBytes z ++ (go! ", Reserved: " ++ (hexInt n.toNat ++ (go! ", OS Type: " ++ t)))) =
        44 :: (u ++ q) ∧ u.length = 29 ∧ (44 : UInt8) ∉ u :=
    fun z n t hz => ⟨_, _, e z n t, by rw [List.length_append, hlen z hz]; rfl, hno z⟩
  obtain ⟨h1, h2⟩ := cut_short (N := 32) (fun l => ∃ u q, l = 44 :: (u ++ q) ∧ u.length = 29 ∧ (44 : UInt8) ∉ u) hx hy
    (here z n t hz) (here z' n' t' hz') (key z n t hz) (key z' n' t' hz') h
  exact ⟨h1, List.append_cancel_left h2⟩

set_option maxRecDepth 8000 in
theorem smcdv2_every_all (a b : AcceptSMCDv2) (ha : Plain (.acceptSMCDv2 a)) (hb : Plain (.acceptSMCDv2 b))
    (sa : SizedSMCDv2 a) (sb : SizedSMCDv2 b) (h : a.reserved = b.reserved) :
    eidTexts eidStr (every (.acceptSMCDv2 a)) = eidTexts eidStr (every (.acceptSMCDv2 b)) := by
  unfmt [AcceptSMCDv2.reserved, List.append_nil] at h
  obtain ⟨h1, h4⟩ := ha
  obtain ⟨g1, g4⟩ := hb
  have tl : (go! ", Trailer: " ++ trailerStr a.trailer).length = (go! ", Trailer: " ++ trailerStr b.trailer).length := by
    rw [List.length_append, List.length_append, trailerStr_len h4, trailerStr_len g4]
  have sa3 : a.rsv3.length = 8 := by unfold SizedSMCDv2 at sa; simp only [sa]
  have sb3 : b.rsv3.length = 8 := by unfold SizedSMCDv2 at sb; simp only [sb]
  have sae : a.EID.length = 32 := by unfold SizedSMCDv2 at sa; simp only [sa]
  have sbe : b.EID.length = 32 := by unfold SizedSMCDv2 at sb; simp only [sb]
  obtain ⟨e, h⟩ := header_cut_reserved h1 g1 h
  have hl := hdrEvery_length e
  clc_fields [hexBytes_sep] at h
  obtain ⟨k1, k2, k3, k4, r1, r2, k5, k6, h⟩ := h
  by_cases hx : a.hdr.Length.toNat < 114
  · have hy : b.hdr.Length.toNat < 114 := hl ▸ hx
    have f1 : a.fceReserved = [] := if_pos hx
    have f2 : b.fceReserved = [] := if_pos hy
    rw [f1, f2] at h
    simp only [List.nil_append, ← List.append_assoc] at h
    simp only [List.append_assoc _ _ (trailerStr _)] at h
    obtain ⟨h, h'⟩ := List.append_inj' h tl
    have ht := trailerStr_inj h4 g4 (List.append_cancel_left h')
    have hlen : (hexBytes a.rsv3).length = (hexBytes b.rsv3).length := by
      unfold hexBytes
      rw [if_neg (by intro c; rw [c] at sa3; cases sa3), if_neg (by intro c; rw [c] at sb3; cases sb3), List.length_append,
        List.length_append, hex2s_length, hex2s_length, sa3, sb3]
    obtain ⟨h, r3⟩ := List.append_inj' h hlen
    have r3 := hexBytes_inj r3
    have k7 := List.append_cancel_right h
    simp only [every, everySMCDv2, if_pos hx, if_pos hy, eidTexts]
    clear sa sb
    cases a; cases b; simp_all
  · have hy : ¬ b.hdr.Length.toNat < 114 := hl ▸ hx
    have f1 : a.fceReserved = _ := if_neg hx
    have f2 : b.fceReserved = _ := if_neg hy
    rw [f1, f2] at h
    unfmt [] at h
    obtain ⟨k7, h⟩ := eid_cut_reserved (eidStr_len (by omega)) (eidStr_len (by omega)) _ _ sa3 sb3 _ _ _ _ h
    clc_fields [hexBytes_sep] at h
    obtain ⟨r3, r4, k8, k9, r5, h⟩ := h
    obtain ⟨k10, h⟩ := List.append_inj' h tl
    have ht := trailerStr_inj h4 g4 (List.append_cancel_left h)
    clear f1 f2 sa sb
    simp only [every, everySMCDv2, if_neg hx, if_neg hy, eidTexts]
    cases a; cases b; simp_all

theorem smcdv2_message {m : Message} (h : clcKind m = .acceptSMCDv2 ∨ clcKind m = .confirmSMCDv2) :
    ∃ a, m = .acceptSMCDv2 a ∨ m = .confirmSMCDv2 a := by
  cases m <;> first | exact ⟨_, .inl rfl⟩ | exact ⟨_, .inr rfl⟩ | rcases h with h | h <;> cases h

theorem eidStr_idem (e : Bytes) : eidStr (eidStr e) = eidStr e := by
  have h := C51_eid_text e
  exact (C51_eid_text_unique (eidStr e) (eidStr e) ⟨⟨0, [], by simp, .inl rfl⟩, h.noNul, h.trimmed⟩).symm

theorem hdrFields_string (h : Header) : ({ hdrFields h with rsv := 0 } : Header).string = h.string := by
  unfold hdrFields
  split
  · rename_i c
    unfold Header.string Header.flagString
    simp only [c.1, c.2]
    rfl
  · rename_i c
    have c' : ¬ (h.Typ = TypeProposal ∧ h.Version = SMCv2) := c
    unfold Header.string Header.flagString
    by_cases c1 : h.Typ = TypeProposal
    · simp only [c1, if_neg (fun c2 => c' ⟨c1, c2⟩)]
    · simp only [if_neg c1]

theorem hdrEvery_reserved (h : Header) : (hdrEvery h).reserved = h.reserved := by
  unfold hdrEvery
  by_cases c : h.Typ = TypeProposal ∧ h.Version = SMCv2
  · rw [if_pos (show h.Typ = 1 ∧ h.Version = 2 from c)]
    unfold Header.reserved Header.flagString
    simp only [if_pos c, if_pos c.1, if_pos c.2]
  · rw [if_neg (show ¬ (h.Typ = 1 ∧ h.Version = 2) from c)]
    unfold Header.reserved Header.flagString
    simp only [if_neg c]
    by_cases c1 : h.Typ = TypeProposal
    · simp only [c1, if_neg (fun c2 => c ⟨c1, c2⟩)]
    · simp only [if_neg c1]

theorem hdrFields_len (h : Header) : (hdrFields h).Length = h.Length := by
  unfold hdrFields; split <;> rfl

theorem hdrEvery_len (h : Header) : (hdrEvery h).Length = h.Length := by
  unfold hdrEvery; split <;> rfl

theorem smcdv2_string_congr {a b : AcceptSMCDv2} (h1 : b.hdr.string = a.hdr.string) (hl : b.hdr.Length = a.hdr.Length)
    (h2 : b.GID = a.GID) (h3 : b.Token = a.Token) (h4 : b.DMBEIdx = a.DMBEIdx) (h5 : b.DMBESize = a.DMBESize)
    (h6 : b.LinkID = a.LinkID) (h7 : b.ISMv2VCHID = a.ISMv2VCHID) (h8 : eidStr b.EID = eidStr a.EID)
    (h9 : ¬ a.hdr.Length.toNat < 114 → b.OSType = a.OSType ∧ b.Release = a.Release ∧ eidStr b.Hostname = eidStr a.Hostname)
    (h10 : b.trailer = a.trailer) : b.string = a.string := by
  have f : b.fceString = a.fceString := by
    unfold AcceptSMCDv2.fceString
    rw [hl]
    split
    · rfl
    · rename_i c
      rw [(h9 c).1, (h9 c).2.1, (h9 c).2.2]
  unfold AcceptSMCDv2.string
  rw [h1, h2, h3, h4, h5, h6, h7, h8, h10, f]

theorem smcdv2_reserved_congr {a b : AcceptSMCDv2} (h1 : b.hdr.reserved = a.hdr.reserved) (hl : b.hdr.Length = a.hdr.Length)
    (h2 : b.GID = a.GID) (h3 : b.Token = a.Token) (h4 : b.DMBEIdx = a.DMBEIdx) (h5 : b.DMBESize = a.DMBESize)
    (h6 : b.LinkID = a.LinkID) (h7 : b.ISMv2VCHID = a.ISMv2VCHID) (h8 : eidStr b.EID = eidStr a.EID)
    (r1 : b.rsv = a.rsv) (r2 : b.rsv2 = a.rsv2) (r3 : b.rsv3 = a.rsv3)
    (h9 : ¬ a.hdr.Length.toNat < 114 → b.OSType = a.OSType ∧ b.Release = a.Release ∧ eidStr b.Hostname = eidStr a.Hostname ∧
      b.rsv4 = a.rsv4 ∧ b.rsv5 = a.rsv5)
    (h10 : b.trailer = a.trailer) : b.reserved = a.reserved := by
  have f : b.fceReserved = a.fceReserved := by
    unfold AcceptSMCDv2.fceReserved
    rw [hl]
    split
    · rfl
    · rename_i c
      rw [(h9 c).1, (h9 c).2.1, (h9 c).2.2.1, (h9 c).2.2.2.1, (h9 c).2.2.2.2]
  unfold AcceptSMCDv2.reserved
  rw [h1, h2, h3, h4, h5, h6, h7, h8, r1, r2, r3, h10, f]

/-- the text of a message depends on what it has and on the texts of its names -/
theorem smcdv2_string_texts (a : AcceptSMCDv2) :
    (eidTexts eidStr (present (.acceptSMCDv2 a))).string = a.string := by
  simp only [present, noReserved, eidTexts, Message.string]
  exact smcdv2_string_congr (hdrFields_string a.hdr) (hdrFields_len a.hdr) rfl rfl rfl rfl rfl rfl (eidStr_idem _)
    (fun c => ⟨if_neg c, if_neg c, by dsimp only; rw [if_neg c, eidStr_idem]⟩) rfl

theorem smcdv2_reserved_texts (a : AcceptSMCDv2) :
    (eidTexts eidStr (every (.acceptSMCDv2 a))).reserved = a.reserved := by
  by_cases c : a.hdr.Length.toNat < 114
  · have e : everySMCDv2 a = _ := if_pos c
    simp only [every, eidTexts, Message.reserved, e]
    exact smcdv2_reserved_congr (hdrEvery_reserved a.hdr) (hdrEvery_len a.hdr) rfl rfl rfl rfl rfl rfl (eidStr_idem _)
      rfl rfl rfl (fun c' => absurd c c') rfl
  · have e : everySMCDv2 a = _ := if_neg c
    simp only [every, eidTexts, Message.reserved, e]
    exact smcdv2_reserved_congr (hdrEvery_reserved a.hdr) (hdrEvery_len a.hdr) rfl rfl rfl rfl rfl rfl (eidStr_idem _)
      rfl rfl rfl (fun _ => ⟨rfl, rfl, eidStr_idem _, rfl, rfl⟩) rfl

/-- C50 for SMC-Dv2 messages, without conditions on their names: two have the same text if and only if they agree on every
field that is there and not reserved; of the EID and the host name, on their texts. No EID can imitate the text behind
it, because it is too short. -/
theorem C50_smcdv2_exact (f : Bytes → Bytes) (hf : ∀ e, EIDText e (f e)) (m m' : Message)
    (hk : clcKind m = clcKind m') (hv : clcKind m = .acceptSMCDv2 ∨ clcKind m = .confirmSMCDv2) (hp : Plain m) (hp' : Plain m')
    (hs : Sized m) (hs' : Sized m') : m.string = m'.string ↔ eidTexts f (present m) = eidTexts f (present m') := by
  have : f = eidStr := funext fun e => C51_eid_text_unique e _ (hf e)
  subst this
  have both : ∀ a b : AcceptSMCDv2, Plain (.acceptSMCDv2 a) → Plain (.acceptSMCDv2 b) → SizedSMCDv2 a → SizedSMCDv2 b →
      (a.string = b.string ↔ eidTexts eidStr (present (.acceptSMCDv2 a)) = eidTexts eidStr (present (.acceptSMCDv2 b))) := by
    intro a b ha hb sa sb
    refine ⟨smcdv2_text_all a b ha hb (by unfold SizedSMCDv2 at sa; simp only [sa]) (by unfold SizedSMCDv2 at sb; simp only [sb]),
      fun h => ?_⟩
    rw [← smcdv2_string_texts a, ← smcdv2_string_texts b, h]
  obtain ⟨a, rfl | rfl⟩ := smcdv2_message hv <;> obtain ⟨b, rfl | rfl⟩ := smcdv2_message (hk ▸ hv) <;> try cases hk
  · exact both a b hp hp' hs hs'
  · refine (both a b hp hp' hs hs').trans ?_
    simp only [present, noReserved, eidTexts, Message.acceptSMCDv2.injEq, Message.confirmSMCDv2.injEq]

/-- C90 for SMC-Dv2 messages, in the same way. -/
theorem C90_smcdv2_exact (f : Bytes → Bytes) (hf : ∀ e, EIDText e (f e)) (m m' : Message)
    (hk : clcKind m = clcKind m') (hv : clcKind m = .acceptSMCDv2 ∨ clcKind m = .confirmSMCDv2) (hp : Plain m) (hp' : Plain m')
    (hs : Sized m) (hs' : Sized m') : m.reserved = m'.reserved ↔ eidTexts f (every m) = eidTexts f (every m') := by
  have : f = eidStr := funext fun e => C51_eid_text_unique e _ (hf e)
  subst this
  have both : ∀ a b : AcceptSMCDv2, Plain (.acceptSMCDv2 a) → Plain (.acceptSMCDv2 b) → SizedSMCDv2 a → SizedSMCDv2 b →
      (a.reserved = b.reserved ↔ eidTexts eidStr (every (.acceptSMCDv2 a)) = eidTexts eidStr (every (.acceptSMCDv2 b))) := by
    intro a b ha hb sa sb
    refine ⟨smcdv2_every_all a b ha hb sa sb, fun h => ?_⟩
    rw [← smcdv2_reserved_texts a, ← smcdv2_reserved_texts b, h]
  obtain ⟨a, rfl | rfl⟩ := smcdv2_message hv <;> obtain ⟨b, rfl | rfl⟩ := smcdv2_message (hk ▸ hv) <;> try cases hk
  · exact both a b hp hp' hs hs'
  · refine (both a b hp hp' hs hs').trans ?_
    simp only [every, eidTexts, Message.acceptSMCDv2.injEq, Message.confirmSMCDv2.injEq]

/-- C90 for the bytes of SMC-Dv2 messages: complete ones with equal texts are the same bytes, if their names contain no NUL
bytes; commas do no harm. -/
theorem C90_smcdv2_bytes (k : CLCKind) (hv : k = .acceptSMCDv2 ∨ k = .confirmSMCDv2) (s s' : Slice) (hs : Exact k s)
    (hs' : Exact k s') (l l' : List Bytes) (m m' : Message) (h : (freshCLC k).parse s = .ret l m)
    (h' : (freshCLC k).parse s' = .ret l' m') (he : FullEIDs m) (he' : FullEIDs m') (ht : m.reserved = m'.reserved) :
    s.vis = s'.vis := by
  obtain ⟨f1, k1⟩ := C81_fits k s hs.complete hs.snug l m h
  obtain ⟨f2, k2⟩ := C81_fits k s' hs'.complete hs'.snug l' m' h'
  have sized : ∀ {m : Message}, clcKind m = k → FitsCLC m → Sized m := by
    intro m hm hf
    obtain ⟨a, rfl | rfl⟩ := smcdv2_message (hm ▸ hv)
    · exact hf.2.1
    · exact hf.2.1
  have e := (C90_smcdv2_exact eidStr C51_eid_text m m' (k1.trans k2.symm) (k1 ▸ hv) (hs.plain h) (hs'.plain h')
    (sized k1 f1) (sized k2 f2)).1 ht
  rw [← (C81_lossless k s hs.complete hs.snug l m h).2, ← (C81_lossless k s' hs'.complete hs'.snug l' m' h').2,
    bits_every (k1.trans k2.symm) f1 f2 he he' e]

/-- an Accept whose EID and host name try to look like other fields -/
def sneaky : AcceptSMCDv2 :=
  { hdr := { Eyecatcher := hex! "e2d4c3c4", Typ := 2, Length := 114, Version := 2, Path := 1 }
    EID := go! "a, OS Type: 2 (Linux), Release: "
    Hostname := go! "b, Hostname: c, Trailer: SMC-R  "
    trailer := hex! "e2d4c3c4" }

example : Plain (.acceptSMCDv2 sneaky) ∧ Sized (.acceptSMCDv2 sneaky) ∧ (44 : UInt8) ∈ eidStr sneaky.EID ∧
    (sneaky.string = go! "Accept: Eyecatcher: SMC-D, Type: 2 (Accept), Length: 114, Version: 2, First Contact: 0, Path: SMC-D, SMC-D GID: 0, SMC-D Token: 0, DMBE Index: 0, DMBE Size: 0 (16384), Link ID: 0, ISMv2 VCHID: 0, EID: a, OS Type: 2 (Linux), Release:, OS Type: 0 (unknown), Release: 0, Hostname: b, Hostname: c, Trailer: SMC-R, Trailer: SMC-D") :=
  ⟨⟨⟨.inr rfl, by decide, by decide⟩, .inr rfl⟩, (by decide : SizedSMCDv2 _), by decide +kernel, by decide +kernel⟩

end SMC.Props
