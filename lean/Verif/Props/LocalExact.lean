import Verif.Props.CLCLocal
/-!
# C43: which messages are decoded without the bytes behind them
-/

namespace SMC.Props

open SMC Spec CLC

/-- a Proposal of version 1 that announces SMC-D info, all of which does not fit into it -/
def ShortSMCD (v : Bytes) (k : CLCKind) : Prop :=
  k = .proposal ∧ num v 38 0 16 = 40 ∧ 52 ≤ declared v ∧ declared v < 80

/-- the fields decoded from a message are the same for all bytes `a` behind it in the buffer and `e` behind the buffer -/
def FieldsLocal (m : Message) (v : Bytes) : Prop :=
  ∀ a b e f l x l' x', m.parse ⟨v ++ a, e⟩ = .ret l x → m.parse ⟨v ++ b, f⟩ = .ret l' x' → core x = core x'

/-- whether `Parse` panics is the same as well -/
def PanicLocal (m : Message) (v : Bytes) : Prop :=
  ∀ a b e f, (m.parse ⟨v ++ a, e⟩).Panics ↔ (m.parse ⟨v ++ b, f⟩).Panics

theorem behind_agree (v a : Bytes) : Agree v.length v (v ++ a) := ⟨Nat.le_refl _, by simp, by simp⟩

theorem behind_declared {v : Bytes} (a : Bytes) (hv : 8 ≤ v.length) : declared (v ++ a) = declared v :=
  ((behind_agree v a).declared hv).symm

theorem short_parse {v : Bytes} (hL : declared v = v.length) (p : Proposal) (hp : SizedProposal p)
    (hx : ShortSMCD v .proposal) (a e : Bytes) (h80 : 80 ≤ v.length + a.length) :
    ∃ l x, p.parse ⟨v ++ a, e⟩ = .ret l x ∧ x.rsv = ((v ++ a).drop 48).take 32 := by
  obtain ⟨-, h40, h52, hlt⟩ := hx
  have hd := behind_declared a (v := v) (by omega)
  have hn : num (v ++ a) 38 0 16 = 40 := by rw [← (behind_agree v a).num 38 0 16 (by omega), h40]
  have hl : (v ++ a).length = v.length + a.length := List.length_append
  have ho : (u16 ((v ++ a)[38]'(by omega)) ((v ++ a)[39]'(by omega))).toNat = 40 := by
    rw [← hn, num_16 (v ++ a) 38 (by omega), u16_toNat]
  rw [proposal_result (v ++ a) e (by omega) p hp (by omega) (by omega) (by omega)]
  unfold propResult
  rw [if_neg (by omega), if_pos (by unfold ipAreaAt; omega)]
  refine ⟨_, _, rfl, ?_⟩
  unfold propFixed
  rw [if_pos ho]
  show ((v ++ a ++ e).drop 48).take 32 = _
  rw [List.append_assoc v a e, ← List.append_assoc, List.drop_append_of_le_length (by omega),
    List.take_append_of_le_length (by rw [List.length_drop]; omega)]

/-- C43, the exact condition: the fields decoded from a message do not depend on what is behind it if and only if it is
no Proposal of version 1 with SMC-D info that does not fit into it. The same condition decides whether it depends on what
is behind the message that `Parse` panics. -/
theorem C43_exact (m : Message) (hm : Sized m) (v : Bytes) (hv : 8 ≤ v.length) (hL : declared v = v.length) :
    (FieldsLocal m v ↔ ¬ ShortSMCD v (clcKind m)) ∧ (PanicLocal m v ↔ ¬ ShortSMCD v (clcKind m)) := by
  have good : ¬ ShortSMCD v (clcKind m) → ∀ a b e f, ((m.parse ⟨v ++ a, e⟩).Panics ↔ (m.parse ⟨v ++ b, f⟩).Panics) ∧
      ∀ l x l' x', m.parse ⟨v ++ a, e⟩ = .ret l x → m.parse ⟨v ++ b, f⟩ = .ret l' x' → core x = core x' := by
    intro hx a b e f
    have hd := behind_declared a hv
    refine C43_fields_partial m hm ⟨v ++ a, e⟩ ⟨v ++ b, f⟩ (by simp; omega) (by simp; omega) (by simp; omega)
      (by simp; omega) ?_ ?_
    · simp only [hd, hL, Nat.max_eq_right hv, List.take_left]
    · simp only [hd]
      rintro ⟨c1, c2, c3, c4⟩
      exact hx ⟨c1, by rw [(behind_agree v a).num 38 0 16 (by omega), c2], c3, c4⟩
  refine ⟨⟨fun h hx => ?_, fun hx a b e f => (good hx a b e f).2⟩, ⟨fun h hx => ?_, fun hx a b e f => (good hx a b e f).1⟩⟩
  · match m, hm, hx with
    | .proposal p, hp, hx =>
      obtain ⟨l, x, h1, e1⟩ := short_parse hL p hp hx (zeros 80) [] (by simp)
      obtain ⟨l', x', h2, e2⟩ := short_parse hL p hp hx (List.replicate 80 1) [] (by simp)
      have := h (zeros 80) (List.replicate 80 1) [] [] l (.proposal x) l' (.proposal x')
        (by simp only [Message.parse, h1, map_ret]) (by simp only [Message.parse, h2, map_ret])
      have : x.rsv = x'.rsv := by
        simp only [core, Message.proposal.injEq, Proposal.mk.injEq] at this
        exact this.2.2.2.2.2.2.2.1
      rw [e1, e2] at this
      have := congrArg (·[v.length - 48]?) this
      obtain ⟨-, -, h52, hlt⟩ := hx
      simp only [List.getElem?_take, List.getElem?_drop, show v.length - 48 < 32 from by omega, if_true,
        show 48 + (v.length - 48) = v.length from by omega, List.getElem?_append_right (Nat.le_refl _), Nat.sub_self] at this
      simp [zeros] at this
  · match m, hm, hx with
    | .proposal p, hp, hx =>
      obtain ⟨l, x, h1, -⟩ := short_parse hL p hp hx (zeros 80) [] (by simp)
      obtain ⟨-, h40, h52, hlt⟩ := hx
      have hpn : ((Message.proposal p).parse ⟨v ++ [], []⟩).Panics := by
        refine (C33_panics_iff _ hp _ ?_ ?_).2 ?_
        · simpa using hv
        · simp only [List.append_nil, Slice.len_mk]; omega
        · simp only [clcKind, Crashes, List.append_nil, Slice.cap_mk]
          exact ⟨h52, h40, by simp only [List.length_nil]; omega⟩
      obtain ⟨l', h2⟩ := (h [] (zeros 80) [] []).1 hpn
      simp only [Message.parse, h1, map_ret] at h2
      cases h2

/-- both cases occur -/
example : ShortSMCD shortSMCD (clcKind (.proposal {})) ∧ declared shortSMCD = shortSMCD.length ∧ Sized (.proposal {}) ∧
    ¬ ShortSMCD shortSMCD (clcKind (.decline {})) :=
  ⟨⟨rfl, by decide +kernel⟩, by decide +kernel, (by decide : SizedProposal _), fun h => by cases h.1⟩

/-- C44, the exact condition: the trailer is the last four bytes of the message if and only if these are the last four of
the buffer; the check tells whether they are an eyecatcher if and only if both are or neither is. -/
theorem C44_exact (m : Message) (hm : Sized m) (s : Slice) (hs : 8 ≤ s.len) (hL : declared s.vis ≤ s.len)
    (ha : Accepted (clcKind m) s.vis) (l : List Bytes) (m' : Message) (h : m.parse s = .ret l m') :
    (m'.trailer = raw s.vis (declared s.vis - 4) 4 ↔ raw s.vis (s.len - 4) 4 = raw s.vis (declared s.vis - 4) 4) ∧
    (((go! "Error parsing CLC message: invalid trailer") ∈ l ↔ ¬ IsEye (raw s.vis (declared s.vis - 4) 4)) ↔
      (IsEye (raw s.vis (s.len - 4) 4) ↔ IsEye (raw s.vis (declared s.vis - 4) 4))) := by
  obtain ⟨h1, h2⟩ := C44_trailer m hm s hs hL ha l m' h
  have e : lastFour s.vis = raw s.vis (s.len - 4) 4 := by
    unfold lastFour raw
    rw [List.take_of_length_le]
    · rfl
    · simp only [List.length_drop, Slice.len]; omega
  rw [h1, h2, e]
  refine ⟨Iff.rfl, ?_⟩
  by_cases c1 : IsEye (raw s.vis (s.len - 4) 4) <;> by_cases c2 : IsEye (raw s.vis (declared s.vis - 4) 4) <;> simp [c1, c2]

/-- a Decline behind which the same trailer follows once more -/
example : let v := hex! "e2d4c3d9 04 001c 10 0001020304050607 03030000 00000000 e2d4c3d9 e2d4c3d9"
    8 ≤ v.length ∧ declared v ≤ v.length ∧ Accepted (clcKind (.decline {})) v ∧ declared v ≠ v.length ∧
    raw v (v.length - 4) 4 = raw v (declared v - 4) 4 :=
  ⟨by decide, by decide +kernel, ⟨by decide +kernel, trivial⟩, by decide +kernel, by decide +kernel⟩

end SMC.Props
