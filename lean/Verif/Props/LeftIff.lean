import Verif.Props.LeftWhen
import Verif.Props.LeftValue
/-!
# C96: for which numbers of bytes it holds

The kinds of message with fields that may be neither old nor new after a crash, and buffers without spare capacity.
-/

namespace SMC.Props
open Left Item

/-- the field is not being read when there are `n` bytes -/
def tidy (n : Nat) : When → Bool
  | .at _ => true
  | .fresh start last => n < start || last ≤ n
  | .three start => n < start + 1 || start + 3 ≤ n
  | .entries last => last.all (·.all (n < ·)) || last.all (·.all (· ≤ n))

theorem pick_old {n : Nat} : ∀ {last old new : List Nat}, last.all (n < ·) = true → old.length = last.length →
    new.length = last.length → pick n last old new = old
  | [], [], [], _, _, _ => rfl
  | l :: last, o :: old, x :: new, h, ho, hx => by
    simp only [List.all_cons, Bool.and_eq_true, decide_eq_true_eq] at h
    simp only [List.length_cons, Nat.add_right_cancel_iff] at ho hx
    show (if n < l then o else x) :: pick n last old new = _
    rw [if_pos h.1, pick_old h.2 ho hx]

theorem pick_new {n : Nat} : ∀ {last old new : List Nat}, last.all (· ≤ n) = true → old.length = last.length →
    new.length = last.length → pick n last old new = new
  | [], [], [], _, _, _ => rfl
  | l :: last, o :: old, x :: new, h, ho, hx => by
    simp only [List.all_cons, Bool.and_eq_true, decide_eq_true_eq] at h
    simp only [List.length_cons, Nat.add_right_cancel_iff] at ho hx
    show (if n < l then o else x) :: pick n last old new = _
    rw [if_neg (by omega), pick_new h.2 ho hx]

theorem pickAll_old {n : Nat} : ∀ {last old new : List (List Nat)}, last.all (·.all (n < ·)) = true →
    old.map (·.length) = last.map (·.length) → new.map (·.length) = last.map (·.length) → pickAll n last old new = old
  | [], [], [], _, _, _ => rfl
  | l :: last, o :: old, x :: new, h, ho, hx => by
    simp only [List.all_cons, Bool.and_eq_true] at h
    simp only [List.map_cons, List.cons.injEq] at ho hx
    show pick n l o x :: pickAll n last old new = _
    rw [pick_old h.1 ho.1 hx.1, pickAll_old h.2 ho.2 hx.2]

theorem pickAll_new {n : Nat} : ∀ {last old new : List (List Nat)}, last.all (·.all (· ≤ n)) = true →
    old.map (·.length) = last.map (·.length) → new.map (·.length) = last.map (·.length) → pickAll n last old new = new
  | [], [], [], _, _, _ => rfl
  | l :: last, o :: old, x :: new, h, ho, hx => by
    simp only [List.all_cons, Bool.and_eq_true] at h
    simp only [List.map_cons, List.cons.injEq] at ho hx
    show pick n l o x :: pickAll n last old new = _
    rw [pick_new h.1 ho.1 hx.1, pickAll_new h.2 ho.2 hx.2]

/-- lists have the right lengths -/
def Shape : When → Item → Prop
  | .entries last, nums l => l.map (·.length) = last.map (·.length)
  | .entries _, _ => False
  | _, _ => True

theorem tidy_value {n : Nat} {w : When} (h : tidy n w = true) {o x : Item} (ho : Shape w o) (hx : Shape w x) :
    w.value n o x = o ∨ w.value n o x = x := by
  cases w with
  | «at» last =>
    show (if n < last then o else x) = o ∨ (if n < last then o else x) = x
    split
    · exact .inl rfl
    · exact .inr rfl
  | fresh start last =>
    simp only [tidy, Bool.or_eq_true, decide_eq_true_eq] at h
    have e : (When.fresh start last).value n o x =
      if n < start then o else if n < last then bytes (zeros (last - start)) else x := rfl
    rw [e]
    split
    · exact .inl rfl
    · rw [if_neg (by omega)]; exact .inr rfl
  | three start =>
    simp only [tidy, Bool.or_eq_true, decide_eq_true_eq] at h
    cases x with
    | num v =>
      have e : (When.three start).value n o (num v) = if n < start + 1 then o
          else if n < start + 2 then num (v / 0x10000 * 0x10000) else if n < start + 3 then num (v / 0x100 * 0x100)
          else num v := rfl
      rw [e]
      split
      · exact .inl rfl
      · rw [if_neg (by omega), if_neg (by omega)]; exact .inr rfl
    | _ => exact .inl rfl
  | entries last =>
    match o, x, ho, hx with
    | nums old, nums new, ho, hx =>
    simp only [tidy, Bool.or_eq_true] at h
    have e : (When.entries last).value n (nums old) (nums new) = nums (pickAll n last old new) := rfl
    rw [e]
    rcases h with h | h
    · exact .inl (by rw [pickAll_old h ho hx])
    · exact .inr (by rw [pickAll_new h ho hx])

/-- all fields -/
def Shapes : List When → List Item → Prop
  | w :: ws, x :: l => Shape w x ∧ Shapes ws l
  | [], [] => True
  | _, _ => False

theorem tidy_values {n : Nat} : ∀ {ws : List When} {old new : List Item}, ws.all (tidy n) = true → Shapes ws old →
    Shapes ws new → ∀ i : Nat, (values ws n old new)[i]? = old[i]? ∨ (values ws n old new)[i]? = new[i]?
  | [], [], [], _, _, _, i => .inl rfl
  | w :: ws, o :: old, x :: new, h, ho, hx, i => by
    simp only [List.all_cons, Bool.and_eq_true] at h
    cases i with
    | zero => rcases tidy_value h.1 ho.1 hx.1 with e | e <;> simp [values, e]
    | succ i => simpa [values] using tidy_values h.2 ho.2 hx.2 i

/-- `Parse` of the first `n` bytes of any message that `fits` and is parsed without a panic leaves old and new values only,
if it panics; `ok` says what is known about the receiver -/
def Clean {σ : Type} (fields : σ → List Item) (parseS : Slice → SGo σ Unit) (parse : σ → Slice → Go σ)
    (ok : σ → Prop) (fits : Bytes → Prop) (n : Nat) : Prop :=
  ∀ (m m' s' : σ) (v e : Bytes) (l l' : List Bytes), ok m → fits v → parse m ⟨v, e⟩ = .ret l' m' →
    parseS ⟨v.take n, []⟩ m = (.panic l, s') →
    ∀ i : Nat, (fields s')[i]? = (fields m)[i]? ∨ (fields s')[i]? = (fields m')[i]?

theorem not_clean {σ : Type} {fields : σ → List Item} {parseS : Slice → SGo σ Unit} {parse : σ → Slice → Go σ}
    {ok : σ → Prop} {fits : Bytes → Prop} {n i : Nat} {m : σ} {v : Bytes} (hm : ok m) (hf : fits v)
    (h : odd fields parseS parse m (cut v n) ⟨v, []⟩ i = true) : ¬ Clean fields parseS parse ok fits n := by
  intro hc
  unfold odd at h
  split at h
  · next l s' l' m' h1 h2 =>
    simp only [Bool.and_eq_true, bne_iff_ne, ne_eq] at h
    rcases hc m m' s' v [] l l' hm hf h2 h1 i with e | e
    · exact h.1 e
    · exact h.2 e
  · cases h

/-- a ConfirmLink that differs from `wholeConfirmLink` in every field that may be neither old nor new -/
def oldConfirmLink : LLC.ConfirmLink :=
  { SenderMAC := List.replicate 6 1, SenderGID := List.replicate 16 1, SenderQP := 0xabcdef }

/-- C96 for the first `n` bytes of a ConfirmLink -/
theorem C96_confirmLink_iff {n : Nat} (hn : n < 35) :
    Clean confirmLink LLC.ConfirmLink.parseS LLC.ConfirmLink.parse (fun _ => True)
      (fun v => 35 ≤ v.length) n ↔ n < 4 ∨ n = 26 ∨ 29 ≤ n := by
  constructor
  · intro h
    have key : ∀ n < 35, (n < 4 ∨ n = 26 ∨ 29 ≤ n) ∨
        ∃ i < 12, odd confirmLink LLC.ConfirmLink.parseS LLC.ConfirmLink.parse oldConfirmLink (cut wholeConfirmLink n)
          ⟨wholeConfirmLink, []⟩ i = true := by decide +kernel
    rcases key n hn with g | ⟨i, _, hi⟩
    · exact g
    · exact absurd h (not_clean trivial (by decide +kernel) hi)
  · intro g m m' s' v e l l' hm hv hl hs
    have key : ∀ n < 35, (n < 4 ∨ n = 26 ∨ 29 ≤ n) → confirmLinkWhen.all (tidy n) = true := by decide +kernel
    obtain ⟨l1, s1, e1, e2⟩ := C96_confirmLink_exact hv hn hl
    rw [hs] at e1
    cases e1
    rw [e2]
    exact tidy_values (key n hn g) (by simp [confirmLinkWhen, confirmLink, Shapes, Shape])
      (by simp [confirmLinkWhen, confirmLink, Shapes, Shape])

/-- a AddLink that differs from `wholeAddLink` in every field that may be neither old nor new -/
def oldAddLink : LLC.AddLink :=
  { SenderMAC := List.replicate 6 1, SenderGID := List.replicate 16 1, SenderQP := 0xabcdef, PSN := 0xabcdef }

/-- C96 for the first `n` bytes of a AddLink -/
theorem C96_addLink_iff {n : Nat} (hn : n < 36) :
    Clean addLink LLC.AddLink.parseS LLC.AddLink.parse (fun _ => True)
      (fun v => 36 ≤ v.length) n ↔ n < 4 ∨ 10 ≤ n ∧ n < 12 ∨ n = 28 ∨ 31 ≤ n ∧ n ≤ 33 := by
  constructor
  · intro h
    have key : ∀ n < 36, (n < 4 ∨ 10 ≤ n ∧ n < 12 ∨ n = 28 ∨ 31 ≤ n ∧ n ≤ 33) ∨
        ∃ i < 16, odd addLink LLC.AddLink.parseS LLC.AddLink.parse oldAddLink (cut wholeAddLink n)
          ⟨wholeAddLink, []⟩ i = true := by decide +kernel
    rcases key n hn with g | ⟨i, _, hi⟩
    · exact g
    · exact absurd h (not_clean trivial (by decide +kernel) hi)
  · intro g m m' s' v e l l' hm hv hl hs
    have key : ∀ n < 36, (n < 4 ∨ 10 ≤ n ∧ n < 12 ∨ n = 28 ∨ 31 ≤ n ∧ n ≤ 33) → addLinkWhen.all (tidy n) = true := by decide +kernel
    obtain ⟨l1, s1, e1, e2⟩ := C96_addLink_exact hv hn hl
    rw [hs] at e1
    cases e1
    rw [e2]
    exact tidy_values (key n hn g) (by simp [addLinkWhen, addLink, Shapes, Shape])
      (by simp [addLinkWhen, addLink, Shapes, Shape])

/-- a BTH that differs from `wholeBTH` in every field that may be neither old nor new -/
def oldBTH : RoCE.BTH :=
  { DestQP := 0xabcdef, PSN := 0xabcdef }

/-- C96 for the first `n` bytes of a BTH -/
theorem C96_bth_iff {n : Nat} (hn : n < 12) :
    Clean bth RoCE.BTH.parseS RoCE.BTH.parse (fun _ => True)
      (fun v => 12 ≤ v.length) n ↔ n < 6 ∨ n = 8 ∨ n = 9 := by
  constructor
  · intro h
    have key : ∀ n < 12, (n < 6 ∨ n = 8 ∨ n = 9) ∨
        ∃ i < 13, odd bth RoCE.BTH.parseS RoCE.BTH.parse oldBTH (cut wholeBTH n)
          ⟨wholeBTH, []⟩ i = true := by decide +kernel
    rcases key n hn with g | ⟨i, _, hi⟩
    · exact g
    · exact absurd h (not_clean trivial (by decide +kernel) hi)
  · intro g m m' s' v e l l' hm hv hl hs
    have key : ∀ n < 12, (n < 6 ∨ n = 8 ∨ n = 9) → bthWhen.all (tidy n) = true := by decide +kernel
    obtain ⟨l1, s1, e1, e2⟩ := C96_bth_exact hv hn hl
    rw [hs] at e1
    cases e1
    rw [e2]
    exact tidy_values (key n hn g) (by simp [bthWhen, bth, Shapes, Shape])
      (by simp [bthWhen, bth, Shapes, Shape])

/-- a AcceptSMCR that differs from `wholeAcceptSMCR` in every field that may be neither old nor new -/
def oldAcceptSMCR : CLC.AcceptSMCR :=
  { IBGID := List.replicate 16 1, IBMAC := List.replicate 6 1, QPN := 0xabcdef, PSN := 0xabcdef }

/-- C96 for the first `n` bytes of a AcceptSMCR -/
theorem C96_acceptSMCR_iff {n : Nat} (hn : n < 68) :
    Clean acceptSMCR CLC.AcceptSMCR.parseS CLC.AcceptSMCR.parse (fun _ => True)
      (fun v => 68 ≤ v.length ∧ 68 ≤ (v.getD 5 0).toNat * 256 + (v.getD 6 0).toNat) n ↔ n < 16 ∨ n = 38 ∨ 41 ≤ n ∧ n ≤ 61 ∨ 64 ≤ n := by
  constructor
  · intro h
    have key : ∀ n < 68, (n < 16 ∨ n = 38 ∨ 41 ≤ n ∧ n ≤ 61 ∨ 64 ≤ n) ∨
        ∃ i < 22, odd acceptSMCR CLC.AcceptSMCR.parseS CLC.AcceptSMCR.parse oldAcceptSMCR (cut wholeAcceptSMCR n)
          ⟨wholeAcceptSMCR, []⟩ i = true := by decide +kernel
    rcases key n hn with g | ⟨i, _, hi⟩
    · exact g
    · exact absurd h (not_clean trivial (⟨by decide +kernel, by decide +kernel⟩) hi)
  · intro g m m' s' v e l l' hm hv hl hs
    have key : ∀ n < 68, (n < 16 ∨ n = 38 ∨ 41 ≤ n ∧ n ≤ 61 ∨ 64 ≤ n) → acceptSMCRWhen.all (tidy n) = true := by decide +kernel
    obtain ⟨l1, s1, e1, e2⟩ := C96_acceptSMCR_exact hv.1 hv.2 hn hl
    rw [hs] at e1
    cases e1
    rw [e2]
    exact tidy_values (key n hn g) (by simp [acceptSMCRWhen, acceptSMCR, Shapes, Shape, headerWhen, header])
      (by simp [acceptSMCRWhen, acceptSMCR, Shapes, Shape, headerWhen, header])

/-- a AddLinkCont that differs from `wholeAddLinkCont` in every field that may be neither old nor new -/
def oldAddLinkCont : LLC.AddLinkCont :=
  { RKeyPairs := [⟨7, 7, 7⟩, ⟨7, 7, 7⟩] }

/-- C96 for the first `n` bytes of a AddLinkCont -/
theorem C96_addLinkCont_iff {n : Nat} (hn : n < 40) :
    Clean addLinkCont LLC.AddLinkCont.parseS LLC.AddLinkCont.parse (fun m => m.RKeyPairs.length = 2)
      (fun v => 40 ≤ v.length) n ↔ n < 12 := by
  constructor
  · intro h
    have key : ∀ n < 40, (n < 12) ∨
        ∃ i < 10, odd addLinkCont LLC.AddLinkCont.parseS LLC.AddLinkCont.parse oldAddLinkCont (cut wholeAddLinkCont n)
          ⟨wholeAddLinkCont, []⟩ i = true := by decide +kernel
    rcases key n hn with g | ⟨i, _, hi⟩
    · exact g
    · exact absurd h (not_clean rfl (by decide +kernel) hi)
  · intro g m m' s' v e l l' hm hv hl hs
    have key : ∀ n < 40, (n < 12) → addLinkContWhen.all (tidy n) = true := by decide +kernel
    obtain ⟨l1, s1, e1, e2⟩ := C96_addLinkCont_exact hm hv hn hl
    rw [hs] at e1
    cases e1
    rw [e2]
    have hS : ∀ m : LLC.AddLinkCont, m.RKeyPairs.length = 2 → Shapes addLinkContWhen (addLinkCont m) := by
      intro m hm
      match h : m.RKeyPairs, hm with
      | [p0, p1], _ => simp [addLinkContWhen, addLinkCont, Shapes, Shape, h, rkeyPair]
    have hm' : m'.RKeyPairs.length = 2 := by
      rw [← LLC.AddLinkCont.final_parseS] at hl
      rw [← new_of hl]
      exact (addLinkCont_left hm hv hn).1
    exact tidy_values (key n hn g) (hS m hm) (hS m' hm')

/-- a ConfirmRKey that differs from `wholeConfirmRKey` in every field that may be neither old nor new -/
def oldConfirmRKey : LLC.ConfirmRKey :=
  { OtherRMBs := [⟨7, 7, 7⟩, ⟨7, 7, 7⟩] }

/-- C96 for the first `n` bytes of a ConfirmRKey -/
theorem C96_confirmRKey_iff {n : Nat} (hn : n < 44) :
    Clean confirmRKey LLC.ConfirmRKey.parseS LLC.ConfirmRKey.parse (fun m => m.OtherRMBs.length = 2)
      (fun v => 44 ≤ v.length) n ↔ n < 18 ∨ n = 43 := by
  constructor
  · intro h
    have key : ∀ n < 44, (n < 18 ∨ n = 43) ∨
        ∃ i < 13, odd confirmRKey LLC.ConfirmRKey.parseS LLC.ConfirmRKey.parse oldConfirmRKey (cut wholeConfirmRKey n)
          ⟨wholeConfirmRKey, []⟩ i = true := by decide +kernel
    rcases key n hn with g | ⟨i, _, hi⟩
    · exact g
    · exact absurd h (not_clean rfl (by decide +kernel) hi)
  · intro g m m' s' v e l l' hm hv hl hs
    have key : ∀ n < 44, (n < 18 ∨ n = 43) → confirmRKeyWhen.all (tidy n) = true := by decide +kernel
    obtain ⟨l1, s1, e1, e2⟩ := C96_confirmRKey_exact hm hv hn hl
    rw [hs] at e1
    cases e1
    rw [e2]
    have hS : ∀ m : LLC.ConfirmRKey, m.OtherRMBs.length = 2 → Shapes confirmRKeyWhen (confirmRKey m) := by
      intro m hm
      match h : m.OtherRMBs, hm with
      | [p0, p1], _ => simp [confirmRKeyWhen, confirmRKey, Shapes, Shape, h, rmbSpec]
    have hm' : m'.OtherRMBs.length = 2 := by
      rw [← LLC.ConfirmRKey.final_parseS] at hl
      rw [← new_of hl]
      exact (confirmRKey_left hm hv hn).1
    exact tidy_values (key n hn g) (hS m hm) (hS m' hm')

/-- a ConfirmRKeyCont that differs from `wholeConfirmRKeyCont` in every field that may be neither old nor new -/
def oldConfirmRKeyCont : LLC.ConfirmRKeyCont :=
  { OtherRMBs := [⟨7, 7, 7⟩, ⟨7, 7, 7⟩, ⟨7, 7, 7⟩] }

/-- C96 for the first `n` bytes of a ConfirmRKeyCont -/
theorem C96_confirmRKeyCont_iff {n : Nat} (hn : n < 45) :
    Clean confirmRKeyCont LLC.ConfirmRKeyCont.parseS LLC.ConfirmRKeyCont.parse (fun m => m.OtherRMBs.length = 3)
      (fun v => 45 ≤ v.length) n ↔ n < 6 ∨ n = 44 := by
  constructor
  · intro h
    have key : ∀ n < 45, (n < 6 ∨ n = 44) ∨
        ∃ i < 10, odd confirmRKeyCont LLC.ConfirmRKeyCont.parseS LLC.ConfirmRKeyCont.parse oldConfirmRKeyCont (cut (wholeConfirmRKeyCont ++ [0]) n)
          ⟨(wholeConfirmRKeyCont ++ [0]), []⟩ i = true := by decide +kernel
    rcases key n hn with g | ⟨i, _, hi⟩
    · exact g
    · exact absurd h (not_clean rfl (by decide +kernel) hi)
  · intro g m m' s' v e l l' hm hv hl hs
    have key : ∀ n < 45, (n < 6 ∨ n = 44) → confirmRKeyContWhen.all (tidy n) = true := by decide +kernel
    obtain ⟨l1, s1, e1, e2⟩ := C96_confirmRKeyCont_exact hm hv hn hl
    rw [hs] at e1
    cases e1
    rw [e2]
    have hS : ∀ m : LLC.ConfirmRKeyCont, m.OtherRMBs.length = 3 → Shapes confirmRKeyContWhen (confirmRKeyCont m) := by
      intro m hm
      match h : m.OtherRMBs, hm with
      | [p0, p1, p2], _ => simp [confirmRKeyContWhen, confirmRKeyCont, Shapes, Shape, h, rmbSpec]
    have hm' : m'.OtherRMBs.length = 3 := by
      rw [← LLC.ConfirmRKeyCont.final_parseS] at hl
      rw [← new_of hl]
      exact (confirmRKeyCont_left hm hv hn).1
    exact tidy_values (key n hn g) (hS m hm) (hS m' hm')

/-- a DeleteRKey that differs from `wholeDeleteRKey` in every field that may be neither old nor new -/
def oldDeleteRKey : LLC.DeleteRKey :=
  { rkeys := List.replicate 8 7 }

/-- C96 for the first `n` bytes of a DeleteRKey -/
theorem C96_deleteRKey_iff {n : Nat} (hn : n < 40) :
    Clean deleteRKey LLC.DeleteRKey.parseS LLC.DeleteRKey.parse (fun m => m.rkeys.length = 8)
      (fun v => 40 ≤ v.length) n ↔ n < 12 := by
  constructor
  · intro h
    have key : ∀ n < 40, (n < 12) ∨
        ∃ i < 12, odd deleteRKey LLC.DeleteRKey.parseS LLC.DeleteRKey.parse oldDeleteRKey (cut wholeDeleteRKey n)
          ⟨wholeDeleteRKey, []⟩ i = true := by decide +kernel
    rcases key n hn with g | ⟨i, _, hi⟩
    · exact g
    · exact absurd h (not_clean rfl (by decide +kernel) hi)
  · intro g m m' s' v e l l' hm hv hl hs
    have key : ∀ n < 40, (n < 12) → deleteRKeyWhen.all (tidy n) = true := by decide +kernel
    obtain ⟨l1, s1, e1, e2⟩ := C96_deleteRKey_exact hm hv hn hl
    rw [hs] at e1
    cases e1
    rw [e2]
    have hS : ∀ m : LLC.DeleteRKey, m.rkeys.length = 8 → Shapes deleteRKeyWhen (deleteRKey m) := by
      intro m hm
      match h : m.rkeys, hm with
      | [p0, p1, p2, p3, p4, p5, p6, p7], _ => simp [deleteRKeyWhen, deleteRKey, Shapes, Shape, h]
    have hm' : m'.rkeys.length = 8 := by
      rw [← LLC.DeleteRKey.final_parseS] at hl
      rw [← new_of hl]
      exact (deleteRKey_left hm hv hn).1
    exact tidy_values (key n hn g) (hS m hm) (hS m' hm')

/-! One number of bytes for which it holds and one for which it does not, for every kind -/

example : Clean confirmLink LLC.ConfirmLink.parseS LLC.ConfirmLink.parse (fun _ => True)
      (fun v => 35 ≤ v.length) 26 ∧
    ¬ Clean confirmLink LLC.ConfirmLink.parseS LLC.ConfirmLink.parse (fun _ => True)
      (fun v => 35 ≤ v.length) 27 :=
  ⟨(C96_confirmLink_iff (by decide)).2 (by decide), fun h => absurd ((C96_confirmLink_iff (by decide)).1 h) (by decide)⟩

example : Clean addLink LLC.AddLink.parseS LLC.AddLink.parse (fun _ => True)
      (fun v => 36 ≤ v.length) 11 ∧
    ¬ Clean addLink LLC.AddLink.parseS LLC.AddLink.parse (fun _ => True)
      (fun v => 36 ≤ v.length) 12 :=
  ⟨(C96_addLink_iff (by decide)).2 (by decide), fun h => absurd ((C96_addLink_iff (by decide)).1 h) (by decide)⟩

example : Clean bth RoCE.BTH.parseS RoCE.BTH.parse (fun _ => True)
      (fun v => 12 ≤ v.length) 8 ∧
    ¬ Clean bth RoCE.BTH.parseS RoCE.BTH.parse (fun _ => True)
      (fun v => 12 ≤ v.length) 11 :=
  ⟨(C96_bth_iff (by decide)).2 (by decide), fun h => absurd ((C96_bth_iff (by decide)).1 h) (by decide)⟩

example : Clean acceptSMCR CLC.AcceptSMCR.parseS CLC.AcceptSMCR.parse (fun _ => True)
      (fun v => 68 ≤ v.length ∧ 68 ≤ (v.getD 5 0).toNat * 256 + (v.getD 6 0).toNat) 38 ∧
    ¬ Clean acceptSMCR CLC.AcceptSMCR.parseS CLC.AcceptSMCR.parse (fun _ => True)
      (fun v => 68 ≤ v.length ∧ 68 ≤ (v.getD 5 0).toNat * 256 + (v.getD 6 0).toNat) 39 :=
  ⟨(C96_acceptSMCR_iff (by decide)).2 (by decide), fun h => absurd ((C96_acceptSMCR_iff (by decide)).1 h) (by decide)⟩

example : Clean addLinkCont LLC.AddLinkCont.parseS LLC.AddLinkCont.parse (fun m => m.RKeyPairs.length = 2)
      (fun v => 40 ≤ v.length) 11 ∧
    ¬ Clean addLinkCont LLC.AddLinkCont.parseS LLC.AddLinkCont.parse (fun m => m.RKeyPairs.length = 2)
      (fun v => 40 ≤ v.length) 12 :=
  ⟨(C96_addLinkCont_iff (by decide)).2 (by decide), fun h => absurd ((C96_addLinkCont_iff (by decide)).1 h) (by decide)⟩

example : Clean confirmRKey LLC.ConfirmRKey.parseS LLC.ConfirmRKey.parse (fun m => m.OtherRMBs.length = 2)
      (fun v => 44 ≤ v.length) 43 ∧
    ¬ Clean confirmRKey LLC.ConfirmRKey.parseS LLC.ConfirmRKey.parse (fun m => m.OtherRMBs.length = 2)
      (fun v => 44 ≤ v.length) 42 :=
  ⟨(C96_confirmRKey_iff (by decide)).2 (by decide), fun h => absurd ((C96_confirmRKey_iff (by decide)).1 h) (by decide)⟩

example : Clean confirmRKeyCont LLC.ConfirmRKeyCont.parseS LLC.ConfirmRKeyCont.parse (fun m => m.OtherRMBs.length = 3)
      (fun v => 45 ≤ v.length) 5 ∧
    ¬ Clean confirmRKeyCont LLC.ConfirmRKeyCont.parseS LLC.ConfirmRKeyCont.parse (fun m => m.OtherRMBs.length = 3)
      (fun v => 45 ≤ v.length) 6 :=
  ⟨(C96_confirmRKeyCont_iff (by decide)).2 (by decide), fun h => absurd ((C96_confirmRKeyCont_iff (by decide)).1 h) (by decide)⟩

example : Clean deleteRKey LLC.DeleteRKey.parseS LLC.DeleteRKey.parse (fun m => m.rkeys.length = 8)
      (fun v => 40 ≤ v.length) 11 ∧
    ¬ Clean deleteRKey LLC.DeleteRKey.parseS LLC.DeleteRKey.parse (fun m => m.rkeys.length = 8)
      (fun v => 40 ≤ v.length) 12 :=
  ⟨(C96_deleteRKey_iff (by decide)).2 (by decide), fun h => absurd ((C96_deleteRKey_iff (by decide)).1 h) (by decide)⟩

end SMC.Props
