import Verif.Http.Sniff
import Verif.Lemmas.Logs
/-!
# Which signatures the beginning of a page can match
-/

namespace SMC.Http

/-! ## The letters of the font signature -/

/-- "LP" does not occur before position `n` -/
def LPAfter : Nat → Bytes → Prop
  | 0, _ => True
  | _, [] => True
  | n + 1, c :: s => ¬ (c = 76 ∧ s.head? = some 80) ∧ LPAfter n s

/-- "LP" does not occur, and "L" is not the last character -/
def lpOK : Bytes → Bool
  | [] => true
  | [c] => c ≠ 76
  | c :: d :: s => !(c = 76 && d = 80) && lpOK (d :: s)

theorem lpAfter_zero (s : Bytes) : LPAfter 0 s := by cases s <;> trivial

theorem lpAfter_nil (n : Nat) : LPAfter n [] := by cases n <;> trivial

theorem lpAfter_pred {n : Nat} {s : Bytes} (h : LPAfter (n + 1) s) : LPAfter n s := by
  induction n generalizing s with
  | zero => exact lpAfter_zero s
  | succ n ih =>
    cases s with
    | nil => trivial
    | cons c s => exact ⟨h.1, ih h.2⟩

theorem lpAfter_mono {n m : Nat} {s : Bytes} (hn : m ≤ n) (h : LPAfter n s) : LPAfter m s := by
  induction n with
  | zero => rw [Nat.le_zero.1 hn]; exact lpAfter_zero s
  | succ n ih =>
    rcases Nat.lt_or_ge m (n + 1) with c | c
    · exact ih (by omega) (lpAfter_pred h)
    · rw [Nat.le_antisymm hn c]; exact h

theorem lpAfter_take {n : Nat} {s : Bytes} (h : LPAfter n s) (k : Nat) : LPAfter n (s.take k) := by
  induction n generalizing s k with
  | zero => exact lpAfter_zero _
  | succ n ih =>
    cases s with
    | nil => rw [List.take_nil]; trivial
    | cons c s =>
      cases k with
      | zero => trivial
      | succ k =>
        refine ⟨fun e => h.1 ⟨e.1, ?_⟩, ih h.2 k⟩
        have e := e.2
        cases s with
        | nil => simp at e
        | cons d s =>
          cases k with
          | zero => simp at e
          | succ k => exact e

theorem lp_app {x : Bytes} (hx : lpOK x = true) {n : Nat} {s : Bytes} (h : LPAfter (n - x.length) s) : LPAfter n (x ++ s) := by
  induction x generalizing n with
  | nil => exact h
  | cons c x ih =>
    cases n with
    | zero => exact lpAfter_zero _
    | succ n =>
      have h : LPAfter (n - x.length) s := by rw [List.length_cons, Nat.add_sub_add_right] at h; exact h
      cases x with
      | nil =>
        simp only [lpOK, decide_eq_true_eq] at hx
        exact ⟨fun e => hx e.1, ih rfl h⟩
      | cons d x =>
        simp only [lpOK, Bool.and_eq_true, Bool.not_eq_true', Bool.and_eq_false_iff, decide_eq_false_iff_not] at hx
        refine ⟨fun e => ?_, ih hx.2 h⟩
        rcases hx.1 with k | k
        · exact k e.1
        · exact k (Option.some.inj e.2)

theorem lpOK_of {x : Bytes} (h : ∀ c ∈ x, c ≠ 76) : lpOK x = true := by
  induction x with
  | nil => rfl
  | cons c x ih =>
    have hc := h c List.mem_cons_self
    have hx := ih fun c m => h c (List.mem_cons_of_mem _ m)
    cases x with
    | nil => simpa [lpOK] using hc
    | cons d x => simp [lpOK, hc, hx]

/-- two pages one after the other -/
theorem lp_pages {x s : Bytes} {n : Nat} (hx : LPAfter n x) (hl : x.getLast? ≠ some 76) (h : LPAfter n s) : LPAfter n (x ++ s) := by
  induction x generalizing n with
  | nil => exact h
  | cons c x ih =>
    cases n with
    | zero => exact lpAfter_zero _
    | succ n =>
      cases x with
      | nil => exact ⟨fun e => hl (by rw [e.1]; rfl), lpAfter_pred h⟩
      | cons d x => exact ⟨hx.1, ih hx.2 (by simpa [List.getLast?_cons_cons] using hl) (lpAfter_pred h)⟩

theorem font_no {k : Nat} {s : Bytes} (h : LPAfter (k + 1) s) : maskMatch (zeros k ++ [0xff, 0xff]) (zeros k ++ [76, 80]) s = false := by
  induction k generalizing s with
  | zero =>
    match s, h with
    | [], _ => rfl
    | [c], _ => simp [zeros, maskMatch]
    | c :: d :: s, h =>
      have : ¬ (c = 76 ∧ d = 80) := fun e => h.1 ⟨e.1, congrArg some e.2⟩
      simp only [zeros, List.replicate_zero, List.nil_append, maskMatch, UInt8.and_neg_one, show (0xff : UInt8) = -1 from rfl, Bool.and_true, Bool.and_eq_false_iff, decide_eq_false_iff_not]
      by_cases c1 : c = 76
      · exact .inr fun e => this ⟨c1, e⟩
      · exact .inl c1
  | succ k ih =>
    cases s with
    | nil => rfl
    | cons c s =>
      have := ih h.2
      simp only [zeros, List.replicate_succ, List.cons_append, maskMatch] at this ⊢
      rw [this, Bool.and_false]

/-! ## Signatures that do not fit a beginning -/

/-- the signature differs from the beginning `h` -/
def exactApart : Bytes → Bytes → Bool
  | s :: sig, d :: h => s ≠ d || exactApart sig h
  | _, _ => false

/-- the same with masks -/
def maskApart : Bytes → Bytes → Bytes → Bool
  | m :: mask, p :: pat, d :: h => d &&& m ≠ p || maskApart mask pat h
  | _, _, _ => false

/-- the same for HTML -/
def htmlApart : Bytes → Bytes → Bool
  | b :: x, d :: h => (if 0x41 ≤ b ∧ b ≤ 0x5a then d &&& 0xdf else d) ≠ b || htmlApart x h
  | _, _ => false

/-- the signature does not match texts that begin with `h` -/
def Sig.apart (h : Bytes) : Sig → Bool
  | .html x => htmlApart x h
  | .masked mask pat _ _ => maskApart mask pat h
  | .exact sig _ => exactApart sig h
  | .mp4 => 5 ≤ h.length && h[4]? ≠ some 0x66
  | .text => false

theorem exact_no {sig h : Bytes} (a : exactApart sig h = true) (r : Bytes) : exactMatch sig (h ++ r) = false := by
  induction sig generalizing h with
  | nil => cases a
  | cons s sig ih =>
    cases h with
    | nil => cases a
    | cons d h =>
      simp only [exactApart, Bool.or_eq_true, decide_eq_true_eq] at a
      simp only [exactMatch, List.cons_append, List.isPrefixOf, Bool.and_eq_false_iff, beq_eq_false_iff_ne]
      exact a.imp id fun a => ih a

theorem mask_no {mask pat h : Bytes} (a : maskApart mask pat h = true) (r : Bytes) : maskMatch mask pat (h ++ r) = false := by
  induction mask generalizing pat h with
  | nil => cases a
  | cons m mask ih =>
    match pat, h, a with
    | p :: pat, d :: h, a =>
      simp only [maskApart, Bool.or_eq_true, decide_eq_true_eq] at a
      simp only [List.cons_append, maskMatch, Bool.and_eq_false_iff, decide_eq_false_iff_not]
      exact a.imp id fun a => ih a

theorem html_no {x h : Bytes} (a : htmlApart x h = true) (r : Bytes) : htmlMatch x (h ++ r) = false := by
  induction x generalizing h with
  | nil => cases a
  | cons b x ih =>
    cases h with
    | nil => cases a
    | cons d h =>
      simp only [htmlApart, Bool.or_eq_true, decide_eq_true_eq] at a
      simp only [List.cons_append, htmlMatch, Bool.and_eq_false_iff, decide_eq_false_iff_not]
      exact a.imp id fun a => ih a

theorem mp4_no {data : Bytes} (h : data[4]? ≠ some 0x66) : mp4Match data = false := by
  unfold mp4Match
  split
  · rfl
  simp only
  split
  · rfl
  split
  · rfl
  · rename_i c
    rw [ne_eq, Decidable.not_not] at c
    have := congrArg List.head? c
    rw [List.head?_take, if_neg (by decide), List.head?_drop] at this
    exact absurd this h

theorem sig_no {s : Sig} {h : Bytes} (a : s.apart h = true) (hw : h.head?.any isWS = false) (h0 : h ≠ []) (r : Bytes) :
    s.match (h ++ r) ((h ++ r).dropWhile isWS) = none := by
  have e : (h ++ r).dropWhile isWS = h ++ r := by
    cases h with
    | nil => exact absurd rfl h0
    | cons c h =>
      have : isWS c = false := hw
      rw [List.cons_append, List.dropWhile_cons, this]
      rfl
  rw [e]
  cases s with
  | html x => simp only [Sig.match, html_no a r]; rfl
  | masked mask pat sk ct =>
    have := mask_no a r
    cases sk <;> simp [Sig.match, this]
  | exact sig ct => simp only [Sig.match, exact_no a r]; rfl
  | mp4 =>
    simp only [Sig.apart, Bool.and_eq_true, decide_eq_true_eq] at a
    have : mp4Match (h ++ r) = false := by
      apply mp4_no
      rw [List.getElem?_append_left (by omega)]
      exact a.2
    simp only [Sig.match, this]; rfl
  | text => cases a

/-- the signature of fonts -/
def fontSig : Sig := .masked (zeros 34 ++ hex! "ff ff") (zeros 34 ++ go! "LP") false (go! "application/vnd.ms-fontobject")

/-- a beginning that fits no signature, but perhaps the one of fonts -/
def startOK (h : Bytes) : Bool :=
  signatures.dropLast.all (fun s => s.apart h || s = fontSig) && !h.head?.any isWS && h ≠ [] && h.length ≤ 512

/-- the type of a text with such a beginning -/
theorem detect_start {h r : Bytes} (hh : startOK h = true) (hl : LPAfter 35 (h ++ r)) :
    detectType (h ++ r) = if ((h ++ r).take 512).any binaryByte then go! "application/octet-stream" else go! "text/plain; charset=utf-8" := by
  simp only [startOK, Bool.and_eq_true, List.all_eq_true, Bool.or_eq_true, decide_eq_true_eq, Bool.not_eq_true'] at hh
  obtain ⟨⟨⟨ha, hw⟩, h0⟩, hk⟩ := hh
  have ed : (h ++ r).take 512 = h ++ r.take (512 - h.length) := by
    rw [List.take_append, List.take_of_length_le hk]
  have hl := lpAfter_take hl 512
  unfold detectType
  simp only
  rw [ed] at hl ⊢
  have hs : signatures = signatures.dropLast ++ [.text] := rfl
  rw [hs, List.findSome?_append]
  have hn : signatures.dropLast.findSome? (fun s => s.match (h ++ r.take (512 - h.length)) ((h ++ r.take (512 - h.length)).dropWhile isWS)) = none := by
    rw [List.findSome?_eq_none_iff]
    intro s m
    rcases ha s m with a | rfl
    · exact sig_no a hw h0 _
    · have := font_no hl
      simp only [Sig.match, fontSig, Bool.false_eq_true, if_false]
      rw [if_neg]
      rw [Bool.not_eq_true]
      exact this
  have e : (h ++ r.take (512 - h.length)).dropWhile isWS = h ++ r.take (512 - h.length) := by
    cases h with
    | nil => exact absurd rfl h0
    | cons c h =>
      have : isWS c = false := hw
      rw [List.cons_append, List.dropWhile_cons, this]
      rfl
  rw [hn, e]
  simp only [Option.none_or, List.findSome?_cons, Sig.match, List.findSome?_nil]
  split <;> rename_i c
  · split at c
    · cases c
    · rename_i d
      rw [if_neg d]
      cases c
      rfl
  · split at c
    · rename_i d
      rw [if_pos d]
      rfl
    · cases c

end SMC.Http
