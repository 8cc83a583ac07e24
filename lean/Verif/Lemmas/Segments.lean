import Verif.Spec.Segments
import Verif.Props.CLCCrash
/-!
# Reading from segments
-/

namespace SMC.Props
open SMC Spec CLC

/-- `NewMessage` reports nothing when it finds a message. -/
theorem found_quiet {v : Bytes} {m : Message} {l : UInt16} (h : newMessageResult v = (some m, l)) :
    newMessageLog v = [] := by
  unfold newMessageResult at h
  unfold newMessageLog
  cases hc : classify v with
  | none => simp [hc] at h
  | some k =>
    unfold classify at hc
    split at hc
    · rename_i c
      rw [if_neg (by omega)]
    · cases hc

/-- More bytes do not change the answer. -/
theorem found_more {a b : Bytes} (h : 8 ≤ a.length) :
    newMessageLog (a ++ b) = newMessageLog a ∧ newMessageResult (a ++ b) = newMessageResult a := by
  have h8 : 8 ≤ (a ++ b).length := by simp; omega
  have := C31_newMessage_local ⟨a ++ b, []⟩ ⟨a, []⟩ h8 h (by simp only; rw [List.take_append_of_le_length h])
  rw [newMessage_eq _ _ h8, newMessage_eq _ _ h] at this
  exact ⟨(Go.ret.inj this).1, (Go.ret.inj this).2⟩

/-- One round of the reader. -/
def round (clip : Bool) (e : Bytes) (next : Bytes → Go (List Message × Option Bytes)) (buf : Bytes) :
    Go (List Message × Option Bytes) :=
  if buf.length < 8 then .ret [] ([], some buf)
  else match newMessageResult buf with
    | (none, _) => .ret (newMessageLog buf) ([], none)
    | (some m, l) =>
      if buf.length < l.toNat then .ret [] ([], some buf)
      else match m.parse ⟨buf.take l.toNat, if clip then [] else buf.drop l.toNat ++ e⟩ with
        | .panic lg => .panic lg
        | .ret lg m' => match next (buf.drop l.toNat) with
          | .panic lg' => .panic (lg ++ lg')
          | .ret lg' r => .ret (lg ++ lg') (m' :: r.1, r.2)

theorem ret_then {α β : Type} (l : List Bytes) (a : α) (f : α → Go β) : (Go.ret l a >>= f) = match f a with
    | .panic l' => .panic (l ++ l')
    | .ret l' b => .ret (l ++ l') b := rfl

theorem drain_succ (clip : Bool) (e : Bytes) (n : Nat) (buf : Bytes) :
    drain clip e (n + 1) buf = round clip e (drain clip e n) buf := by
  unfold round
  rw [drain]
  by_cases h : buf.length < 8
  · rw [if_pos h, if_pos h]; rfl
  rw [if_neg h, if_neg h, newMessage_eq _ _ (by omega), ret_then]
  cases hr : newMessageResult buf with
  | mk m l =>
    cases m with
    | none => simp [Go.pure_eq]
    | some m =>
      rw [found_quiet hr]
      simp only [List.nil_append]
      by_cases hl : buf.length < l.toNat
      · simp [hl, Go.pure_eq]
      · simp only [hl, if_false]
        cases m.parse ⟨buf.take l.toNat, if clip then [] else buf.drop l.toNat ++ e⟩ with
        | panic lg => rfl
        | ret lg m' =>
          rw [ret_then]
          cases drain clip e n (buf.drop l.toNat) with
          | panic lg' => rfl
          | ret lg' r => simp [ret_then, Go.pure_eq]

/-- The rest is shorter. -/
theorem round_congr {clip : Bool} {e : Bytes} {f g : Bytes → Go (List Message × Option Bytes)} {buf : Bytes}
    (h : ∀ d, 8 ≤ d → d ≤ buf.length → f (buf.drop d) = g (buf.drop d)) : round clip e f buf = round clip e g buf := by
  unfold round
  by_cases h8 : buf.length < 8
  · rw [if_pos h8, if_pos h8]
  rw [if_neg h8, if_neg h8]
  cases hr : newMessageResult buf with
  | mk m l =>
    cases m with
    | none => rfl
    | some m =>
      simp only
      by_cases hl : buf.length < l.toNat
      · rw [if_pos hl, if_pos hl]
      rw [if_neg hl, if_neg hl]
      cases hp : m.parse ⟨buf.take l.toNat, if clip then [] else buf.drop l.toNat ++ e⟩ with
      | panic lg => rfl
      | ret lg m' =>
        have := parse_needs m _ _ _ hp
        simp only [Slice.len_mk, List.length_take] at this
        simp only
        rw [h l.toNat (by omega) (by omega)]

theorem drain_fuel {clip : Bool} {e : Bytes} {n m : Nat} {buf : Bytes} (hn : buf.length ≤ n) (hm : buf.length ≤ m) :
    drain clip e n buf = drain clip e m buf := by
  induction n generalizing m buf with
  | zero =>
    obtain rfl := List.length_eq_zero_iff.1 (Nat.le_zero.1 hn)
    cases m with
    | zero => rfl
    | succ m => rw [drain_succ]; rfl
  | succ n ih =>
    cases m with
    | zero =>
      obtain rfl := List.length_eq_zero_iff.1 (Nat.le_zero.1 hm)
      rw [drain_succ]; rfl
    | succ m =>
      rw [drain_succ, drain_succ]
      refine round_congr (fun d h8 hd => ih ?_ ?_) <;> simp <;> omega

theorem drain_clip (e e' : Bytes) (n : Nat) (buf : Bytes) : drain true e n buf = drain true e' n buf := by
  induction n generalizing buf with
  | zero => rfl
  | succ n ih =>
    rw [drain_succ, drain_succ]
    have : drain true e n = drain true e' n := funext ih
    rw [this]
    rfl

/-! ## Going on with the bytes that are left -/

/-- Reads and goes on with the bytes that are left. -/
def goOn (x : Go (List Message × Option Bytes)) (f : Option Bytes → Go (List Message × Option Bytes)) :
    Go (List Message × Option Bytes) :=
  match x with
  | .panic l => .panic l
  | .ret l r => match f r.2 with
    | .panic l' => .panic (l ++ l')
    | .ret l' r' => .ret (l ++ l') (r.1 ++ r'.1, r'.2)

theorem goOn_nothing (p : Option Bytes) (f : Option Bytes → Go (List Message × Option Bytes)) :
    goOn (.ret [] ([], p)) f = f p := by
  unfold goOn
  cases h : f p <;> simp [h]

theorem goOn_assoc (x : Go (List Message × Option Bytes)) (f g : Option Bytes → Go (List Message × Option Bytes)) :
    goOn (goOn x f) g = goOn x (fun p => goOn (f p) g) := by
  cases x with
  | panic l => rfl
  | ret l r =>
    simp only [goOn]
    cases f r.2 with
    | panic l' => rfl
    | ret l' r' =>
      simp only
      cases g r'.2 <;> simp

theorem feed_cons (clip : Bool) (s e : Bytes) (segs : List (Bytes × Bytes)) (p : Bytes) :
    feed clip ((s, e) :: segs) (some p) = goOn (drain clip e (p ++ s).length (p ++ s)) (feed clip segs) := by
  rw [feed]
  unfold goOn
  cases drain clip e (p ++ s).length (p ++ s) with
  | panic l => rfl
  | ret l r =>
    rw [ret_then]
    cases h : feed clip segs r.2 <;> simp [ret_then, Go.pure_eq, h] <;> rfl

theorem feed_none (clip : Bool) (segs : List (Bytes × Bytes)) : feed clip segs none = .ret [] ([], none) := by
  cases segs <;> rfl

/-- Reading more of the stream. -/
def more (e b : Bytes) : Option Bytes → Go (List Message × Option Bytes)
  | none => .ret [] ([], none)
  | some r => drain true e (r ++ b).length (r ++ b)

theorem drain_append (e e' : Bytes) (n : Nat) (a b : Bytes) (hn : a.length ≤ n) :
    drain true e (a ++ b).length (a ++ b) = goOn (drain true e' n a) (more e b) := by
  induction n generalizing a with
  | zero =>
    obtain rfl := List.length_eq_zero_iff.1 (Nat.le_zero.1 hn)
    show _ = goOn (.ret [] ([], some [])) _
    rw [goOn_nothing]
    rfl
  | succ n ih =>
    rw [drain_succ]
    unfold round
    by_cases h8 : a.length < 8
    · rw [if_pos h8, goOn_nothing]; rfl
    rw [if_neg h8]
    obtain ⟨f1, f2⟩ := found_more (a := a) (b := b) (by omega)
    obtain ⟨k, hk⟩ : ∃ k, (a ++ b).length = k + 1 := ⟨(a ++ b).length - 1, by simp; omega⟩
    have hab : ¬ (a ++ b).length < 8 := by simp; omega
    cases hr : newMessageResult a with
    | mk m l =>
      cases m with
      | none =>
        rw [hk, drain_succ]
        unfold round
        rw [if_neg hab, f2, hr]
        simp [goOn, more, f1]
      | some m =>
        simp only
        by_cases hl : a.length < l.toNat
        · rw [if_pos hl, goOn_nothing]; rfl
        rw [if_neg hl, hk, drain_succ]
        unfold round
        have hl' : ¬ (a ++ b).length < l.toNat := by simp; omega
        rw [if_neg hab, f2, hr]
        simp only
        rw [if_neg hl', List.take_append_of_le_length (by omega), List.drop_append_of_le_length (by omega)]
        simp only [if_true]
        cases hp : m.parse ⟨a.take l.toNat, []⟩ with
        | panic lg => rfl
        | ret lg m' =>
          have := parse_needs m _ _ _ hp
          simp only [Slice.len_mk, List.length_take] at this
          simp only
          have e1 : drain true e k (a.drop l.toNat ++ b) =
              drain true e (a.drop l.toNat ++ b).length (a.drop l.toNat ++ b) := by
            refine drain_fuel ?_ (Nat.le_refl _)
            simp at hk ⊢; omega
          rw [e1, ih (a.drop l.toNat) (by simp; omega)]
          unfold goOn
          cases drain true e' n (a.drop l.toNat) with
          | panic lg' => rfl
          | ret lg' r =>
            simp only
            cases more e b r.2 <;> simp

/-- Segments are read like one. -/
theorem feed_joined (e : Bytes) (segs : List (Bytes × Bytes)) (p : Bytes) :
    goOn (drain true e p.length p) (feed true segs) =
      drain true e (p ++ joined segs).length (p ++ joined segs) := by
  induction segs generalizing p with
  | nil =>
    have : feed true [] = fun p => .ret [] ([], p) := by funext p; rfl
    simp only [joined, List.flatMap_nil, List.append_nil]
    rw [this]
    unfold goOn
    cases drain true e p.length p <;> simp
  | cons s segs ih =>
    obtain ⟨s, e'⟩ := s
    have h : feed true ((s, e') :: segs) = fun r => goOn (more e s r) (feed true segs) := by
      funext r
      cases r with
      | none => rw [feed_none, more, goOn_nothing, feed_none]
      | some r => rw [feed_cons, more, drain_clip e' e]
    rw [h, ← goOn_assoc, ← drain_append e e p.length p s (Nat.le_refl _), ih (p ++ s)]
    simp [joined]

end SMC.Props
