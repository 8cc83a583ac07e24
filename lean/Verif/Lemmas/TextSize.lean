import Verif.Lemmas.Printable
import Verif.Props.LLCText
/-!
# Lengths of texts
-/

namespace SMC

open Spec

theorem digitsAux_length {base : Nat} (hb : 2 ≤ base) (fuel n k : Nat) (h : n < base ^ (k + 1)) :
    (digitsAux fuel base n).length ≤ k + 1 := by
  induction fuel generalizing n k with
  | zero => simp [digitsAux]
  | succ fuel ih =>
    unfold digitsAux
    split
    · simp
    · rename_i hn
      cases k with
      | zero => simp at h; omega
      | succ k =>
        have := ih (n / base) k (by rw [Nat.div_lt_iff_lt_mul (by omega)]; rwa [Nat.pow_succ] at h)
        simp only [List.length_append, List.length_singleton]
        omega

theorem digits_length {base : Nat} (hb : 2 ≤ base) {n : Nat} (k : Nat) (h : n < base ^ (k + 1)) :
    (digits base n).length ≤ k + 1 := digitsAux_length hb _ _ _ h

/-- the text has at most `k` bytes -/
def Upto (k : Nat) (t : Bytes) : Prop := t.length ≤ k

theorem Upto.le {k n : Nat} {t : Bytes} (h : Upto k t) (hk : k ≤ n) : Upto n t := Nat.le_trans h hk

theorem upto_append {j k : Nat} {a b : Bytes} (ha : Upto j a) (hb : Upto k b) : Upto (j + k) (a ++ b) := by
  unfold Upto at *
  rw [List.length_append]
  omega

theorem upto_self (t : Bytes) : Upto t.length t := Nat.le_refl _

theorem upto_nil : Upto 0 [] := Nat.le_refl _

theorem upto_ite {j k : Nat} {a b : Bytes} (c : Prop) [Decidable c] (ha : Upto j a) (hb : Upto k b) :
    Upto (max j k) (if c then a else b) := by
  split
  · exact ha.le (Nat.le_max_left ..)
  · exact hb.le (Nat.le_max_right ..)

theorem upto_dec8 (x : UInt8) : Upto 3 (dec x.toNat) :=
  digits_length (by decide) 2 (Nat.lt_trans x.toNat_lt (by decide))
theorem upto_dec16 (x : UInt16) : Upto 5 (dec x.toNat) :=
  digits_length (by decide) 4 (Nat.lt_trans x.toNat_lt (by decide))
theorem upto_dec32 (x : UInt32) : Upto 10 (dec x.toNat) :=
  digits_length (by decide) 9 (Nat.lt_trans x.toNat_lt (by decide))
theorem upto_dec64 (x : UInt64) : Upto 20 (dec x.toNat) :=
  digits_length (by decide) 19 (Nat.lt_trans x.toNat_lt (by decide))
theorem upto_hex8 (x : UInt8) : Upto 4 (hexInt x.toNat) :=
  upto_append (upto_self (go! "0x")) (digits_length (by decide) 1 x.toNat_lt)
theorem upto_hex16 (x : UInt16) : Upto 6 (hexInt x.toNat) :=
  upto_append (upto_self (go! "0x")) (digits_length (by decide) 3 x.toNat_lt)
theorem upto_hex32 (x : UInt32) : Upto 10 (hexInt x.toNat) :=
  upto_append (upto_self (go! "0x")) (digits_length (by decide) 7 x.toNat_lt)
theorem upto_hex64 (x : UInt64) : Upto 18 (hexInt x.toNat) :=
  upto_append (upto_self (go! "0x")) (digits_length (by decide) 15 x.toNat_lt)
theorem upto_bin8 (x : UInt8) : Upto 10 (binInt x.toNat) :=
  upto_append (upto_self (go! "0b")) (digits_length (by decide) 7 x.toNat_lt)
theorem upto_dec {n : Nat} (h : n < 256) : Upto 3 (dec n) :=
  digits_length (by decide) 2 (Nat.lt_trans h (by decide))
theorem upto_bool (b : Bool) : Upto 5 (boolStr b) := by
  show _ ≤ 5
  cases b <;> decide

theorem hex2s_length (b : Bytes) : (b.flatMap hex2).length = 2 * b.length := by
  induction b with
  | nil => rfl
  | cons x b ih => rw [List.flatMap_cons, List.length_append, ih]; simp [hex2]; omega

theorem upto_hexBytes {b : Bytes} {n : Nat} (h : b.length = n) : Upto (2 + 2 * n) (hexBytes b) := by
  subst h
  unfold hexBytes
  split
  · exact Nat.zero_le _
  · exact upto_append (upto_self (go! "0x")) (Nat.le_of_eq (hex2s_length b))

theorem joinSep_length {sep : Bytes} (k : Nat) (l : List Bytes) (h : ∀ x ∈ l, x.length ≤ k) :
    (joinSep sep l).length ≤ (k + sep.length) * l.length := by
  induction l with
  | nil => exact Nat.zero_le _
  | cons x l ih =>
    have hx := h x List.mem_cons_self
    cases l with
    | nil => simp only [joinSep, List.length_singleton]; omega
    | cons y l =>
      have := ih fun z hz => h z (List.mem_cons_of_mem _ hz)
      simp only [joinSep, List.length_append] at this ⊢
      rw [List.length_cons, Nat.mul_add]
      omega

theorem upto_mac {m : Bytes} (h : m.length ≤ 6) : Upto 18 (macStr m) := by
  have := joinSep_length (sep := go! ":") 2 (m.map hex2) (by intro x hx; obtain ⟨b, -, rfl⟩ := List.mem_map.1 hx; exact Nat.le_refl _)
  rw [List.length_map] at this
  have e : (go! ":").length = 1 := rfl
  rw [e] at this
  exact Nat.le_trans this (by omega)

theorem upto_ip4 {p : Bytes} (h : p.length ≤ 4) : Upto 16 (ip4Str p) := by
  have := joinSep_length (sep := go! ".") 3 (p.map fun b => dec b.toNat)
    (by intro x hx; obtain ⟨b, -, rfl⟩ := List.mem_map.1 hx; exact upto_dec8 b)
  rw [List.length_map] at this
  have e : (go! ".").length = 1 := rfl
  rw [e] at this
  exact Nat.le_trans this (by omega)

theorem groups_lt (a : Bytes) : ∀ g ∈ groups a, g < 65536 := by
  fun_induction groups a with
  | case1 a b r ih =>
    intro g hg
    rcases List.mem_cons.1 hg with rfl | hg
    · have := a.toNat_lt; have := b.toNat_lt; omega
    · exact ih g hg
  | case2 => intro g hg; simp at hg

theorem upto_ip6 {gs : List Nat} (h : gs.length ≤ 8) (hg : ∀ g ∈ gs, g < 65536) : Upto 42 (ip6Str gs) := by
  have hd : ∀ x ∈ gs.map (digits 16), x.length ≤ 4 := by
    intro x hx
    obtain ⟨g, hg', rfl⟩ := List.mem_map.1 hx
    exact digits_length (by decide) 3 (hg g hg')
  have e : (go! ":").length = 1 := rfl
  unfold ip6Str
  generalize bestRun 0 gs (0, 0) = b
  obtain ⟨st, l⟩ := b
  dsimp only
  split
  · have := joinSep_length (sep := go! ":") 4 _ hd
    rw [List.length_map, e] at this
    exact Nat.le_trans this (by omega)
  · have h1 := joinSep_length (sep := go! ":") 4 _ fun x (hx : x ∈ (gs.map (digits 16)).take st) => hd x (List.mem_of_mem_take hx)
    have h2 := joinSep_length (sep := go! ":") 4 _ fun x (hx : x ∈ (gs.map (digits 16)).drop (st + l)) => hd x (List.mem_of_mem_drop hx)
    refine (upto_append (upto_append (h1 : Upto _ _) (upto_self (go! "::"))) (h2 : Upto _ _)).le ?_
    · rw [List.length_take, List.length_drop, List.length_map, e]
      have : (go! "::").length = 2 := rfl
      rw [this]
      omega

theorem upto_ip {a : Bytes} (h : a.length ≤ 16) : Upto 42 (ipStr a) := by
  unfold ipStr
  split
  · exact (upto_self (go! "<nil>")).le (by decide)
  · split
    · refine (upto_append (upto_self (go! "?")) (Nat.le_of_eq (hex2s_length a))).le ?_
      have : (go! "?").length = 1 := rfl
      omega
    · split
      · rename_i p hp
        refine (upto_ip4 ?_).le (by decide)
        unfold to4 at hp
        split at hp
        · cases hp; omega
        · split at hp
          · cases hp; rw [List.length_drop]; omega
          · cases hp
      · exact upto_ip6 (by rw [groups_length]; omega) (groups_lt a)

/-- adds up the lengths of the parts of a formatted text -/
syntax "adds" "[" term,* "]" : tactic
macro_rules
  | `(tactic| adds [$ls,*]) => `(tactic| (
    repeat' first
      | with_reducible exact upto_dec8 _ | with_reducible exact upto_dec16 _ | with_reducible exact upto_dec32 _
      | with_reducible exact upto_dec64 _ | with_reducible exact upto_hex8 _ | with_reducible exact upto_hex16 _
      | with_reducible exact upto_hex32 _ | with_reducible exact upto_hex64 _ | with_reducible exact upto_bin8 _
      | with_reducible exact upto_bool _
      $[| with_reducible exact $ls]*
      | with_reducible exact upto_nil
      | with_reducible apply upto_append
      | with_reducible apply upto_ite
      | with_reducible exact upto_self (_ :: _)))

/-- a formatted text is not longer than a given number -/
syntax "upto" "[" term,* "]" : tactic
macro_rules
  | `(tactic| upto [$ls,*]) => `(tactic| (
    try unfmt []
    apply Upto.le
    case h => adds [$ls,*]
    case hk => decide))

/-- the same with variables in the bound -/
syntax "upto_var" "[" term,* "]" : tactic
macro_rules
  | `(tactic| upto_var [$ls,*]) => `(tactic| (
    try unfmt []
    apply Upto.le
    case h => adds [$ls,*]
    case hk => simp only [List.length_cons, List.length_nil, Nat.reduceAdd]; first | (simp +arith only; done) | omega))

/-! ## Parts of LLC messages -/

namespace LLC

theorem upto_qpmtu (m : UInt8) : Upto 14 (qpmtuStr m) := by
  unfold qpmtuStr
  upto []

theorem upto_addRsn (r : UInt8) : Upto 33 (addLinkRsnStr r) := by
  unfold addLinkRsnStr
  upto []

theorem upto_delRsn (r : UInt32) : Upto 80 (delLinkRsnStr r) := by
  unfold delLinkRsnStr
  upto []

theorem upto_pair (r : RKeyPair) : Upto 91 r.string := by
  unfold RKeyPair.string
  upto []

theorem upto_rmb (r : RMBSpec) : Upto 70 r.string := by
  unfold RMBSpec.string
  upto []

theorem upto_pairsStr {rs : List RKeyPair} (h : rs.length = 2) : Upto 110 (pairsStr 0 rs []) := by
  obtain ⟨p, q, rfl⟩ := Props.list2 h
  simp only [pairsStr]
  upto [upto_pair _, upto_dec (by decide)]

theorem upto_pairsRes {rs : List RKeyPair} (h : rs.length = 2) : Upto 110 (pairsRes 0 rs []) := by
  obtain ⟨p, q, rfl⟩ := Props.list2 h
  simp only [pairsRes]
  upto [upto_pair _, upto_dec (by decide)]

theorem upto_rmbsStr (rs : List RMBSpec) (i : Nat) (h : i + rs.length < 256) : Upto (100 * rs.length) (rmbsStr i rs) := by
  induction rs generalizing i with
  | nil => exact upto_nil
  | cons r rs ih =>
    rw [List.length_cons] at h ⊢
    unfold rmbsStr
    have h1 : Upto 100 (sprintf (go! ", Other Link RMB %d: %s") [.num (i + 1), .str r.string]) := by
      upto [upto_rmb _, upto_dec (by omega)]
    exact (upto_append h1 (ih (i + 1) (by omega))).le (by omega)

theorem upto_rmbsRes (rs : List RMBSpec) (i : Nat) (h : i + rs.length < 256) : Upto (100 * rs.length) (rmbsRes i rs) := by
  induction rs generalizing i with
  | nil => exact upto_nil
  | cons r rs ih =>
    rw [List.length_cons] at h ⊢
    unfold rmbsRes
    have h1 : Upto 100 (sprintf (go! "Other Link RMB %d: %s, ") [.num (i + 1), .str r.string]) := by
      upto [upto_rmb _, upto_dec (by omega)]
    exact (upto_append h1 (ih (i + 1) (by omega))).le (by omega)

theorem upto_rkeysStr (rs : List UInt32) (i : Nat) (h : i + rs.length < 256) : Upto (25 * rs.length) (rkeysStr i rs) := by
  induction rs generalizing i with
  | nil => exact upto_nil
  | cons r rs ih =>
    rw [List.length_cons] at h ⊢
    unfold rkeysStr
    have h1 : Upto 25 (sprintf (go! ", RKey %d: %d") [.num i, .num r.toNat]) := by
      upto [upto_dec (n := i) (by omega)]
    exact (upto_append h1 (ih (i + 1) (by omega))).le (by omega)

theorem upto_rkeysRes (rs : List UInt32) (i : Nat) (h : i + rs.length < 256) : Upto (25 * rs.length) (rkeysRes i rs) := by
  induction rs generalizing i with
  | nil => exact upto_nil
  | cons r rs ih =>
    rw [List.length_cons] at h ⊢
    unfold rkeysRes
    have h1 : Upto 25 (sprintf (go! "RKey %d: %d, ") [.num i, .num r.toNat]) := by
      upto [upto_dec (n := i) (by omega)]
    exact (upto_append h1 (ih (i + 1) (by omega))).le (by omega)

/-- the base and the addresses of a message as they are after parsing -/
def Small : Msg → Prop
  | .other _ => True
  | .confirmLink m => m.base.Typ < 256 ∧ m.base.Length < 256 ∧ m.SenderMAC.length ≤ 6 ∧ m.SenderGID.length ≤ 16
  | .addLink m => m.base.Typ < 256 ∧ m.base.Length < 256 ∧ m.SenderMAC.length ≤ 6 ∧ m.SenderGID.length ≤ 16
  | .addLinkCont m => m.base.Typ < 256 ∧ m.base.Length < 256
  | .deleteLink m => m.base.Typ < 256 ∧ m.base.Length < 256
  | .confirmRKey m => m.base.Typ < 256 ∧ m.base.Length < 256
  | .confirmRKeyCont m => m.base.Typ < 256 ∧ m.base.Length < 256
  | .deleteRKey m => m.base.Typ < 256 ∧ m.base.Length < 256
  | .testLink m => m.base.Typ < 256 ∧ m.base.Length < 256
  | .cdc m => m.base.Typ < 256 ∧ m.base.Length < 256

set_option maxRecDepth 8000 in
theorem upto_string (m : Msg) (hs : SizedMsg m) (hb : Small m) : Upto 520 m.string := by
  cases m <;> unfold Msg.string <;> dsimp only [Small, SizedMsg] at hb hs ⊢
  case other m => exact (upto_self (go! "Other Payload\n")).le (by decide)
  case confirmLink m =>
    unfold ConfirmLink.string
    upto [upto_dec hb.1, upto_dec hb.2.1, upto_mac hb.2.2.1, upto_ip hb.2.2.2]
  case addLink m =>
    unfold AddLink.string
    upto [upto_dec hb.1, upto_dec hb.2.1, upto_mac hb.2.2.1, upto_ip hb.2.2.2, upto_qpmtu _, upto_addRsn _]
  case addLinkCont m =>
    unfold AddLinkCont.string
    upto [upto_dec hb.1, upto_dec hb.2, upto_pairsStr hs.2.1]
  case deleteLink m =>
    unfold DeleteLink.string
    upto [upto_dec hb.1, upto_dec hb.2, upto_delRsn _]
  case confirmRKey m =>
    have hs : m.OtherRMBs.length = 2 := hs
    have h1 : Upto 200 (rmbsStr 0 m.OtherRMBs) := (upto_rmbsStr _ 0 (by omega)).le (by omega)
    unfold ConfirmRKey.string
    upto [upto_dec hb.1, upto_dec hb.2, h1]
  case confirmRKeyCont m =>
    have hs : m.OtherRMBs.length = 3 := hs
    have h1 : Upto 300 (rmbsStr 0 m.OtherRMBs) := (upto_rmbsStr _ 0 (by omega)).le (by omega)
    unfold ConfirmRKeyCont.string
    upto [upto_dec hb.1, upto_dec hb.2, h1]
  case deleteRKey m =>
    have hs : m.rkeys.length = 8 := hs.2.1
    have h1 : Upto 200 (rkeysStr 0 m.rkeys) := (upto_rkeysStr _ 0 (by omega)).le (by omega)
    unfold DeleteRKey.string
    upto [upto_dec hb.1, upto_dec hb.2, h1]
  case testLink m =>
    unfold TestLink.string
    upto [upto_dec hb.1, upto_dec hb.2, upto_hexBytes hs.1]
  case cdc m =>
    unfold CDC.string
    upto [upto_dec hb.1, upto_dec hb.2]

set_option maxRecDepth 8000 in
theorem upto_reserved (m : Msg) (hs : SizedMsg m) (hb : Small m) : Upto 650 m.reserved := by
  cases m <;> unfold Msg.reserved <;> dsimp only [Small, SizedMsg] at hb hs ⊢
  case other m => exact (upto_self (go! "Other Payload\n")).le (by decide)
  case confirmLink m =>
    have hs : m.res3.length = 9 := hs
    unfold ConfirmLink.reserved
    upto [upto_dec hb.1, upto_dec hb.2.1, upto_mac hb.2.2.1, upto_ip hb.2.2.2, upto_hexBytes hs]
  case addLink m =>
    unfold AddLink.reserved
    upto [upto_dec hb.1, upto_dec hb.2.1, upto_mac hb.2.2.1, upto_ip hb.2.2.2, upto_qpmtu _, upto_addRsn _,
      upto_hexBytes hs.2]
  case addLinkCont m =>
    unfold AddLinkCont.reserved
    upto [upto_dec hb.1, upto_dec hb.2, upto_pairsRes hs.2.1, upto_hexBytes hs.1, upto_hexBytes hs.2.2]
  case deleteLink m =>
    have hs : m.res3.length = 35 := hs
    unfold DeleteLink.reserved
    upto [upto_dec hb.1, upto_dec hb.2, upto_delRsn _, upto_hexBytes hs]
  case confirmRKey m =>
    have hs : m.OtherRMBs.length = 2 := hs
    have h1 : Upto 200 (rmbsRes 0 m.OtherRMBs) := (upto_rmbsRes _ 0 (by omega)).le (by omega)
    unfold ConfirmRKey.reserved
    upto [upto_dec hb.1, upto_dec hb.2, h1]
  case confirmRKeyCont m =>
    have hs : m.OtherRMBs.length = 3 := hs
    have h1 : Upto 300 (rmbsRes 0 m.OtherRMBs) := (upto_rmbsRes _ 0 (by omega)).le (by omega)
    unfold ConfirmRKeyCont.reserved
    upto [upto_dec hb.1, upto_dec hb.2, h1]
  case deleteRKey m =>
    have h1 : Upto 200 (rkeysRes 0 m.rkeys) :=
      (upto_rkeysRes _ 0 (by have := hs.2.1; omega)).le (by have := hs.2.1; omega)
    unfold DeleteRKey.reserved
    upto [upto_dec hb.1, upto_dec hb.2, h1, upto_hexBytes hs.1, upto_hexBytes hs.2.2]
  case testLink m =>
    unfold TestLink.reserved
    upto [upto_dec hb.1, upto_dec hb.2, upto_hexBytes hs.1, upto_hexBytes hs.2]
  case cdc m =>
    unfold CDC.reserved
    upto [upto_dec hb.1, upto_dec hb.2, upto_hexBytes hs.1, upto_hexBytes hs.2.1, upto_hexBytes hs.2.2]

end LLC
end SMC
