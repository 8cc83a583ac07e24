import Verif.Netip
import Verif.Lemmas.Addr
import Verif.Lemmas.TextSize
/-!
# Texts of addresses are parsed back
-/

namespace SMC.Socket

/-! ## IPv4 -/

/-- an octet read digit by digit -/
def scan (val digLen : Nat) : Bytes → Option (Nat × Nat)
  | [] => some (val, digLen)
  | c :: s =>
    if digLen = 1 ∧ val = 0 then none
    else if val * 10 + (c.toNat - 0x30) > 255 then none
    else scan (val * 10 + (c.toNat - 0x30)) (digLen + 1) s

theorem ip4Fields_scan (f x s : Bytes) (v d : Nat) (hx : ∀ c ∈ x, isDec c = true) :
    ip4Fields f v d (x ++ s) = (scan v d x).bind fun r => ip4Fields f r.1 r.2 s := by
  induction x generalizing v d with
  | nil => rfl
  | cons c x ih =>
    have hc := hx c List.mem_cons_self
    simp only [isDec, decide_eq_true_eq] at hc
    simp only [List.cons_append, ip4Fields, scan, if_pos hc]
    split
    · rfl
    · split
      · rfl
      · exact ih _ _ fun c m => hx c (List.mem_cons_of_mem _ m)

theorem scan_dec : ∀ b : Fin 256, scan 0 0 (dec b.val) = some (b.val, (dec b.val).length) := by decide +kernel

theorem scan_byte (b : UInt8) : scan 0 0 (dec b.toNat) = some (b.toNat, (dec b.toNat).length) :=
  scan_dec ⟨b.toNat, b.toNat_lt⟩

theorem dec_len_pos (n : Nat) : (dec n).length ≠ 0 := by
  intro h
  exact digits_ne_nil 10 n (List.length_eq_zero_iff.1 h)

theorem ip4Fields_join (f a : Bytes) (ha : a ≠ []) (hl : f.length + a.length = 4) :
    ip4Fields f 0 0 (joinSep (go! ".") (a.map fun b => dec b.toNat)) = some (f ++ a) := by
  induction a generalizing f with
  | nil => exact absurd rfl ha
  | cons b a ih =>
    cases a with
    | nil =>
      have := ip4Fields_scan f (dec b.toNat) [] 0 0 (dec_all _)
      rw [List.append_nil] at this
      simp only [List.map_cons, List.map_nil, joinSep]
      rw [this, scan_byte]
      simp only [List.length_cons, List.length_nil] at hl
      simp only [Option.bind_some, ip4Fields]
      rw [if_neg (by omega), UInt8.ofNat_toNat]
    | cons c a =>
      simp only [List.map_cons, joinSep, List.append_assoc]
      rw [ip4Fields_scan _ _ _ _ _ (dec_all _), scan_byte]
      simp only [Option.bind_some, List.cons_append, List.nil_append, ip4Fields]
      rw [if_neg (by decide), if_pos trivial, if_neg, if_neg]
      · rw [UInt8.ofNat_toNat]
        have := ih (f ++ [b]) (by simp) (by simp only [List.length_append, List.length_cons, List.length_nil] at hl ⊢; omega)
        simp only [List.map_cons] at this
        rw [this, List.append_assoc]
        rfl
      · simp only [List.length_cons] at hl; omega
      · rintro (h | h)
        · exact dec_len_pos _ h
        · cases a with
          | nil => exact digits_ne_nil _ _ h
          | cons d a =>
            simp only [List.map_cons, joinSep, List.append_eq_nil_iff] at h
            exact digits_ne_nil _ _ h.1.1

theorem dec_step : ∀ v : Fin 26, ∀ k : Fin 10, v.val ≠ 0 → dec (v.val * 10 + k.val) = dec v.val ++ [UInt8.ofNat (0x30 + k.val)] := by
  decide +kernel

theorem dec_digit : ∀ k : Fin 10, dec k.val = [UInt8.ofNat (0x30 + k.val)] := by decide +kernel

theorem scan_append (x y : Bytes) (v d : Nat) : scan v d (x ++ y) = (scan v d x).bind fun r => scan r.1 r.2 y := by
  induction x generalizing v d with
  | nil => rfl
  | cons c x ih =>
    simp only [List.cons_append, scan]
    split
    · rfl
    · split
      · rfl
      · exact ih _ _

/-- what a complete octet is -/
theorem scan_canonical (x : Bytes) (hx : ∀ c ∈ x, isDec c = true) (v d : Nat) (h : scan 0 0 x = some (v, d)) :
    d = x.length ∧ v ≤ 255 ∧ (x = [] ∧ v = 0 ∨ x = dec v) := by
  induction hn : x.length generalizing x v d with
  | zero =>
    have := List.length_eq_zero_iff.1 hn
    subst this
    cases h
    exact ⟨rfl, by decide, .inl ⟨rfl, rfl⟩⟩
  | succ n ih =>
    have hne : x ≠ [] := by intro e; subst e; cases hn
    have hs : x = x.dropLast ++ [x.getLast hne] := (List.dropLast_concat_getLast hne).symm
    generalize x.dropLast = y at hs
    generalize x.getLast hne = c at hs
    subst hs
    rw [scan_append] at h
    cases hy : scan 0 0 y with
    | none => rw [hy] at h; cases h
    | some r =>
      obtain ⟨v', d'⟩ := r
      rw [hy] at h
      simp only [List.length_append, List.length_cons, List.length_nil] at hn
      obtain ⟨i1, i2, i3⟩ := ih y (fun c m => hx c (List.mem_append_left _ m)) v' d' hy (by omega)
      simp only [Option.bind_some, scan] at h
      split at h
      · cases h
      rename_i z
      split at h
      · cases h
      cases h
      have hc := hx c (List.mem_append_right _ List.mem_cons_self)
      simp only [isDec, decide_eq_true_eq, UInt8.le_iff_toNat_le] at hc
      have c1 : 48 ≤ c.toNat := hc.1
      have c2 : c.toNat ≤ 57 := hc.2
      have cc : UInt8.ofNat (0x30 + (c.toNat - 0x30)) = c := by
        rw [show 0x30 + (c.toNat - 0x30) = c.toNat by omega, UInt8.ofNat_toNat]
      refine ⟨by omega, by omega, .inr ?_⟩
      rcases i3 with ⟨rfl, rfl⟩ | i3
      · have := dec_digit ⟨c.toNat - 0x30, by omega⟩
        simp only [cc] at this
        rw [Nat.zero_mul, Nat.zero_add, this]; rfl
      · have v0 : v' ≠ 0 := by
          intro e
          subst e
          have : y.length = 1 := by rw [i3]; rfl
          exact z ⟨by omega, rfl⟩
        have := dec_step ⟨v', by omega⟩ ⟨c.toNat - 0x30, by omega⟩ v0
        simp only [cc] at this
        rw [this, ← i3]

theorem ip4Fields_only (s f a x : Bytes) (v d : Nat) (hx : ∀ c ∈ x, isDec c = true) (hs : scan 0 0 x = some (v, d))
    (hf : f.length ≤ 3) (hd : d = 0 → s ≠ [] ∨ f.length < 3) (h : ip4Fields f v d s = some a) :
    ∃ b, a = f ++ b ∧ f.length + b.length = 4 ∧ x ++ s = joinSep (go! ".") (b.map fun b => dec b.toNat) := by
  induction s generalizing f x v d with
  | nil =>
    simp only [ip4Fields] at h
    split at h
    · cases h
    · cases h
      obtain ⟨i1, i2, i3⟩ := scan_canonical x hx v d hs
      refine ⟨_, rfl, by simp only [List.length_cons, List.length_nil]; omega, ?_⟩
      rcases i3 with ⟨rfl, rfl⟩ | i3
      · rcases hd i1 with e | e
        · exact absurd rfl e
        · omega
      · simp only [List.append_nil, List.map_cons, List.map_nil, joinSep]
        rw [UInt8.toNat_ofNat_of_lt' (by simp only [UInt8.size]; omega)]
        exact i3
  | cons c s ih =>
    simp only [ip4Fields] at h
    split at h
    · rename_i hc
      split at h
      · cases h
      rename_i z
      split at h
      · cases h
      rename_i le
      have := ih (f := f) (x := x ++ [c]) (v := v * 10 + (c.toNat - 0x30)) (d := d + 1) ?_ ?_ hf (fun e => by omega) h
      · obtain ⟨b, b1, b2, b3⟩ := this
        exact ⟨b, b1, b2, by rw [← b3]; simp⟩
      · intro e m
        rcases List.mem_append.1 m with m | m
        · exact hx e m
        · rw [List.mem_singleton.1 m]
          simp only [isDec, decide_eq_true_eq]
          exact hc
      · rw [scan_append, hs]
        simp only [Option.bind_some, scan, if_neg z, if_neg le]
    · split at h
      · rename_i hc
        subst hc
        split at h
        · cases h
        rename_i z
        split at h
        · cases h
        rename_i l3
        obtain ⟨i1, i2, i3⟩ := scan_canonical x hx v d hs
        have := ih (f := f ++ [UInt8.ofNat v]) (x := []) (v := 0) (d := 0) (by simp) rfl
          (by simp only [List.length_append, List.length_cons, List.length_nil]; omega)
          (fun _ => .inl fun e => z (.inr e)) h
        obtain ⟨b, b1, b2, b3⟩ := this
        refine ⟨UInt8.ofNat v :: b, by rw [b1]; simp, ?_, ?_⟩
        · simp only [List.length_append, List.length_cons, List.length_nil] at b2 ⊢
          omega
        · have xv : x = dec v := by
            rcases i3 with ⟨rfl, rfl⟩ | i3
            · exact absurd (Or.inl i1) z
            · exact i3
          rw [List.nil_append] at b3
          cases b with
          | nil =>
            simp only [List.length_append, List.length_cons, List.length_nil] at b2
            omega
          | cons e b =>
            simp only [List.map_cons, joinSep] at b3 ⊢
            rw [UInt8.toNat_ofNat_of_lt' (by simp only [UInt8.size]; omega), b3, xv]
            simp
      · cases h

/-- The IPv4 addresses that are accepted are those written in the usual way. -/
theorem ip4_iff (s a : Bytes) : ip4Fields [] 0 0 s = some a ↔ a.length = 4 ∧ s = ip4Str a := by
  constructor
  · intro h
    obtain ⟨b, b1, b2, b3⟩ := ip4Fields_only s [] a [] 0 0 (by simp) rfl (by simp) (fun _ => .inr (by decide)) h
    simp only [List.nil_append] at b1 b3
    subst b1
    simp only [List.length_nil, Nat.zero_add] at b2
    exact ⟨b2, b3⟩
  · rintro ⟨h, rfl⟩
    exact ip4Fields_join [] a (by intro e; subst e; cases h) (by simpa using h)

/-! ## IPv6 -/

theorem hexDigit_lower {c : UInt8} (h : isHex c = true) : hexDigit c = some (digitVal c) := by
  have : ∀ c : Fin 256, isHex (UInt8.ofNat c.val) = true → hexDigit (UInt8.ofNat c.val) = some (digitVal (UInt8.ofNat c.val)) := by
    decide +kernel
  have := this ⟨c.toNat, c.toNat_lt⟩
  simp only [UInt8.ofNat_toNat] at this
  exact this h

theorem foldl_ge (x : Bytes) (n : Nat) : n ≤ x.foldl (fun n c => n * 16 + digitVal c) n := by
  induction x generalizing n with
  | nil => exact Nat.le_refl _
  | cons c x ih => exact Nat.le_trans (by omega) (ih (n * 16 + digitVal c))

/-- not a hexadecimal digit at the beginning -/
def NoHex (s : Bytes) : Prop := ∀ c ∈ s.head?, hexDigit c = none

theorem hexField_append (x s : Bytes) (off acc : Nat) (hx : ∀ c ∈ x, isHex c = true) (hl : off + x.length ≤ 4)
    (hv : x.foldl (fun n c => n * 16 + digitVal c) acc ≤ 65535) (hs : NoHex s) :
    hexField off acc (x ++ s) = some (off + x.length, x.foldl (fun n c => n * 16 + digitVal c) acc, s) := by
  induction x generalizing off acc with
  | nil =>
    cases s with
    | nil => rfl
    | cons c s =>
      have := hs c rfl
      simp only [List.nil_append, hexField, this, List.length_nil, Nat.add_zero, List.foldl_nil]
  | cons c x ih =>
    simp only [List.cons_append, hexField, hexDigit_lower (hx c List.mem_cons_self)]
    simp only [List.length_cons, List.foldl_cons] at hl hv ⊢
    have := foldl_ge x (acc * 16 + digitVal c)
    rw [if_neg (by omega), if_neg (by omega), ih _ _ (fun c m => hx c (List.mem_cons_of_mem _ m)) (by omega) hv]
    rw [show off + 1 + x.length = off + (x.length + 1) by omega]

theorem hexField_digits (g : Nat) (hg : g < 65536) (s : Bytes) (hs : NoHex s) :
    ∃ k, hexField 0 0 (digits 16 g ++ s) = some (k + 1, g, s) := by
  have v : (digits 16 g).foldl (fun n c => n * 16 + digitVal c) 0 = g := valOf_digits 16 g (by decide) (by decide)
  have l : (digits 16 g).length ≤ 4 := digits_length (by decide) 3 hg
  have n : (digits 16 g).length ≠ 0 := fun e => digits_ne_nil 16 g (List.length_eq_zero_iff.1 e)
  have := hexField_append (digits 16 g) s 0 0 (digits_all (by decide) isHex_digit g) (by omega) (by omega) hs
  rw [v] at this
  exact ⟨(digits 16 g).length - 1, by rw [this]; congr 2; omega⟩

/-- the bytes of groups -/
def ungroup (gs : List Nat) : Bytes := gs.flatMap fun g => [UInt8.ofNat (g / 256), UInt8.ofNat (g % 256)]

theorem ungroup_length (gs : List Nat) : (ungroup gs).length = 2 * gs.length := by
  induction gs with
  | nil => rfl
  | cons g gs ih =>
    simp only [ungroup, List.flatMap_cons, List.length_append, List.length_cons, List.length_nil] at ih ⊢
    omega

theorem ungroup_groups (a : Bytes) (h : a.length % 2 = 0) : ungroup (groups a) = a := by
  induction a using groups.induct with
  | case1 x y r ih =>
    simp only [groups, ungroup, List.flatMap_cons] at ih ⊢
    have hx := x.toNat_lt
    have hy := y.toNat_lt
    rw [show (x.toNat * 256 + y.toNat) / 256 = x.toNat by omega, show (x.toNat * 256 + y.toNat) % 256 = y.toNat by omega,
      UInt8.ofNat_toNat, UInt8.ofNat_toNat, ih (by simp only [List.length_cons] at h; omega)]
    rfl
  | case2 l hl =>
    match l, h with
    | [], _ => rfl
    | x :: y :: r, _ => exact absurd rfl (hl x y r)

theorem ungroup_zeros (n : Nat) : ungroup (List.replicate n 0) = zeros (2 * n) := by
  induction n with
  | zero => rfl
  | succ n ih =>
    rw [List.replicate_succ, show 2 * (n + 1) = 2 * n + 1 + 1 by omega]
    simp only [ungroup, List.flatMap_cons, zeros, List.replicate_succ] at ih ⊢
    rw [ih]
    rfl

theorem ungroup_append (a b : List Nat) : ungroup (a ++ b) = ungroup a ++ ungroup b := List.flatMap_append

/-- one group followed by a colon and a digit -/
theorem ip6Loop_next (n : Nat) (ip : Bytes) (e : Option Nat) (g : Nat) (hg : g < 65536) (c : UInt8) (s : Bytes) (hc : c ≠ 0x3a) :
    ip6Loop (n + 1) ip e (digits 16 g ++ 0x3a :: c :: s) = ip6Loop n (ip ++ ungroup [g]) e (c :: s) := by
  obtain ⟨k, hk⟩ := hexField_digits g hg (0x3a :: c :: s) (by intro c h; cases h; decide)
  simp only [ip6Loop, hk]
  rw [if_neg (by omega), if_neg (by simp), if_neg (by decide), if_neg hc]
  rfl

/-- the last group -/
theorem ip6Loop_last (n : Nat) (ip : Bytes) (e : Option Nat) (g : Nat) (hg : g < 65536) :
    ip6Loop (n + 1) ip e (digits 16 g) = some (ip ++ ungroup [g], e, []) := by
  obtain ⟨k, hk⟩ := hexField_digits g hg [] (by intro c h; cases h)
  rw [List.append_nil] at hk
  simp only [ip6Loop, hk]
  rw [if_neg (by omega), if_neg (by decide)]
  rfl

/-- the group before the ellipsis -/
theorem ip6Loop_ellipsis (n : Nat) (ip : Bytes) (g : Nat) (hg : g < 65536) (s : Bytes) :
    ip6Loop (n + 1) ip none (digits 16 g ++ 0x3a :: 0x3a :: s) =
      if s = [] then some (ip ++ ungroup [g], some (ip.length + 2), [])
      else ip6Loop n (ip ++ ungroup [g]) (some (ip.length + 2)) s := by
  obtain ⟨k, hk⟩ := hexField_digits g hg (0x3a :: 0x3a :: s) (by intro c h; cases h; decide)
  simp only [ip6Loop, hk]
  rw [if_neg (by omega), if_neg (by simp), if_neg (by decide), if_pos trivial, if_neg (by decide)]
  simp only [List.length_append, List.length_cons, List.length_nil]
  rfl

theorem hex_head (g : Nat) (s : Bytes) : ∃ c r, digits 16 g ++ s = c :: r ∧ c ≠ 0x3a ∧ isHex c = true := by
  cases h : digits 16 g with
  | nil => exact absurd h (digits_ne_nil 16 g)
  | cons c r =>
    have := digits_all (by decide) isHex_digit g c (by rw [h]; exact List.mem_cons_self)
    exact ⟨c, r ++ s, rfl, fun e => by (subst e; cases this), this⟩

theorem join_head (g : Nat) (gs : List Nat) (s : Bytes) :
    ∃ c r, joinSep (go! ":") ((g :: gs).map (digits 16)) ++ s = c :: r ∧ c ≠ 0x3a ∧ isHex c = true := by
  cases gs with
  | nil => exact hex_head g s
  | cons h gs =>
    simp only [List.map_cons, joinSep, List.append_assoc]
    exact hex_head g _

theorem ip6Loop_join (gs : List Nat) (n : Nat) (ip : Bytes) (e : Option Nat) (h0 : gs ≠ []) (hn : gs.length ≤ n)
    (hg : ∀ g ∈ gs, g < 65536) :
    ip6Loop n ip e (joinSep (go! ":") (gs.map (digits 16))) = some (ip ++ ungroup gs, e, []) := by
  induction gs generalizing n ip with
  | nil => exact absurd rfl h0
  | cons g gs ih =>
    cases n with
    | zero => simp at hn
    | succ n =>
      cases gs with
      | nil => exact ip6Loop_last n ip e g (hg g List.mem_cons_self)
      | cons h gs =>
        obtain ⟨c, r, hj, hc, _⟩ := join_head h gs []
        rw [List.append_nil] at hj
        have := ih n (ip ++ ungroup [g]) (by simp) (by simpa using hn) fun x m => hg x (List.mem_cons_of_mem _ m)
        rw [List.map_cons, List.map_cons, joinSep, ← List.map_cons, hj] 
        rw [hj] at this
        simp only [List.append_assoc, List.cons_append, List.nil_append]
        rw [ip6Loop_next n ip e g (hg g List.mem_cons_self) c r hc, this, List.append_assoc, ← ungroup_append]
        rfl

theorem ip6Loop_front (gs : List Nat) (n : Nat) (ip s : Bytes) (h0 : gs ≠ []) (hn : gs.length ≤ n)
    (hg : ∀ g ∈ gs, g < 65536) :
    ip6Loop n ip none (joinSep (go! ":") (gs.map (digits 16)) ++ 0x3a :: 0x3a :: s) =
      if s = [] then some (ip ++ ungroup gs, some (ip.length + 2 * gs.length), [])
      else ip6Loop (n - gs.length) (ip ++ ungroup gs) (some (ip.length + 2 * gs.length)) s := by
  induction gs generalizing n ip with
  | nil => exact absurd rfl h0
  | cons g gs ih =>
    cases n with
    | zero => simp at hn
    | succ n =>
      cases gs with
      | nil => exact ip6Loop_ellipsis n ip g (hg g List.mem_cons_self) s
      | cons h gs =>
        obtain ⟨c, r, hj, hc, _⟩ := join_head h gs (0x3a :: 0x3a :: s)
        have := ih n (ip ++ ungroup [g]) (by simp) (by simpa using hn) fun x m => hg x (List.mem_cons_of_mem _ m)
        rw [hj] at this
        rw [List.map_cons, List.map_cons, joinSep, ← List.map_cons, List.append_assoc, List.append_assoc, hj]
        simp only [List.cons_append, List.nil_append]
        rw [ip6Loop_next n ip none g (hg g List.mem_cons_self) c r hc, this, List.append_assoc, ← ungroup_append]
        simp only [List.length_append, ungroup_length, List.length_cons, List.length_nil, List.cons_append, List.nil_append]
        rw [show ip.length + 2 * (0 + 1) + 2 * (gs.length + 1) = ip.length + 2 * (gs.length + 1 + 1) by omega,
          show n - (gs.length + 1) = n + 1 - (gs.length + 1 + 1) by omega]

theorem ip6Parse_front {s : Bytes} (h : ∀ r, s ≠ 0x3a :: 0x3a :: r) : ip6Parse s = (ip6Loop 8 [] none s).bind ip6Expand := by
  unfold ip6Parse
  split
  · rename_i r
    exact absurd rfl (h r)
  · rfl

theorem ip6Parse_str (gs : List Nat) (h8 : gs.length = 8) (hg : ∀ g ∈ gs, g < 65536) :
    ip6Parse (ip6Str gs) = some (ungroup gs) := by
  have hgood := bestRun_good gs [] gs rfl (0, 0) ⟨Nat.zero_le _, rfl⟩
  simp only [List.length_nil] at hgood
  unfold ip6Str
  generalize hr : bestRun 0 gs (0, 0) = run at hgood
  obtain ⟨st, l⟩ := run
  have hs := run_split hgood
  simp only at hs ⊢
  by_cases hl : l = 0
  · simp only [hl, if_true]
    have hne : gs ≠ [] := by intro e; subst e; cases h8
    rw [ip6Parse_front, ip6Loop_join gs 8 [] none hne (by omega) hg]
    · simp [ip6Expand, ungroup_length, h8]
    · intro r e
      cases gs with
      | nil => exact hne rfl
      | cons g gs =>
        obtain ⟨c, r', hj, hc, _⟩ := join_head g gs []
        rw [List.append_nil, e] at hj
        cases hj
        exact hc rfl
  · simp only [hl, if_false]
    have hA : (gs.map (digits 16)).take st = (gs.take st).map (digits 16) := by rw [List.map_take]
    have hB : (gs.map (digits 16)).drop (st + l) = (gs.drop (st + l)).map (digits 16) := by rw [List.map_drop]
    rw [hA, hB]
    have hlen : (gs.take st).length + l + (gs.drop (st + l)).length = 8 := by
      have := congrArg List.length hs
      simp only [List.length_append, List.length_replicate] at this
      omega
    have gA : ∀ g ∈ gs.take st, g < 65536 := fun g m => hg g (List.mem_of_mem_take m)
    have gB : ∀ g ∈ gs.drop (st + l), g < 65536 := fun g m => hg g (List.mem_of_mem_drop m)
    generalize gs.take st = A at hs hlen gA
    generalize gs.drop (st + l) = B at hs hlen gB
    subst hs
    simp only [ungroup_append, ungroup_zeros]
    have lA := ungroup_length A
    have lB := ungroup_length B
    have hj0 : B ≠ [] → joinSep (go! ":") (B.map (digits 16)) ≠ [] := by
      intro hb
      cases B with
      | nil => exact absurd rfl hb
      | cons b B =>
        obtain ⟨c, r, hj, _⟩ := join_head b B []
        rw [List.append_nil] at hj
        rw [hj]; simp
    by_cases ha : A = []
    · subst ha
      simp only [List.map_nil, joinSep, List.nil_append, List.cons_append, ip6Parse]
      by_cases hb : B = []
      · subst hb
        simp only [List.map_nil, joinSep, if_true]
        simp only [List.length_nil] at hlen
        rw [show l = 8 by omega]; rfl
      · rw [if_neg (hj0 hb), ip6Loop_join B 8 [] (some 0) hb (by omega) gB]
        simp only [List.length_nil] at hlen
        simp only [List.nil_append, Option.bind_some, ip6Expand, lB]
        rw [if_neg (by simp), if_pos (by omega), show 16 - 2 * B.length = 2 * l by omega]
        rfl
    · rw [List.append_assoc, ip6Parse_front]
      · simp only [List.cons_append, List.nil_append]
        rw [ip6Loop_front A 8 [] _ ha (by omega) gA]
        by_cases hb : B = []
        · subst hb
          simp only [List.length_nil] at hlen
          simp only [List.map_nil, joinSep, if_true, List.nil_append, Option.bind_some, ip6Expand, lA, List.length_nil,
            Nat.zero_add]
          rw [if_neg (by simp), if_pos (by omega), show 16 - 2 * A.length = 2 * l by omega, ← lA, List.take_length,
            List.drop_length]
          rfl
        · rw [if_neg (hj0 hb), ip6Loop_join B _ _ _ hb (by omega) gB]
          simp only [List.nil_append, Option.bind_some, ip6Expand, List.length_append, lA, lB, List.length_nil, Nat.zero_add]
          rw [if_neg (by simp), if_pos (by omega), show 16 - (2 * A.length + 2 * B.length) = 2 * l by omega, ← lA,
            List.take_left, List.drop_left]
      · intro r e
        cases A with
        | nil => exact ha rfl
        | cons g A =>
          obtain ⟨c, r', hj, hc, _⟩ := join_head g A ((go! "::") ++ joinSep (go! ":") (B.map (digits 16)))
          rw [e] at hj
          cases hj
          exact hc rfl

theorem ip4Str_shape (a : Bytes) (h : a.length = 4) : ∃ x r, ip4Str a = x ++ 0x2e :: r ∧ x ≠ [] ∧ (∀ c ∈ x, isDec c = true) ∧
    x.length ≤ 3 ∧ valOf 10 x ≤ 255 := by
  match a, h with
  | b :: c :: a, _ =>
    refine ⟨dec b.toNat, joinSep (go! ".") ((c :: a).map fun b => dec b.toNat), ?_, digits_ne_nil _ _, dec_all _,
      digits_length (by decide) 2 (Nat.lt_trans b.toNat_lt (by decide)), ?_⟩
    · simp only [ip4Str, List.map_cons, joinSep, List.append_assoc, List.cons_append, List.nil_append]
    · have := valOf_digits 10 b.toNat (by decide) (by decide)
      have hb := b.toNat_lt
      show valOf 10 (digits 10 b.toNat) ≤ 255
      omega

theorem ipStr_four {a : Bytes} (h : a.length = 4) : ipStr a = ip4Str a := by
  unfold ipStr
  rw [if_neg (by intro e; subst e; cases h), if_neg (by omega)]
  simp [to4, h]

theorem ipStr_six {a : Bytes} (h : a.length = 16) (hn : to4 a = none) : ipStr a = ip6Str (groups a) := by
  unfold ipStr
  rw [if_neg (by intro e; subst e; cases h), if_neg (by omega), hn]

theorem hex_small (x : Bytes) (hx : ∀ c ∈ x, isDec c = true) (hl : x.length ≤ 3) :
    x.foldl (fun n c => n * 16 + digitVal c) 0 ≤ 65535 := by
  have d : ∀ c, isDec c = true → digitVal c ≤ 9 := by
    intro c h
    simp only [isDec, decide_eq_true_eq, UInt8.le_iff_toNat_le] at h
    have c2 : c.toNat ≤ 57 := h.2
    simp only [digitVal]
    rw [if_pos (by rw [UInt8.lt_iff_toNat_lt]; show c.toNat < 58; omega)]
    omega
  match x, hl with
  | [], _ => simp
  | [a], _ =>
    have := d a (hx a (by simp))
    simp only [List.foldl_cons, List.foldl_nil]; omega
  | [a, b], _ =>
    have := d a (hx a (by simp)); have := d b (hx b (by simp))
    simp only [List.foldl_cons, List.foldl_nil]; omega
  | [a, b, c], _ =>
    have := d a (hx a (by simp)); have := d b (hx b (by simp)); have := d c (hx c (by simp))
    simp only [List.foldl_cons, List.foldl_nil]; omega

theorem ip4Fields_length {s a : Bytes} (h : ip4Fields [] 0 0 s = some a) : a.length = 4 := ((ip4_iff s a).1 h).1

theorem ip6Loop_length (n : Nat) (ip s : Bytes) (e : Option Nat) (hi : ip.length + 2 * n ≤ 16) (r : Bytes × Option Nat × Bytes)
    (h : ip6Loop n ip e s = some r) : r.1.length ≤ 16 := by
  induction n generalizing ip s e with
  | zero => cases h; simpa using hi
  | succ n ih =>
    simp only [ip6Loop] at h
    have hn : ∀ a b : UInt8, (ip ++ [a, b]).length + 2 * n ≤ 16 := by
      intro a b
      simp only [List.length_append, List.length_cons, List.length_nil]
      omega
    split at h
    · cases h
    split at h
    · cases h
    split at h
    · split at h
      · cases h
      split at h
      · cases h
      split at h
      · cases h
      · rename_i f hf
        cases h
        have := ip4Fields_length hf
        simp only [List.length_append]
        omega
    · split at h
      · cases h
        exact Nat.le_trans (Nat.le_add_right _ _) (hn _ _)
      · split at h
        · cases h
        split at h
        · cases h
        split at h
        · split at h
          · cases h
          split at h
          · cases h
            exact Nat.le_trans (Nat.le_add_right _ _) (hn _ _)
          · exact ih _ _ _ (hn _ _) h
        · exact ih _ _ _ (hn _ _) h

end SMC.Socket
