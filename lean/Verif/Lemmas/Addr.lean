import Verif.Lemmas.Digits
/-!
# Addresses as text: nothing is lost
-/

namespace SMC

/-! ## Splitting at colons -/

/-- the parts of a text between colons -/
def pieces : Bytes → List Bytes
  | [] => [[]]
  | c :: r =>
    if c = 58 then [] :: pieces r
    else match pieces r with
      | p :: ps => (c :: p) :: ps
      | [] => [[c]]

theorem pieces_sep {x : Bytes} (h : 58 ∉ x) (r : Bytes) : pieces (x ++ 58 :: r) = x :: pieces r := by
  induction x with
  | nil => simp [pieces]
  | cons c x ih =>
    simp only [List.mem_cons, not_or] at h
    simp [pieces, Ne.symm h.1, ih h.2]

theorem pieces_self {x : Bytes} (h : 58 ∉ x) : pieces x = [x] := by
  induction x with
  | nil => rfl
  | cons c x ih =>
    simp only [List.mem_cons, not_or] at h
    simp [pieces, Ne.symm h.1, ih h.2]

theorem pieces_join_sep {l : List Bytes} (hl : l ≠ []) (h : ∀ x ∈ l, 58 ∉ x) (r : Bytes) :
    pieces (joinSep (go! ":") l ++ 58 :: r) = l ++ pieces r := by
  induction l with
  | nil => exact absurd rfl hl
  | cons x l ih =>
    cases l with
    | nil => simp [joinSep, pieces_sep (h x (by simp))]
    | cons y l =>
      simp only [joinSep, List.append_assoc, List.cons_append, List.nil_append]
      rw [pieces_sep (h x (by simp)), ih (by simp) (fun z hz => h z (by simp [hz]))]
      rfl

theorem pieces_join {l : List Bytes} (hl : l ≠ []) (h : ∀ x ∈ l, 58 ∉ x) : pieces (joinSep (go! ":") l) = l := by
  induction l with
  | nil => exact absurd rfl hl
  | cons x l ih =>
    cases l with
    | nil => simp [joinSep, pieces_self (h x (by simp))]
    | cons y l =>
      simp only [joinSep, List.append_assoc, List.cons_append, List.nil_append]
      rw [pieces_sep (h x (by simp)), ih (by simp) (fun z hz => h z (by simp [hz]))]

theorem joinSep_all {p : UInt8 → Bool} {sep : Bytes} (hs : ∀ c ∈ sep, p c = true) (l : List Bytes)
    (h : ∀ x ∈ l, ∀ c ∈ x, p c = true) : ∀ c ∈ joinSep sep l, p c = true := by
  induction l with
  | nil => simp [joinSep]
  | cons x l ih =>
    cases l with
    | nil => simpa [joinSep] using h x (by simp)
    | cons y l =>
      intro c hc
      simp only [joinSep, List.mem_append] at hc
      rcases hc with (hc | hc) | hc
      · exact h x (by simp) c hc
      · exact hs c hc
      · exact ih (fun z hz => h z (by simp [hz])) c hc

/-! ## net.HardwareAddr -/

theorem macStr_inj {a b : Bytes} (h : macStr a = macStr b) : a = b := by
  have col : ∀ a : Bytes, ∀ x ∈ a.map hex2, 58 ∉ x := by
    intro a x hx
    obtain ⟨y, _, rfl⟩ := List.mem_map.1 hx
    exact not_mem_of_all (hex2_all y) rfl
  have ne : ∀ x (a : Bytes), macStr (x :: a) ≠ [] := by
    intro x a
    cases a <;> simp [macStr, joinSep, hex2]
  have main : a.map hex2 = b.map hex2 := by
    cases a with
    | nil =>
      cases b with
      | nil => rfl
      | cons y b => exact absurd h.symm (ne y b)
    | cons x a =>
      cases b with
      | nil => exact absurd h (ne x a)
      | cons y b =>
        rw [← pieces_join (by simp) (col (x :: a)), ← pieces_join (by simp) (col (y :: b))]
        exact congrArg pieces h
  exact (List.map_inj_right fun _ _ => hex2_inj).1 main

/-- characters of addresses -/
def isAddr (c : UInt8) : Bool := isHex c || c == 58 || c == 46 || c == 60 || c == 62 || c == 63 || c == 110 || c == 105 || c == 108

theorem isAddr_hex {c : UInt8} (h : isHex c = true) : isAddr c = true := by simp [isAddr, h]
theorem isHex_dec {c : UInt8} (h : isDec c = true) : isHex c = true := by simp [isHex, h]

theorem macStr_all (a : Bytes) : ∀ c ∈ macStr a, isAddr c = true := by
  refine joinSep_all (by decide) _ ?_
  intro x hx c hc
  obtain ⟨y, _, rfl⟩ := List.mem_map.1 hx
  exact isAddr_hex (hex2_all y c hc)

/-! ## net.IP -/

theorem zeroRun_le (gs : List Nat) : zeroRun gs ≤ gs.length := by
  induction gs with
  | nil => simp [zeroRun]
  | cons g gs ih => cases g with
    | zero => simpa [zeroRun] using ih
    | succ n => simp [zeroRun]

theorem take_zeroRun (gs : List Nat) : gs.take (zeroRun gs) = List.replicate (zeroRun gs) 0 := by
  induction gs with
  | nil => simp [zeroRun]
  | cons g gs ih => cases g with
    | zero => simp [zeroRun, List.replicate_succ, ih]
    | succ n => simp [zeroRun]

/-- a run of zeros inside the list -/
def GoodRun (full : List Nat) (b : Nat × Nat) : Prop :=
  b.1 + b.2 ≤ full.length ∧ (full.drop b.1).take b.2 = List.replicate b.2 0

theorem bestRun_good (full pre gs : List Nat) (h : full = pre ++ gs) (best : Nat × Nat) (hb : GoodRun full best) :
    GoodRun full (bestRun pre.length gs best) := by
  induction gs generalizing pre best with
  | nil => exact hb
  | cons g gs ih =>
    simp only [bestRun]
    have := ih (pre ++ [g]) (by simp [h]) (if zeroRun (g :: gs) ≥ 2 ∧ zeroRun (g :: gs) > best.2
      then (pre.length, zeroRun (g :: gs)) else best) ?_
    · simpa using this
    · split
      · refine ⟨?_, ?_⟩
        · have := zeroRun_le (g :: gs)
          simp only [h, List.length_append]; omega
        · simp only [h, List.drop_left]
          exact take_zeroRun (g :: gs)
      · exact hb

theorem run_split {gs : List Nat} {b : Nat × Nat} (h : GoodRun gs b) :
    gs = gs.take b.1 ++ List.replicate b.2 0 ++ gs.drop (b.1 + b.2) := by
  rw [← h.2, List.append_assoc, ← List.drop_drop, List.take_append_drop, List.take_append_drop]

/-- the groups of an IPv6 address text -/
def readIP6 (s : Bytes) : List Nat :=
  let ps := pieces s
  if [] ∈ ps then
    let front := ps.takeWhile (fun p => !p.isEmpty)
    let back := (ps.reverse.takeWhile (fun p => !p.isEmpty)).reverse
    front.map (valOf 16) ++ List.replicate (8 - front.length - back.length) 0 ++ back.map (valOf 16)
  else ps.map (valOf 16)

theorem takeWhile_stop {α : Type} (p : α → Bool) (a : List α) (x : α) (r : List α) (ha : ∀ y ∈ a, p y = true)
    (hx : p x = false) : (a ++ x :: r).takeWhile p = a := by
  induction a with
  | nil => simp [hx]
  | cons y a ih => simp [ha y (by simp), ih fun z hz => ha z (by simp [hz])]

theorem ip6Str_read (gs : List Nat) (h8 : gs.length = 8) : readIP6 (ip6Str gs) = gs := by
  have hg := bestRun_good gs [] gs rfl (0, 0) ⟨Nat.zero_le _, rfl⟩
  simp only [List.length_nil] at hg
  have hcol : ∀ l : List Nat, ∀ x ∈ l.map (digits 16), 58 ∉ x := by
    intro l x hx
    obtain ⟨n, _, rfl⟩ := List.mem_map.1 hx
    exact not_mem_of_all (digits_all (by decide) isHex_digit n) rfl
  have hne : ∀ l : List Nat, ∀ x ∈ l.map (digits 16), (!x.isEmpty) = true := by
    intro l x hx
    obtain ⟨n, _, rfl⟩ := List.mem_map.1 hx
    have := digits_ne_nil 16 n
    cases h : digits 16 n <;> simp_all
  have hval : ∀ l : List Nat, (l.map (digits 16)).map (valOf 16) = l := by
    intro l
    rw [List.map_map]
    conv => rhs; rw [← List.map_id l]
    exact List.map_congr_left fun n _ => valOf_digits 16 n (by decide) (by decide)
  have hnil : ∀ l : List Nat, ([] : Bytes) ∉ l.map (digits 16) := by
    intro l hx
    have := hne l [] hx
    simp at this
  unfold ip6Str
  generalize hr : bestRun 0 gs (0, 0) = run at hg
  obtain ⟨st, l⟩ := run
  have hs := run_split hg
  simp only at hs ⊢
  by_cases hl : l = 0
  · simp only [hl, if_true]
    have hp := pieces_join (l := gs.map (digits 16)) (by intro h; simp at h; simp [h] at h8) (hcol gs)
    simp only [readIP6, hp, hnil gs, if_false, hval]
  · simp only [hl, if_false]
    have hA : (gs.map (digits 16)).take st = (gs.take st).map (digits 16) := by rw [List.map_take]
    have hB : (gs.map (digits 16)).drop (st + l) = (gs.drop (st + l)).map (digits 16) := by rw [List.map_drop]
    rw [hA, hB]
    have hlen : (gs.take st).length + l + (gs.drop (st + l)).length = 8 := by
      have := congrArg List.length hs
      simp only [List.length_append, List.length_replicate] at this
      omega
    generalize gs.take st = A at hs hlen
    generalize gs.drop (st + l) = B at hs hlen
    have hfin : (A.map (digits 16)).map (valOf 16)
        ++ List.replicate (8 - (A.map (digits 16)).length - (B.map (digits 16)).length) 0
        ++ (B.map (digits 16)).map (valOf 16) = gs := by
      rw [hval, hval, List.length_map, List.length_map, show 8 - A.length - B.length = l by omega]
      exact hs.symm
    rw [← hfin]
    have key : ∃ A' B', pieces (joinSep (go! ":") (A.map (digits 16)) ++ (go! "::") ++ joinSep (go! ":") (B.map (digits 16)))
        = A.map (digits 16) ++ [] :: A' ∧
        pieces (joinSep (go! ":") (A.map (digits 16)) ++ (go! "::") ++ joinSep (go! ":") (B.map (digits 16)))
        = B' ++ [] :: B.map (digits 16) := by
      rw [List.append_assoc]
      by_cases ha : A = []
      · subst ha
        by_cases hb : B = []
        · subst hb
          exact ⟨[[], []], [[], []], rfl, rfl⟩
        · refine ⟨[] :: B.map (digits 16), [[]], ?_, ?_⟩ <;>
          simp [joinSep, pieces, pieces_join (l := B.map (digits 16)) (by simpa using hb) (hcol B)]
      · have hp := pieces_join_sep (l := A.map (digits 16)) (by simpa using ha) (hcol A)
          (58 :: joinSep (go! ":") (B.map (digits 16)))
        simp only [List.cons_append, List.nil_append]
        rw [hp]
        by_cases hb : B = []
        · subst hb
          refine ⟨[[]], A.map (digits 16) ++ [[]], ?_, ?_⟩ <;> simp [joinSep, pieces]
        · refine ⟨B.map (digits 16), A.map (digits 16), ?_, ?_⟩ <;>
          simp [pieces, pieces_join (l := B.map (digits 16)) (by simpa using hb) (hcol B)]
    obtain ⟨A', B', h1, h2⟩ := key
    have hf := takeWhile_stop (fun p : Bytes => !p.isEmpty) _ [] A' (hne A) rfl
    have hbk := takeWhile_stop (fun p : Bytes => !p.isEmpty) (B.map (digits 16)).reverse [] B'.reverse
      (fun y hy => hne B y (List.mem_reverse.1 hy)) rfl
    have hmem : ([] : Bytes) ∈ A.map (digits 16) ++ [] :: A' := by simp
    unfold readIP6
    simp only
    rw [if_pos (by rw [h1]; exact hmem)]
    congr 1
    · congr 1
      · rw [h1, hf]
      · congr 2
        · rw [h1, hf]
        · rw [h2, List.reverse_append, List.reverse_cons, List.append_assoc, List.singleton_append, hbk,
            List.reverse_reverse]
    · rw [h2, List.reverse_append, List.reverse_cons, List.append_assoc, List.singleton_append, hbk,
        List.reverse_reverse]

theorem ip6Str_inj {a b : List Nat} (ha : a.length = 8) (hb : b.length = 8) (h : ip6Str a = ip6Str b) : a = b := by
  rw [← ip6Str_read a ha, h, ip6Str_read b hb]

theorem ip6Str_colon (gs : List Nat) (h8 : gs.length = 8) : 58 ∈ ip6Str gs := by
  unfold ip6Str
  generalize bestRun 0 gs (0, 0) = run
  obtain ⟨st, l⟩ := run
  simp only
  split
  · match gs, h8 with
    | a :: b :: r, _ => simp [joinSep]
  · simp

theorem ip6Str_all (gs : List Nat) : ∀ c ∈ ip6Str gs, isAddr c = true := by
  have hd : ∀ l : List Nat, ∀ x ∈ l.map (digits 16), ∀ c ∈ x, isAddr c = true := by
    intro l x hx c hc
    obtain ⟨n, _, rfl⟩ := List.mem_map.1 hx
    exact isAddr_hex (digits_all (by decide) isHex_digit n c hc)
  unfold ip6Str
  generalize bestRun 0 gs (0, 0) = run
  obtain ⟨st, l⟩ := run
  simp only
  split
  · exact joinSep_all (by decide) _ (hd gs)
  · intro c hc
    simp only [List.mem_append] at hc
    rcases hc with (hc | hc) | hc
    · exact joinSep_all (by decide) _ (fun x hx => hd gs x (List.mem_of_mem_take hx)) c hc
    · revert c; decide
    · exact joinSep_all (by decide) _ (fun x hx => hd gs x (List.mem_of_mem_drop hx)) c hc

theorem groups_inj {a b : Bytes} (ha : a.length % 2 = 0) (hb : b.length % 2 = 0) (h : groups a = groups b) : a = b := by
  induction a using groups.induct generalizing b with
  | case1 x y r ih =>
    match b, hb with
    | [], _ => simp [groups] at h
    | u :: v :: w, hb =>
      simp only [groups, List.cons.injEq] at h
      have := x.toNat_lt; have := y.toNat_lt; have := u.toNat_lt; have := v.toNat_lt
      have h1 : x = u := UInt8.toNat_inj.1 (by omega)
      have h2 : y = v := UInt8.toNat_inj.1 (by omega)
      rw [h1, h2, ih (by simp at ha; omega) (by simp at hb; omega) h.2]
  | case2 l hl =>
    match l, ha with
    | [], _ =>
      match b, hb with
      | [], _ => rfl
      | u :: v :: w, _ => simp [groups] at h
    | x :: y :: r, _ => exact absurd rfl (hl x y r)

theorem groups_length (a : Bytes) : (groups a).length = a.length / 2 := by
  induction a using groups.induct with
  | case1 x y r ih => simp [groups, ih]; omega
  | case2 l hl =>
    match l with
    | [] => rfl
    | [x] => simp [groups]
    | x :: y :: r => exact absurd rfl (hl x y r)

theorem joinDot_inj {a b : List Bytes} (ha : ∀ x ∈ a, 46 ∉ x) (hb : ∀ x ∈ b, 46 ∉ x) (hl : a.length = b.length)
    (h : joinSep (go! ".") a = joinSep (go! ".") b) : a = b := by
  induction a generalizing b with
  | nil =>
    match b, hl with
    | [], _ => rfl
  | cons x a ih =>
    match b, hl with
    | y :: b, hl =>
      cases a with
      | nil =>
        match b, hl with
        | [], _ => simpa [joinSep] using h
      | cons x' a =>
        match b, hl with
        | y' :: b, hl =>
          simp only [joinSep, List.append_assoc, List.cons_append, List.nil_append] at h
          obtain ⟨h1, h2⟩ := (append_sep (ha x (by simp)) (hb y (by simp))).1 h
          rw [h1, ih (fun z hz => ha z (by simp [hz])) (fun z hz => hb z (by simp [hz]))
            (by simpa using hl) h2]

theorem ip4Str_inj {a b : Bytes} (hl : a.length = b.length) (h : ip4Str a = ip4Str b) : a = b := by
  have hd : ∀ l : Bytes, ∀ x ∈ l.map (fun b => dec b.toNat), 46 ∉ x := by
    intro l x hx
    obtain ⟨n, _, rfl⟩ := List.mem_map.1 hx
    exact not_mem_of_all (dec_all _) rfl
  have := joinDot_inj (hd a) (hd b) (by simpa using hl) h
  exact (List.map_inj_right fun x y hxy => UInt8.toNat_inj.1 (dec_inj hxy)).1 this

/-- digits and dots -/
def isDot (c : UInt8) : Bool := isDec c || c == 46

theorem ip4Str_all (a : Bytes) : ∀ c ∈ ip4Str a, isDot c = true := by
  refine joinSep_all (by decide) _ ?_
  intro x hx c hc
  obtain ⟨n, _, rfl⟩ := List.mem_map.1 hx
  simp [isDot, dec_all _ c hc]

theorem to4_16 {a p : Bytes} (ha : a.length = 16) (h : to4 a = some p) : a = zeros 10 ++ [255, 255] ++ p := by
  simp only [to4, ha, show (16 : Nat) ≠ 4 by decide, if_false, true_and] at h
  split at h
  · cases h
    rename_i hh
    rw [← hh.1, ← hh.2, List.append_assoc]
    conv => lhs; rw [← List.take_append_drop 10 a]
    congr 1
    conv => lhs; rw [← List.take_append_drop 2 (a.drop 10), List.drop_drop]
  · cases h

theorem ip4Str_ne (p : Bytes) (hp : p.length = 4) : ∃ c r, ip4Str p = c :: r ∧ isDec c = true := by
  match p, hp with
  | [a, b, c, d], _ =>
    have h1 := digits_ne_nil 10 a.toNat
    have h2 := dec_all a.toNat
    simp only [ip4Str, List.map, joinSep]
    unfold dec at h2 ⊢
    generalize digits 10 a.toNat = x at h1 h2 ⊢
    match x, h1 with
    | c :: r, _ => exact ⟨c, _, rfl, h2 c (by simp)⟩

/-- `net.IP.String` shows every byte of a sixteen byte address; four byte ones are shown
like the IPv4-mapped addresses and are excluded -/
theorem ipStr_inj {a b : Bytes} (ha : a.length ≠ 4) (hb : b.length ≠ 4) (h : ipStr a = ipStr b) : a = b := by
  -- first character of each form
  have form : ∀ a : Bytes, a.length ≠ 4 →
      (a = [] ∧ ipStr a = go! "<nil>") ∨ (ipStr a = 63 :: a.flatMap hex2) ∨
      (a.length = 16 ∧ ∃ p, p.length = 4 ∧ a = zeros 10 ++ [255, 255] ++ p ∧ ipStr a = ip4Str p) ∨
      (a.length = 16 ∧ ipStr a = ip6Str (groups a)) := by
    intro a ha
    unfold ipStr
    by_cases h0 : a = []
    · exact .inl ⟨h0, by simp [h0]⟩
    · simp only [h0, if_false, false_and, false_or]
      by_cases h16 : a.length = 16
      · simp only [h16, show (16 : Nat) ≠ 4 by decide, ne_eq, not_true_eq_false, and_false, if_false, true_and]
        right
        cases h4 : to4 a with
        | none => exact .inr rfl
        | some p =>
          have := to4_16 h16 h4
          refine .inl ⟨p, ?_, this, rfl⟩
          have := congrArg List.length this
          simp only [List.length_append, zeros, List.length_replicate, List.length_cons, List.length_nil] at this
          omega
      · left
        simp [ha, h16]
  have hex_hd : ∀ (gs : List Nat), gs.length = 8 → ∀ c r, ip6Str gs = c :: r → isHex c = true ∨ c = 58 := by
    intro gs hgs c r hcr
    unfold ip6Str at hcr
    generalize bestRun 0 gs (0, 0) = run at hcr
    obtain ⟨st, l⟩ := run
    simp only at hcr
    have hj : ∀ (l : List Nat) (s : Bytes), l ≠ [] → joinSep (go! ":") (l.map (digits 16)) ++ s = c :: r → isHex c = true := by
      intro l s hl hc
      match l, hl with
      | n :: l, _ =>
        have h1 := digits_ne_nil 16 n
        have h2 : ∀ c ∈ digits 16 n, isHex c = true := digits_all (by decide) isHex_digit n
        cases l with
        | nil =>
          simp only [List.map, joinSep] at hc
          generalize digits 16 n = x at h1 h2 hc
          match x, h1 with
          | d :: r', _ => simp at hc; exact hc.1 ▸ h2 d (by simp)
        | cons m l =>
          simp only [List.map, joinSep] at hc
          generalize digits 16 n = x at h1 h2 hc
          match x, h1 with
          | d :: r', _ => simp at hc; exact hc.1 ▸ h2 d (by simp)
    split at hcr
    · exact .inl (hj gs [] (by intro h; simp [h] at hgs) (by simpa using hcr))
    · rw [← List.map_take] at hcr
      by_cases ht : gs.take st = []
      · simp [ht, joinSep] at hcr
        exact .inr hcr.1.symm
      · rw [List.append_assoc] at hcr
        exact .inl (hj _ _ ht hcr)
  have col4 : ∀ p : Bytes, 58 ∉ ip4Str p := fun p => not_mem_of_all (ip4Str_all p) rfl
  have g8 : ∀ a : Bytes, a.length = 16 → (groups a).length = 8 := fun a ha => by rw [groups_length, ha]
  rcases form a ha with ⟨ra, ea⟩ | ea | ⟨la, p, lp, ra, ea⟩ | ⟨la, ea⟩ <;>
  rcases form b hb with ⟨rb, eb⟩ | eb | ⟨lb, q, lq, rb, eb⟩ | ⟨lb, eb⟩ <;> rw [ea, eb] at h
  · rw [ra, rb]
  · simp at h
  · obtain ⟨c, r, hc, hd⟩ := ip4Str_ne q lq
    rw [hc] at h
    cases h; cases hd
  · rcases hex_hd _ (g8 b lb) _ _ h.symm with hh | hh <;> exact absurd hh (by decide)
  · simp at h
  · simp only [List.cons.injEq, true_and] at h
    exact flatMap_hex2_inj h
  · obtain ⟨c, r, hc, hd⟩ := ip4Str_ne q lq
    rw [hc] at h
    simp only [List.cons.injEq] at h
    rw [← h.1] at hd; cases hd
  · rcases hex_hd _ (g8 b lb) _ _ h.symm with hh | hh <;> exact absurd hh (by decide)
  · obtain ⟨c, r, hc, hd⟩ := ip4Str_ne p lp
    rw [hc] at h
    simp only [List.cons.injEq] at h
    rw [h.1] at hd; cases hd
  · obtain ⟨c, r, hc, hd⟩ := ip4Str_ne p lp
    rw [hc] at h
    simp only [List.cons.injEq] at h
    rw [h.1] at hd; cases hd
  · rw [ra, rb, ip4Str_inj (by rw [lp, lq]) h]
  · exact absurd (h ▸ ip6Str_colon _ (g8 b lb)) (col4 p)
  · rcases hex_hd _ (g8 a la) _ _ h with hh | hh <;> exact absurd hh (by decide)
  · rcases hex_hd _ (g8 a la) _ _ h with hh | hh <;> exact absurd hh (by decide)
  · exact absurd (h.symm ▸ ip6Str_colon _ (g8 a la)) (col4 q)
  · exact groups_inj (by rw [la]) (by rw [lb]) (ip6Str_inj (g8 a la) (g8 b lb) h)

theorem ipStr_all (a : Bytes) : ∀ c ∈ ipStr a, isAddr c = true := by
  unfold ipStr
  split
  · decide
  · split
    · intro c hc
      simp only [List.cons_append, List.nil_append, List.mem_cons] at hc
      rcases hc with rfl | hc
      · rfl
      · exact isAddr_hex (flatMap_hex2_all a c hc)
    · cases to4 a with
      | none => exact ip6Str_all _
      | some p =>
        intro c hc
        have := ip4Str_all p c hc
        simp only [isDot, Bool.or_eq_true, beq_iff_eq] at this
        rcases this with h | rfl
        · exact isAddr_hex (isHex_dec h)
        · rfl

end SMC
