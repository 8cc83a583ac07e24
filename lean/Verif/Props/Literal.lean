import Verif.Spec.Literal
import Verif.Lemmas.Netip6
import Verif.Props.Socket
/-!
# C106: literal addresses
-/

namespace SMC.Socket
open SMC.Spec

theorem find_skip {p : UInt8 → Bool} {x : Bytes} {c : UInt8} (r : Bytes) (hx : ∀ b ∈ x, p b = false) (hc : p c = true) :
    (x ++ c :: r).find? p = some c := by
  induction x with
  | nil => simp [hc]
  | cons b x ih =>
    rw [List.cons_append, List.find?_cons, hx b List.mem_cons_self]
    exact ih fun b m => hx b (List.mem_cons_of_mem _ m)

theorem notSpecial {c : UInt8} (h : isHex c = true) : decide (c = 0x2e ∨ c = 0x3a ∨ c = 0x25) = false := by
  rw [decide_eq_false_iff_not]
  rintro (rfl | rfl | rfl) <;> cases h

theorem ip4Str_chars (a : Bytes) : ∀ c ∈ ip4Str a, (isDec c || c == 0x2e) = true := by
  refine joinSep_all (p := fun c => isDec c || c == 0x2e) (by decide) _ ?_
  intro x hx c hc
  obtain ⟨y, _, rfl⟩ := List.mem_map.1 hx
  simp [dec_all _ c hc]

theorem parseAddr_ip4 (a : Bytes) (h : a.length = 4) : parseAddr (ip4Str a) = some ⟨a, []⟩ := by
  obtain ⟨x, r, e, _, hx, _⟩ := ip4Str_shape a h
  have f : (ip4Str a).find? (fun c => decide (c = 0x2e ∨ c = 0x3a ∨ c = 0x25)) = some 0x2e := by
    rw [e]
    exact find_skip r (fun b m => notSpecial (isHex_dec (hx b m))) (by decide)
  simp only [parseAddr, f, if_true]
  rw [(ip4_iff _ a).2 ⟨h, rfl⟩]
  rfl

theorem colon_first {s : Bytes} (hs : ∀ c ∈ s, isHex c = true ∨ c = 0x3a) (hm : 0x3a ∈ s) (r : Bytes) :
    (s ++ r).find? (fun c => decide (c = 0x2e ∨ c = 0x3a ∨ c = 0x25)) = some 0x3a := by
  induction s with
  | nil => cases hm
  | cons b s ih =>
    rw [List.cons_append, List.find?_cons]
    rcases hs b List.mem_cons_self with h | rfl
    · rw [notSpecial h]
      refine ih (fun c m => hs c (List.mem_cons_of_mem _ m)) ?_
      rcases List.mem_cons.1 hm with e | e
      · subst e; cases h
      · exact e
    · rfl

theorem ip6Str_chars (gs : List Nat) : ∀ c ∈ ip6Str gs, isHex c = true ∨ c = 0x3a := by
  have key : ∀ c ∈ ip6Str gs, (isHex c || c == 0x3a) = true := by
    have hd : ∀ l : List Nat, ∀ x ∈ l.map (digits 16), ∀ c ∈ x, (isHex c || c == 0x3a) = true := by
      intro l x hx c hc
      obtain ⟨n, _, rfl⟩ := List.mem_map.1 hx
      simp [digits_all (by decide) isHex_digit n c hc]
    unfold ip6Str
    generalize bestRun 0 gs (0, 0) = run
    obtain ⟨st, l⟩ := run
    simp only
    split
    · exact joinSep_all (p := fun c => isHex c || c == 0x3a) (by decide) _ (hd gs)
    · intro c hc
      simp only [List.mem_append] at hc
      rcases hc with (hc | hc) | hc
      · exact joinSep_all (p := fun c => isHex c || c == 0x3a) (by decide) _ (fun x hx => hd gs x (List.mem_of_mem_take hx)) c hc
      · revert c; decide
      · exact joinSep_all (p := fun c => isHex c || c == 0x3a) (by decide) _ (fun x hx => hd gs x (List.mem_of_mem_drop hx)) c hc
  intro c m
  have := key c m
  simp only [Bool.or_eq_true, beq_iff_eq] at this
  exact this

theorem firstCut_none {c : UInt8} {s : Bytes} (h : c ∉ s) : firstCut c s = none := by
  induction s with
  | nil => rfl
  | cons b s ih =>
    simp only [List.mem_cons, not_or] at h
    simp only [firstCut, if_neg (Ne.symm h.1), ih h.2]

theorem firstCut_at {c : UInt8} {s : Bytes} (h : c ∉ s) (r : Bytes) : firstCut c (s ++ c :: r) = some (s, r) := by
  induction s with
  | nil => simp [firstCut]
  | cons b s ih =>
    simp only [List.mem_cons, not_or] at h
    simp only [List.cons_append, firstCut, if_neg (Ne.symm h.1), ih h.2]

theorem groups_bound (a : Bytes) : ∀ g ∈ groups a, g < 65536 := by
  induction a using groups.induct with
  | case1 x y r ih =>
    intro g m
    simp only [groups, List.mem_cons] at m
    rcases m with rfl | m
    · have := x.toNat_lt; have := y.toNat_lt; omega
    · exact ih g m
  | case2 l hl =>
    intro g m
    match l with
    | [] => simp [groups] at m
    | [x] => simp [groups] at m
    | x :: y :: r => exact absurd rfl (hl x y r)

theorem ip6Parse_bytes (a : Bytes) (h : a.length = 16) : ip6Parse (ip6Str (groups a)) = some a := by
  rw [ip6Parse_str _ (by rw [groups_length, h]) (groups_bound a), ungroup_groups a (by rw [h])]

theorem parseAddr_ip6 (a : Bytes) (h : a.length = 16) : parseAddr (ip6Str (groups a)) = some ⟨a, []⟩ := by
  have f := colon_first (ip6Str_chars (groups a)) (ip6Str_colon _ (by rw [groups_length, h])) []
  rw [List.append_nil] at f
  have np : (0x25 : UInt8) ∉ ip6Str (groups a) := by
    intro m
    rcases ip6Str_chars _ _ m with e | e <;> cases e
  simp only [parseAddr, f]
  rw [if_neg (by decide), if_pos trivial, firstCut_none np]
  simp only [ip6Parse_bytes a h, Option.map_some]

theorem parseAddr_ip6zone (a zone : Bytes) (h : a.length = 16) (hz : zone ≠ []) :
    parseAddr (ip6Str (groups a) ++ 0x25 :: zone) = some ⟨a, zone⟩ := by
  have f := colon_first (ip6Str_chars (groups a)) (ip6Str_colon _ (by rw [groups_length, h])) (0x25 :: zone)
  have np : (0x25 : UInt8) ∉ ip6Str (groups a) := by
    intro m
    rcases ip6Str_chars _ _ m with e | e <;> cases e
  simp only [parseAddr, f]
  rw [if_neg (by decide), if_pos trivial, firstCut_at np]
  simp only [if_neg hz, ip6Parse_bytes a h, Option.map_some]

/-! ## Ports -/

theorem decimal_val (x : Bytes) (n : Nat) (hx : ∀ c ∈ x, isDec c = true) :
    decimal n x = some (x.foldl (fun n c => n * 10 + digitVal c) n) := by
  induction x generalizing n with
  | nil => rfl
  | cons c x ih =>
    have hc := hx c List.mem_cons_self
    have hv : digitVal c = c.toNat - 0x30 := by
      simp only [isDec, decide_eq_true_eq, UInt8.le_iff_toNat_le] at hc
      have c2 : c.toNat ≤ 57 := hc.2
      simp only [digitVal]
      rw [if_pos (by rw [UInt8.lt_iff_toNat_lt]; show c.toNat < 58; omega)]
    simp only [isDec, decide_eq_true_eq] at hc
    simp only [decimal, if_pos hc, List.foldl_cons, hv]
    exact ih _ fun c m => hx c (List.mem_cons_of_mem _ m)

theorem parsePort_dec (n : Nat) : parsePort (dec n) = some (n : Int) := by
  have v : decimal 0 (dec n) = some n := by
    rw [decimal_val _ _ (dec_all n)]
    exact congrArg some (valOf_digits 10 n (by decide) (by decide))
  cases h : dec n with
  | nil => exact absurd h (digits_ne_nil 10 n)
  | cons c s =>
    have hc := dec_all n c (by rw [h]; exact List.mem_cons_self)
    unfold parsePort
    split
    · rename_i e; cases e
    · rename_i e; cases e; cases hc
    · rename_i e; cases e; cases hc
    · rw [← h, v]; rfl

theorem lookupPort_dec (sys : System) (n : Nat) : sys.lookupPort (dec n) = if n ≤ 65535 then some n else none := by
  simp only [System.lookupPort, parsePort_dec]
  split
  · rename_i h
    rw [if_neg]
    omega
  · rename_i h
    rw [if_pos (by omega)]
    rfl

theorem isIPv4_to4 {ip : Bytes} (h : ∀ v4, ¬ IsIPv4 ip v4) : to4 ip = none := by
  unfold to4
  split
  · rename_i h4
    exact absurd ⟨h4, .inl rfl⟩ (h ip)
  · split
    · rename_i h16
      refine absurd ⟨by rw [List.length_drop, h16.1], .inr ?_⟩ (h (ip.drop 12))
      have e1 := List.take_append_drop 10 ip
      have e2 := List.take_append_drop 2 (ip.drop 10)
      rw [h16.2.2, List.drop_drop] at e2
      rw [h16.2.1, ← e2] at e1
      rw [← e1]
      rfl
    · rfl

theorem to4_isIPv4 {ip v4 : Bytes} (h : to4 ip = none) : ¬ IsIPv4 ip v4 := by
  rintro ⟨h4, rfl | rfl⟩
  · simp [to4, h4] at h
  · simp [to4, h4, zeros] at h

theorem dec_clean (n : Nat) : (0x3a : UInt8) ∉ dec n ∧ (0x5b : UInt8) ∉ dec n ∧ (0x5d : UInt8) ∉ dec n :=
  ⟨not_mem_of_all (dec_all n) rfl, not_mem_of_all (dec_all n) rfl, not_mem_of_all (dec_all n) rfl⟩

theorem createSockaddr_literal (sys : System) (host : Bytes) (port : Nat) (ip zone : Bytes) (s : Bytes)
    (hs : HostPort s host (dec port)) (hp : port ≤ 65535) (hh : parseAddr host = some ⟨ip, zone⟩) (h0 : host ≠ []) :
    parseAddress sys.lib s = .ok (host, port) ∧ sys.lib.lookupIPAddr host = some [⟨(to16 ip).getD [], zone⟩] := by
  constructor
  · have := Props.C68_defaults sys.lib s host (dec port) hs
    rw [if_neg (show dec port ≠ [] from digits_ne_nil 10 port), if_neg h0] at this
    rw [this]
    show (match sys.lookupPort (dec port) with | none => _ | some p => _) = _
    rw [lookupPort_dec, if_pos hp]
  · show sys.lookupIPAddr host = _
    simp only [System.lookupIPAddr, if_neg h0, hh]

/-! ## IPv4-mapped addresses -/

theorem ip6Parse_mapped (a : Bytes) (h : a.length = 4) : ip6Parse ((go! "::ffff:") ++ ip4Str a) = some (zeros 10 ++ [255, 255] ++ a) := by
  obtain ⟨x, r, e, x0, hx, xl, _⟩ := ip4Str_shape a h
  have f4 := (ip4_iff (ip4Str a) a).2 ⟨h, rfl⟩
  have hf : hexField 0 0 (ip4Str a) = some (x.length, x.foldl (fun n c => n * 16 + digitVal c) 0, 0x2e :: r) := by
    rw [e]
    have := hexField_append x (0x2e :: r) 0 0 (fun c m => isHex_dec (hx c m)) (by omega) (hex_small x hx xl)
      (by intro c m; cases m; decide)
    rw [Nat.zero_add] at this
    exact this
  have l0 : x.length ≠ 0 := fun e => x0 (List.length_eq_zero_iff.1 e)
  have second : ip6Loop 7 [255, 255] (some 0) (ip4Str a) = some ([255, 255] ++ a, some 0, []) := by
    simp only [ip6Loop, hf]
    rw [if_neg l0, if_pos (by simp), if_neg (by simp), if_neg (by simp), f4]
  obtain ⟨c, t, ht, hc⟩ : ∃ c t, ip4Str a = c :: t ∧ c ≠ 0x3a := by
    rw [e]
    cases x with
    | nil => exact absurd rfl x0
    | cons c x =>
      refine ⟨c, _, rfl, ?_⟩
      have := hx c List.mem_cons_self
      rintro rfl
      cases this
  have first : ip6Loop 8 [] (some 0) ((go! "ffff:") ++ ip4Str a) = ip6Loop 7 [255, 255] (some 0) (ip4Str a) := by
    rw [ht]
    exact ip6Loop_next 7 [] (some 0) 65535 (by decide) c t hc
  show (if (go! "ffff:") ++ ip4Str a = [] then some (zeros 16) else (ip6Loop 8 [] (some 0) ((go! "ffff:") ++ ip4Str a)).bind ip6Expand) = _
  rw [if_neg (by simp), first, second]
  simp [ip6Expand, h]

/-! ## Everything that is parsed can be written -/

theorem ip6Expand_length {r : Bytes × Option Nat × Bytes} {a : Bytes} (hr : r.1.length ≤ 16) (h : ip6Expand r = some a) :
    a.length = 16 := by
  obtain ⟨ip, e, s⟩ := r
  simp only [ip6Expand] at h
  simp only at hr
  split at h
  · cases h
  split at h
  · split at h
    · cases h
    · cases h
      simp only [List.length_append, List.length_take, List.length_drop, zeros, List.length_replicate]
      omega
  · split at h
    · cases h
    · cases h
      omega

theorem ip6Parse_length {s a : Bytes} (h : ip6Parse s = some a) : a.length = 16 := by
  unfold ip6Parse at h
  split at h
  · split at h
    · cases h; rfl
    · obtain ⟨r, h1, h2⟩ := Option.bind_eq_some_iff.1 h
      exact ip6Expand_length (ip6Loop_length 8 [] _ _ (by simp) r h1) h2
  · obtain ⟨r, h1, h2⟩ := Option.bind_eq_some_iff.1 h
    exact ip6Expand_length (ip6Loop_length 8 [] _ _ (by simp) r h1) h2

theorem firstCut_mem {c : UInt8} {s a b : Bytes} (h : firstCut c s = some (a, b)) : ∀ x ∈ b, x ∈ s := by
  induction s generalizing a with
  | nil => cases h
  | cons d s ih =>
    simp only [firstCut] at h
    split at h
    · cases h
      exact fun x m => List.mem_cons_of_mem _ m
    · split at h
      · rename_i u v e
        cases h
        exact fun x m => List.mem_cons_of_mem _ (ih e x m)
      · cases h

theorem parseAddr_ok {s : Bytes} {a : IPAddr} (h : parseAddr s = some a) :
    (a.ip.length = 4 ∨ a.ip.length = 16) ∧ (a.zone = [] ∨ a.zone ≠ [] ∧ ∀ x ∈ a.zone, x ∈ s) := by
  simp only [parseAddr] at h
  split at h
  · cases h
  split at h
  · obtain ⟨ip, h1, rfl⟩ := Option.map_eq_some_iff.1 h
    exact ⟨.inl (ip4Fields_length h1), .inl rfl⟩
  split at h
  · split at h
    · obtain ⟨ip, h1, rfl⟩ := Option.map_eq_some_iff.1 h
      exact ⟨.inr (ip6Parse_length h1), .inl rfl⟩
    · rename_i zone hz
      split at h
      · cases h
      · rename_i z0
        obtain ⟨ip, h1, rfl⟩ := Option.map_eq_some_iff.1 h
        exact ⟨.inr (ip6Parse_length h1), .inr ⟨z0, firstCut_mem hz⟩⟩
  · cases h

/-! ## The texts of addresses -/

theorem hexDigit_isHex {c : UInt8} {d : Nat} (h : HexDigit c d) : c ≠ 0x2e ∧ c ≠ 0x3a ∧ c ≠ 0x25 := by
  simp only [HexDigit] at h
  refine ⟨?_, ?_, ?_⟩ <;> rintro rfl <;>
    simp only [show (0x2e : UInt8).toNat = 46 from rfl, show (0x3a : UInt8).toNat = 58 from rfl, show (0x25 : UInt8).toNat = 37 from rfl] at h <;>
    omega

theorem groupText_chars {t : Bytes} {g : Nat} (h : GroupText t g) : ∀ c ∈ t, c ≠ 0x2e ∧ c ≠ 0x3a ∧ c ≠ 0x25 := by
  induction h with
  | one hd =>
    intro c m
    rw [List.mem_singleton.1 m]
    exact hexDigit_isHex hd
  | more _ _ hd ih =>
    intro c m
    rcases List.mem_append.1 m with m | m
    · exact ih c m
    · rw [List.mem_singleton.1 m]
      exact hexDigit_isHex hd

theorem endText_chars {s y : Bytes} (h : EndText s y) : (0x25 : UInt8) ∉ s := by
  induction h with
  | one hg => exact fun m => (groupText_chars hg _ m).2.2 rfl
  | ip4 l =>
    rw [ipStr_four l]
    exact not_mem_of_all (ip4Str_chars _) rfl
  | more hg _ ih =>
    intro m
    rcases List.mem_append.1 m with m | m
    · exact (groupText_chars hg _ m).2.2 rfl
    · rcases List.mem_cons.1 m with m | m
      · cases m
      · exact ih m

theorem groupText_first {t : Bytes} {g : Nat} (h : GroupText t g) (r : Bytes) :
    (t ++ 0x3a :: r).find? (fun c => decide (c = 0x2e ∨ c = 0x3a ∨ c = 0x25)) = some 0x3a := by
  refine find_skip r (fun b m => ?_) (by decide)
  have := groupText_chars h b m
  simp [this.1, this.2.1, this.2.2]

theorem ip6Text_shape {s a : Bytes} (h : IP6Text s a) :
    (0x25 : UInt8) ∉ s ∧ ∀ r, (s ++ r).find? (fun c => decide (c = 0x2e ∨ c = 0x3a ∨ c = 0x25)) = some 0x3a := by
  rcases h with ⟨h, l⟩ | ⟨f, r, x, y, rfl, hf, hr, _⟩
  · refine ⟨endText_chars h, ?_⟩
    cases h with
    | one => simp [groupBytes] at l
    | ip4 h4 => omega
    | more hg _ =>
      intro r
      rw [List.append_assoc]
      exact groupText_first hg _
  · constructor
    · intro m
      rcases List.mem_append.1 m with m | m
      · rcases hf with ⟨rfl, _⟩ | hf
        · cases m
        · exact endText_chars (groupsText_end hf) m
      · rcases List.mem_cons.1 m with m | m
        · cases m
        rcases List.mem_cons.1 m with m | m
        · cases m
        rcases hr with ⟨rfl, _⟩ | hr
        · cases m
        · exact endText_chars hr m
    · intro u
      rcases hf with ⟨rfl, _⟩ | hf
      · rfl
      · rw [List.append_assoc]
        cases hf with
        | one hg => exact groupText_first hg _
        | more hg _ =>
          rw [List.append_assoc]
          exact groupText_first hg _

theorem firstCut_split {c : UInt8} {s a b : Bytes} (h : firstCut c s = some (a, b)) : s = a ++ c :: b := by
  induction s generalizing a with
  | nil => cases h
  | cons d s ih =>
    simp only [firstCut] at h
    split at h
    · rename_i e
      cases h
      rw [e]; rfl
    · split at h
      · rename_i u v e
        cases h
        rw [ih e]; rfl
      · cases h

theorem lookupPort_le {sys : System} {s : Bytes} {n : Nat} (h : sys.lookupPort s = some n) : n ≤ 65535 := by
  simp only [System.lookupPort] at h
  split at h
  · split at h
    · cases h
    · cases h; omega
  · split at h
    · split at h
      · cases h
      · cases h; omega
    · cases h

theorem lookupIPAddr_ok {sys : System} (hs : Sensible sys) {host : Bytes} (hb : (0x5b : UInt8) ∉ host ∧ (0x5d : UInt8) ∉ host)
    {a : IPAddr} {as : List IPAddr} (h : sys.lookupIPAddr host = some (a :: as)) :
    (a.ip.length = 4 ∨ a.ip.length = 16) ∧ (a.zone = [] ∨ ZoneName a.zone) := by
  simp only [System.lookupIPAddr] at h
  split at h
  · cases h
  split at h
  · rename_i b hp
    cases h
    obtain ⟨p1, p2⟩ := parseAddr_ok hp
    refine ⟨.inr ?_, ?_⟩
    · rcases p1 with e | e <;> simp [to16, e, zeros]
    · rcases p2 with e | ⟨e1, e2⟩
      · exact .inl e
      · exact .inr ⟨e1, fun m => hb.1 (e2 _ m), fun m => hb.2 (e2 _ m)⟩
  · exact hs host _ h a List.mem_cons_self

end SMC.Socket

namespace SMC.Props
open SMC.Socket SMC.Spec

/-- **C106** The IPv4 addresses that are accepted as such are exactly the usual texts of four numbers,
without leading zeros. -/
theorem C106_ip4 (s ip zone : Bytes) (h : ip.length = 4) : parseAddr s = some ⟨ip, zone⟩ ∧ 0x3a ∉ s ↔ s = ipStr ip ∧ zone = [] := by
  rw [ipStr_four h]
  constructor
  · rintro ⟨e, nc⟩
    simp only [parseAddr] at e
    split at e
    · cases e
    · rename_i c f
      split at e
      · cases g : ip4Fields [] 0 0 s with
        | none => rw [g] at e; cases e
        | some a =>
          rw [g] at e
          cases e
          exact ⟨((ip4_iff _ _).1 g).2, rfl⟩
      · split at e
        · rename_i hc
          subst hc
          exact absurd (List.mem_of_find?_eq_some f) nc
        · cases e
  · rintro ⟨rfl, rfl⟩
    refine ⟨parseAddr_ip4 ip h, ?_⟩
    intro m
    have := ip4Str_chars ip _ m
    cases this

/-- **C106** Exactly the texts of IPv4 addresses, and those of IPv6 addresses with or without a zone,
are taken as addresses. -/
theorem C106_texts (s ip zone : Bytes) : parseAddr s = some ⟨ip, zone⟩ ↔
    (ip.length = 4 ∧ s = ipStr ip ∧ zone = []) ∨
    ∃ t, IP6Text t ip ∧ (zone = [] ∧ s = t ∨ zone ≠ [] ∧ s = t ++ 0x25 :: zone) := by
  constructor
  · intro e
    simp only [parseAddr] at e
    split at e
    · cases e
    split at e
    · obtain ⟨a, h1, h2⟩ := Option.map_eq_some_iff.1 e
      cases h2
      obtain ⟨l, e4⟩ := (ip4_iff _ _).1 h1
      exact .inl ⟨l, by rw [ipStr_four l]; exact e4, rfl⟩
    split at e
    · split at e
      · obtain ⟨a, h1, h2⟩ := Option.map_eq_some_iff.1 e
        cases h2
        exact .inr ⟨s, (ip6_iff _ _).1 h1, .inl ⟨rfl, rfl⟩⟩
      · rename_i t z hz
        split at e
        · cases e
        · rename_i z0
          obtain ⟨a, h1, h2⟩ := Option.map_eq_some_iff.1 e
          cases h2
          exact .inr ⟨t, (ip6_iff _ _).1 h1, .inr ⟨z0, firstCut_split hz⟩⟩
    · cases e
  · rintro (⟨l, rfl, rfl⟩ | ⟨t, ht, h⟩)
    · rw [ipStr_four l]
      exact parseAddr_ip4 ip l
    · obtain ⟨np, f⟩ := ip6Text_shape ht
      rcases h with ⟨rfl, rfl⟩ | ⟨z0, rfl⟩
      · have f := f []
        rw [List.append_nil] at f
        simp only [parseAddr, f]
        rw [if_neg (by decide), if_pos trivial, firstCut_none np]
        simp only [(ip6_iff _ _).2 ht, Option.map_some]
      · simp only [parseAddr, f]
        rw [if_neg (by decide), if_pos trivial, firstCut_at np]
        simp only [if_neg z0, (ip6_iff _ _).2 ht, Option.map_some]

/-- two colons for two groups, digits of both cases, an IPv4 address at the end and a zone; an ellipsis
that stands for nothing is not accepted -/
example : parseAddr (go! "2001:DB8::aB:1:192.0.2.1%eth0") =
      some ⟨[0x20, 1, 0x0d, 0xb8, 0, 0, 0, 0, 0, 0xab, 0, 1, 192, 0, 2, 1], go! "eth0"⟩ ∧
    IP6Text (go! "2001:DB8::aB:1:192.0.2.1") [0x20, 1, 0x0d, 0xb8, 0, 0, 0, 0, 0, 0xab, 0, 1, 192, 0, 2, 1] ∧
    (∀ a, ¬ IP6Text (go! "1:2:3:4::5:6:7:8") a) := by
  refine ⟨by decide +kernel, (ip6_iff _ _).1 (by decide +kernel), fun a h => ?_⟩
  have e : ip6Parse (go! "1:2:3:4::5:6:7:8") = none := by decide +kernel
  rw [(ip6_iff _ _).2 h] at e
  cases e

theorem digitsText_decimal {t : Bytes} {n : Nat} (h : DigitsText t n) : Socket.decimal 0 t = some n ∧ ∀ c ∈ t, 0x30 ≤ c ∧ c ≤ 0x39 := by
  have app : ∀ (t : Bytes) (m n : Nat) (c : UInt8), Socket.decimal m t = some n → 0x30 ≤ c ∧ c ≤ 0x39 →
      Socket.decimal m (t ++ [c]) = some (n * 10 + (c.toNat - 0x30)) := by
    intro t
    induction t with
    | nil =>
      intro m n c h hc
      cases h
      simp [Socket.decimal, hc]
    | cons b t ih =>
      intro m n c h hc
      simp only [Socket.decimal, List.cons_append] at h ⊢
      split at h
      · rename_i hb
        rw [if_pos hb]
        exact ih _ _ _ h hc
      · cases h
  induction h with
  | nil => exact ⟨rfl, nofun⟩
  | @more t n d c h hd hc ih =>
    have hr : 0x30 ≤ c ∧ c ≤ 0x39 := by
      rw [UInt8.le_iff_toNat_le, UInt8.le_iff_toNat_le, hc]
      exact ⟨Nat.le_add_right _ _, Nat.add_le_add_left (Nat.le_of_lt_succ hd) 48⟩
    refine ⟨?_, ?_⟩
    · rw [app _ _ _ _ ih.1 hr, hc]
      congr 1
      omega
    · intro x m
      rcases List.mem_append.1 m with m | m
      · exact ih.2 x m
      · rw [List.mem_singleton.1 m]; exact hr

theorem decimal_digitsText {t s : Bytes} {m n : Nat} (h : DigitsText t m) (e : Socket.decimal m s = some n) : DigitsText (t ++ s) n := by
  induction s generalizing t m with
  | nil => cases e; rw [List.append_nil]; exact h
  | cons c s ih =>
    simp only [Socket.decimal] at e
    split at e
    · rename_i hc
      rw [UInt8.le_iff_toNat_le, UInt8.le_iff_toNat_le] at hc
      have hc : 48 ≤ c.toNat ∧ c.toNat ≤ 57 := hc
      have := ih (t := t ++ [c]) (m := m * 10 + (c.toNat - 48)) ?_ e
      · rwa [List.append_assoc] at this
      · rw [Nat.mul_comm]
        exact .more h (by omega) (by omega)
    · cases e

theorem decimal_iff (s : Bytes) (n : Nat) : Socket.decimal 0 s = some n ↔ DigitsText s n :=
  ⟨fun e => by simpa using decimal_digitsText .nil e, fun h => (digitsText_decimal h).1⟩

theorem parsePort_iff (s : Bytes) (p : Int) : parsePort s = some p ↔ PortText s p := by
  constructor
  · intro h
    unfold parsePort at h
    split at h
    · cases h
      exact ⟨[], 0, .nil, .inl ⟨.inl rfl, rfl⟩⟩
    · rename_i t
      obtain ⟨n, hn, rfl⟩ := Option.map_eq_some_iff.1 h
      exact ⟨t, n, (decimal_iff _ _).1 hn, .inl ⟨.inr rfl, rfl⟩⟩
    · rename_i t
      obtain ⟨n, hn, rfl⟩ := Option.map_eq_some_iff.1 h
      exact ⟨t, n, (decimal_iff _ _).1 hn, .inr ⟨rfl, rfl⟩⟩
    · obtain ⟨n, hn, rfl⟩ := Option.map_eq_some_iff.1 h
      exact ⟨s, n, (decimal_iff _ _).1 hn, .inl ⟨.inl rfl, rfl⟩⟩
  · rintro ⟨t, n, ht, ⟨rfl | rfl, rfl⟩ | ⟨rfl, rfl⟩⟩
    · have hd := digitsText_decimal ht
      unfold parsePort
      split
      · cases hd.1
        rfl
      · exact absurd (hd.2 _ List.mem_cons_self) (by decide)
      · exact absurd (hd.2 _ List.mem_cons_self) (by decide)
      · rw [hd.1]; rfl
    · simp only [parsePort, (decimal_iff _ _).2 ht, Option.map_some]
    · simp only [parsePort, (decimal_iff _ _).2 ht, Option.map_some]

/-- **C106** Exactly which ports are used: numbers, also with a sign, within the range of ports, and whatever the system says
about services within that range. A number is never looked up as a service. -/
theorem C106_ports (sys : System) (s : Bytes) (p : Nat) : sys.lookupPort s = some p ↔
    p ≤ 65535 ∧ (PortText s p ∨ (∀ z, ¬ PortText s z) ∧ sys.service s = some p) := by
  unfold System.lookupPort
  cases e : parsePort s with
  | some z =>
    have hz := (parsePort_iff s z).1 e
    have hu : ∀ y, PortText s y → y = z := fun y hy => Option.some.inj (((parsePort_iff s y).2 hy).symm.trans e)
    simp only
    constructor
    · intro h
      split at h
      · cases h
      · cases h
        refine ⟨by omega, .inl ?_⟩
        rw [Int.toNat_of_nonneg (by omega)]
        exact hz
    · rintro ⟨hp, h | h⟩
      · rw [← hu _ h, if_neg (by omega)]
        rfl
      · exact absurd hz (h.1 z)
  | none =>
    have hz : ∀ z, ¬ PortText s z := fun z h => by rw [(parsePort_iff s z).2 h] at e; cases e
    simp only
    cases es : sys.service s with
    | none => simp [hz]
    | some q =>
      simp only [Option.some.injEq]
      constructor
      · intro h
        split at h
        · cases h
        · cases h
          exact ⟨by omega, .inr ⟨hz, rfl⟩⟩
      · rintro ⟨hp, h | ⟨-, rfl⟩⟩
        · exact absurd h (hz _)
        · rw [if_neg (by omega)]

-- a sign, leading zeros, too large, negative, and a service
example (sys : System) (hs : sys.service (go! "http") = some 80) : sys.lookupPort (go! "+0080") = some 80 ∧ sys.lookupPort (go! "65536") = none ∧
    sys.lookupPort (go! "-80") = none ∧ sys.lookupPort (go! "-0") = some 0 ∧ sys.lookupPort (go! "http") = some 80 := by
  refine ⟨rfl, rfl, rfl, rfl, ?_⟩
  have e : parsePort (go! "http") = none := by decide
  simp only [System.lookupPort, e, hs]
  rfl

/-- **C106** A port given as a number is that port, or ends the process if there is no such port;
services are not looked up. -/
theorem C106_port (sys : System) (n : Nat) : sys.lookupPort (dec n) = if n ≤ 65535 then some n else none :=
  lookupPort_dec sys n

/-- **C106** The text of an address is dialed and listened on as that address, whatever the system
answers about names of hosts and services. -/
theorem C106_literal (sys : System) (sa : Sockaddr) (s : Bytes) (h : Written sys sa s) :
    createSockaddr sys.lib s = .ok (some sa) ∧ dial sys.lib s = dialSocket sa ∧ listen sys.lib s = listenSocket sa := by
  have key : createSockaddr sys.lib s = .ok (some sa) := by
    cases sa with
    | inet4 port ip =>
      obtain ⟨h4, hp, rfl⟩ := h
      have hc : (0x3a : UInt8) ∉ ip4Str ip ∧ (0x5b : UInt8) ∉ ip4Str ip ∧ (0x5d : UInt8) ∉ ip4Str ip :=
        ⟨not_mem_of_all (ip4Str_chars ip) rfl, not_mem_of_all (ip4Str_chars ip) rfl, not_mem_of_all (ip4Str_chars ip) rfl⟩
      have hs : HostPort (tcpAddrStr ip port []) (ip4Str ip) (dec port) := by
        unfold tcpAddrStr joinHostPort
        rw [if_neg (by simp), ipStr_four h4, if_neg hc.1]
        exact ⟨.inl ⟨rfl, hc.1⟩, hc.2.1, hc.2.2, dec_clean port⟩
      have h0 : ip4Str ip ≠ [] := by
        obtain ⟨x, r, e, _⟩ := ip4Str_shape ip h4
        rw [e]
        cases x <;> simp
      obtain ⟨e1, e2⟩ := createSockaddr_literal sys _ port ip [] _ hs hp (parseAddr_ip4 ip h4) h0
      refine (C67_family sys.lib _ _ port _ [] e1 e2).1 ip ⟨h4, .inr ?_⟩
      simp [to16, h4, zeros]
    | inet6 port scope ip =>
      obtain ⟨h16, n4, hp, h⟩ := h
      have t4 := isIPv4_to4 n4
      have colon : (0x3a : UInt8) ∈ ip6Str (groups ip) := ip6Str_colon _ (by rw [groups_length, h16])
      have clean : (0x5b : UInt8) ∉ ip6Str (groups ip) ∧ (0x5d : UInt8) ∉ ip6Str (groups ip) := by
        constructor <;> intro m <;> rcases ip6Str_chars _ _ m with e | e <;> cases e
      have h16' : (to16 ip).getD [] = ip := by simp [to16, h16]
      rcases h with ⟨rfl, rfl⟩ | ⟨zone, i, ⟨z0, z1, z2⟩, hi, rfl, rfl⟩
      · have hs : HostPort (tcpAddrStr ip port []) (ip6Str (groups ip)) (dec port) := by
          unfold tcpAddrStr joinHostPort
          rw [if_neg (by simp), ipStr_six h16 t4, if_pos colon]
          exact ⟨.inr rfl, clean.1, clean.2, dec_clean port⟩
        obtain ⟨e1, e2⟩ := createSockaddr_literal sys _ port ip [] _ hs hp (parseAddr_ip6 ip h16)
          (fun e => by rw [e] at colon; cases colon)
        rw [h16'] at e2
        exact ((C67_family sys.lib _ _ port _ [] e1 e2).2.1 n4 h16).1 rfl
      · have colon' : (0x3a : UInt8) ∈ ip6Str (groups ip) ++ 0x25 :: zone := List.mem_append_left _ colon
        have hs : HostPort (tcpAddrStr ip port zone) (ip6Str (groups ip) ++ 0x25 :: zone) (dec port) := by
          unfold tcpAddrStr joinHostPort
          rw [if_pos z0, ipStr_six h16 t4, if_pos colon']
          refine ⟨.inr rfl, ?_, ?_, dec_clean port⟩
          · simp only [List.mem_append, List.mem_cons, not_or]
            exact ⟨clean.1, by decide, z1⟩
          · simp only [List.mem_append, List.mem_cons, not_or]
            exact ⟨clean.2, by decide, z2⟩
        obtain ⟨e1, e2⟩ := createSockaddr_literal sys _ port ip zone _ hs hp (parseAddr_ip6zone ip zone h16 z0)
          (fun e => by rw [e] at colon'; cases colon')
        rw [h16'] at e2
        exact ((C67_family sys.lib _ _ port _ [] e1 e2).2.1 n4 h16).2.1 z0 i hi
  refine ⟨key, ?_, ?_⟩
  · unfold dial; rw [key]; rfl
  · unfold listen; rw [key]; rfl

/-- **C106** Whatever is dialed or listened on has a text that can be dialed: the one that listeners
and connections show. -/
theorem C106_again (sys : System) (hs : Sensible sys) (s : Bytes) (sa : Sockaddr)
    (h : createSockaddr sys.lib s = .ok (some sa)) :
    ∃ t, Written sys sa t ∧ createSockaddr sys.lib t = .ok (some sa) := by
  suffices w : ∃ t, Written sys sa t by
    obtain ⟨t, ht⟩ := w
    exact ⟨t, ht, (C106_literal sys sa t ht).1⟩
  simp only [createSockaddr, parseAddress] at h
  split at h
  · cases h
  · cases h
  rename_i host port hp
  split at hp
  · cases hp
  rename_i host' p hsp
  have hb := splitHostPort_iff.1 hsp
  split at hp
  · cases hp
  rename_i port' hport
  cases hp
  have le : port ≤ 65535 := lookupPort_le hport
  have clean : (0x5b : UInt8) ∉ (if host' = [] then go! "0.0.0.0" else host') ∧
      (0x5d : UInt8) ∉ (if host' = [] then go! "0.0.0.0" else host') := by
    split
    · decide
    · exact ⟨hb.2.1, hb.2.2.1⟩
  generalize (if host' = [] then go! "0.0.0.0" else host') = host at h clean
  simp only [parseIP] at h
  split at h
  · cases h
  · cases h
  · cases h
  rename_i a hl
  split at hl
  · cases hl
  · cases hl
  rename_i a' as hl'
  cases hl
  obtain ⟨k1, k2⟩ := lookupIPAddr_ok hs clean hl'
  split at h
  · rename_i v4 h4
    cases h
    have l4 : v4.length = 4 := by
      unfold to4 at h4
      split at h4
      · cases h4; assumption
      · split at h4
        · rename_i e
          cases h4
          rw [List.length_drop, e.1]
        · cases h4
    exact ⟨_, by rw [List.length_take, l4]; rfl, le, rfl⟩
  · rename_i h4
    have l16 : a.ip.length = 16 := by
      rcases k1 with e | e
      · simp [to4, e] at h4
      · exact e
    have e16 : to16 a.ip = some a.ip := by simp [to16, l16]
    have tk : a.ip.take 16 = a.ip := by rw [← l16]; exact List.take_length
    rw [e16] at h
    simp only [tk] at h
    have n4 : ∀ v4, ¬ IsIPv4 a.ip v4 := fun v4 => to4_isIPv4 h4
    split at h
    · cases h
      exact ⟨_, l16, n4, le, .inl ⟨rfl, rfl⟩⟩
    · rename_i z0
      split at h
      · cases h
      · rename_i i hi
        cases h
        rcases k2 with e | e
        · exact absurd e z0
        · exact ⟨_, l16, n4, le, .inr ⟨a.zone, i, e, hi, rfl, rfl⟩⟩

/-- **C106** An IPv4 address written as an IPv6 address is dialed and listened on with IPv4. -/
theorem C106_mapped (sys : System) (ip : Bytes) (port : Nat) (h : ip.length = 4) (hp : port ≤ 65535) :
    createSockaddr sys.lib ((go! "[::ffff:") ++ ipStr ip ++ (go! "]:") ++ dec port) = .ok (some (.inet4 port ip)) := by
  rw [ipStr_four h]
  have chars : ∀ c ∈ (go! "::ffff:") ++ ip4Str ip, (isHex c || c == 0x2e || c == 0x3a) = true := by
    intro c m
    rcases List.mem_append.1 m with k | m
    · exact (show ∀ c ∈ go! "::ffff:", (isHex c || c == 0x2e || c == 0x3a) = true by decide) c k
    · have := ip4Str_chars ip c m
      rw [Bool.or_eq_true] at this
      rcases this with e | e
      · simp [isHex_dec e]
      · simp [e]
  have hs : HostPort ((go! "[::ffff:") ++ ip4Str ip ++ (go! "]:") ++ dec port) ((go! "::ffff:") ++ ip4Str ip) (dec port) := by
    refine ⟨.inr (by simp), not_mem_of_all chars rfl, not_mem_of_all chars rfl, dec_clean port⟩
  have pa : parseAddr ((go! "::ffff:") ++ ip4Str ip) = some ⟨zeros 10 ++ [255, 255] ++ ip, []⟩ := by
    have f : ((go! "::ffff:") ++ ip4Str ip).find? (fun c => decide (c = 0x2e ∨ c = 0x3a ∨ c = 0x25)) = some 0x3a := rfl
    simp only [parseAddr, f]
    rw [if_neg (by decide), if_pos trivial, firstCut_none (not_mem_of_all chars rfl)]
    simp only [ip6Parse_mapped ip h, Option.map_some]
  obtain ⟨e1, e2⟩ := createSockaddr_literal sys _ port _ [] _ hs hp pa (by simp)
  refine (C67_family sys.lib _ _ port _ [] e1 e2).1 ip ⟨h, .inr ?_⟩
  simp [to16, h, zeros]

/-- A system with one name, one service and one interface. -/
def exampleSystem : System where
  service s := if s = go! "inspider" then some 49150 else none
  host h := if h = go! "localhost" then some [⟨hex! "00000000000000000000000000000001", []⟩, ⟨[127, 0, 0, 1], []⟩] else none
  interface z := if z = go! "lo" then some 1 else none

example : tcpAddrStr [127, 0, 0, 1] 50001 [] = go! "127.0.0.1:50001" ∧
    tcpAddrStr (hex! "fe800000000000000000000000000001") 80 (go! "lo") = go! "[fe80::1%lo]:80" ∧
    createSockaddr exampleSystem.lib (go! "127.0.0.1:50001") = .ok (some (.inet4 50001 [127, 0, 0, 1])) ∧
    createSockaddr exampleSystem.lib (go! "[fe80::1%lo]:80") = .ok (some (.inet6 80 1 (hex! "fe800000000000000000000000000001"))) ∧
    createSockaddr exampleSystem.lib (go! "127.0.0.01:50001") = .ok none ∧
    createSockaddr exampleSystem.lib (go! "127.0.0.1:65536") = .fatal := by
  refine ⟨?_, ?_, ?_, ?_, ?_, ?_⟩ <;> decide +kernel

example : Written exampleSystem (.inet6 80 1 (hex! "fe800000000000000000000000000001")) (go! "[fe80::1%lo]:80") := by
  refine ⟨rfl, fun v4 => to4_isIPv4 (by decide), by decide, .inr ⟨go! "lo", 1, ⟨by decide, by decide, by decide⟩, by decide, rfl, ?_⟩⟩
  decide +kernel

example : Sensible exampleSystem ∧
    createSockaddr exampleSystem.lib (go! "localhost:inspider") = .ok (some (.inet6 49150 0 (hex! "00000000000000000000000000000001"))) := by
  refine ⟨?_, by decide +kernel⟩
  intro host as h
  simp only [exampleSystem] at h
  split at h
  · cases h
    intro a m
    simp only [List.mem_cons, List.not_mem_nil, or_false] at m
    rcases m with rfl | rfl <;> exact ⟨by decide, .inl rfl⟩
  · cases h

example : createSockaddr exampleSystem.lib (go! "[::ffff:1.2.3.4]:80") = .ok (some (.inet4 80 [1, 2, 3, 4])) := by decide +kernel

end SMC.Props
