import Verif.Lemmas.Netip
import Verif.Spec.Literal
/-!
# The texts of IPv6 addresses are exactly those of the RFC
-/

namespace SMC.Socket
open SMC.Spec

theorem hexDigit_iff (c : UInt8) (d : Nat) : hexDigit c = some d ↔ HexDigit c d := by
  simp only [hexDigit, HexDigit, UInt8.le_iff_toNat_le]
  simp only [show (0x30 : UInt8).toNat = 48 from rfl, show (0x39 : UInt8).toNat = 57 from rfl, show (0x61 : UInt8).toNat = 97 from rfl,
    show (0x66 : UInt8).toNat = 102 from rfl, show (0x41 : UInt8).toNat = 65 from rfl, show (0x46 : UInt8).toNat = 70 from rfl]
  split
  · simp only [Option.some.injEq]; omega
  · split
    · simp only [Option.some.injEq]; omega
    · split
      · simp only [Option.some.injEq]; omega
      · simp only [reduceCtorEq, false_iff]; omega

theorem groupText_pos {t : Bytes} {g : Nat} (h : GroupText t g) : t ≠ [] ∧ t.length ≤ 4 ∧ g < 16 ^ t.length := by
  induction h with
  | one h =>
    refine ⟨by simp, by simp, ?_⟩
    simp only [HexDigit, List.length_cons, List.length_nil] at h ⊢
    omega
  | more h l hd ih =>
    refine ⟨by simp, by simp only [List.length_append, List.length_cons, List.length_nil]; omega, ?_⟩
    simp only [HexDigit] at hd
    rw [List.length_append, List.length_cons, List.length_nil, Nat.pow_add]
    have := ih.2.2
    omega

theorem groupText_lt {t : Bytes} {g : Nat} (h : GroupText t g) : g ≤ 65535 := by
  obtain ⟨_, h1, h2⟩ := groupText_pos h
  have := Nat.pow_le_pow_right (n := 16) (by decide) h1
  have e : 16 ^ 4 = 65536 := rfl
  omega

/-- what has been read of a group -/
def Partly (t : Bytes) (off acc : Nat) : Prop := (t = [] ∧ off = 0 ∧ acc = 0) ∨ GroupText t acc ∧ t.length = off

theorem partly_next {t : Bytes} {off acc : Nat} (h : Partly t off acc) {c : UInt8} {d : Nat} (hd : hexDigit c = some d) (ho : off ≤ 3) :
    GroupText (t ++ [c]) (acc * 16 + d) := by
  have hd := (hexDigit_iff c d).1 hd
  rcases h with ⟨rfl, rfl, rfl⟩ | ⟨h, l⟩
  · rw [Nat.zero_mul, Nat.zero_add]
    exact .one hd
  · rw [Nat.mul_comm]
    exact .more h (by omega) hd

theorem hexField_only (s t rest : Bytes) (off acc off' acc' : Nat) (hp : Partly t off acc)
    (h : hexField off acc s = some (off', acc', rest)) :
    ∃ u, Partly (t ++ u) off' acc' ∧ s = u ++ rest ∧ NoHex rest := by
  induction s generalizing t off acc with
  | nil =>
    cases h
    exact ⟨[], by simpa using hp, rfl, by intro c m; cases m⟩
  | cons c s ih =>
    simp only [hexField] at h
    split at h
    · rename_i hd
      cases h
      exact ⟨[], by simpa using hp, rfl, by intro b m; cases m; exact hd⟩
    · rename_i d hd
      split at h
      · cases h
      split at h
      · cases h
      rename_i ho _
      have hg := partly_next hp hd (by omega)
      have hl : t.length = off := by
        rcases hp with ⟨rfl, rfl, rfl⟩ | ⟨_, l⟩
        · rfl
        · exact l
      obtain ⟨u, h1, h2, h3⟩ := ih (t ++ [c]) _ _ (.inr ⟨hg, by simp [hl]⟩) h
      exact ⟨c :: u, by simpa using h1, by rw [h2]; rfl, h3⟩

theorem hexField_group {s rest : Bytes} {off acc : Nat} (h : hexField 0 0 s = some (off, acc, rest)) (ho : off ≠ 0) :
    ∃ t, GroupText t acc ∧ s = t ++ rest ∧ NoHex rest := by
  obtain ⟨u, h1, h2, h3⟩ := hexField_only s [] rest 0 0 off acc (.inl ⟨rfl, rfl, rfl⟩) h
  rcases h1 with ⟨_, e, _⟩ | ⟨g, _⟩
  · exact absurd e ho
  · exact ⟨u, g, h2, h3⟩

theorem hexField_back {t : Bytes} {g : Nat} (h : GroupText t g) (rest : Bytes) :
    hexField 0 0 (t ++ rest) = hexField t.length g rest := by
  induction h generalizing rest with
  | @one c d h =>
    simp only [List.cons_append, List.nil_append, hexField, (hexDigit_iff c d).2 h]
    have : d < 16 := by simp only [HexDigit] at h; omega
    rw [if_neg (by omega), if_neg (by omega), Nat.zero_mul, Nat.zero_add, Nat.zero_add]
    rfl
  | @more t g c d hg l hd ih =>
    rw [List.append_assoc, ih]
    have := groupText_lt (.more hg l hd)
    simp only [List.cons_append, List.nil_append, hexField, (hexDigit_iff c d).2 hd]
    rw [if_neg (by omega), if_neg (by omega), Nat.mul_comm g 16]
    simp

theorem hexField_text {t : Bytes} {g : Nat} (h : GroupText t g) {rest : Bytes} (hr : NoHex rest) :
    hexField 0 0 (t ++ rest) = some (t.length, g, rest) := by
  rw [hexField_back h]
  cases rest with
  | nil => rfl
  | cons c r => simp only [hexField, hr c rfl]

/-! ## What is accepted is a text -/

theorem ip6Loop_sound (n : Nat) (ip s ip' : Bytes) (e e' : Option Nat) (hs : s ≠ [])
    (h : ip6Loop n ip e s = some (ip', e', [])) :
    (e' = e ∧ ∃ y, ip' = ip ++ y ∧ EndText s y) ∨
    (e = none ∧ ∃ f x r y, s = f ++ 0x3a :: 0x3a :: r ∧ GroupsText f x ∧ (r = [] ∧ y = [] ∨ EndText r y) ∧
      ip' = ip ++ x ++ y ∧ e' = some (ip.length + x.length)) := by
  induction n generalizing ip s e with
  | zero => cases h; exact absurd rfl hs
  | succ n ih =>
    simp only [ip6Loop] at h
    split at h
    · cases h
    rename_i off acc rest hf
    split at h
    · cases h
    rename_i ho
    obtain ⟨t, hg, hst, hr⟩ := hexField_group hf ho
    split at h
    · split at h
      · cases h
      split at h
      · cases h
      split at h
      · cases h
      rename_i f h4
      cases h
      obtain ⟨l, e4⟩ := (ip4_iff s f).1 h4
      refine .inl ⟨rfl, f, rfl, ?_⟩
      rw [e4, ← ipStr_four l]
      exact .ip4 l
    · split at h
      · cases h
        refine .inl ⟨rfl, groupBytes acc, rfl, ?_⟩
        rw [hst, List.append_nil]
        exact .one hg
      · rename_i c u _
        split at h
        · cases h
        rename_i hc
        have hc : c = 0x3a := Decidable.of_not_not hc
        subst hc
        split at h
        · cases h
        rename_i d u _
        split at h
        · rename_i hd
          subst hd
          split at h
          · cases h
          rename_i he
          have he : e = none := by cases e <;> simp_all
          subst he
          split at h
          · rename_i hu
            cases h
            subst hu
            exact .inr ⟨rfl, t, groupBytes acc, [], [], hst, .one hg, .inl ⟨rfl, rfl⟩, by rw [List.append_nil]; rfl, by simp [groupBytes]⟩
          · rename_i hu
            rcases ih _ u _ hu h with ⟨e1, y, e2, e3⟩ | ⟨e1, _⟩
            · exact .inr ⟨rfl, t, groupBytes acc, u, y, hst, .one hg, .inr e3, e2, by rw [e1]; simp [groupBytes]⟩
            · cases e1
        · rcases ih _ (d :: u) _ (by simp) h with ⟨e1, y, e2, e3⟩ | ⟨e1, f, x, r, y, e2, e3, e4, e5, e6⟩
          · refine .inl ⟨e1, groupBytes acc ++ y, by rw [e2, List.append_assoc]; rfl, ?_⟩
            rw [hst]
            exact .more hg e3
          · refine .inr ⟨e1, t ++ 0x3a :: f, groupBytes acc ++ x, r, y, ?_, .more hg e3, e4, ?_, ?_⟩
            · rw [hst, e2]; simp
            · rw [e5]; simp [groupBytes]
            · rw [e6]; simp [groupBytes]; omega

/-! ## Every text is accepted -/

theorem endText_head {s y : Bytes} (h : EndText s y) : ∃ c r, s = c :: r ∧ c ≠ 0x3a := by
  have grp : ∀ {t : Bytes} {g : Nat}, GroupText t g → ∀ r, ∃ c u, t ++ r = c :: u ∧ c ≠ 0x3a := by
    intro t g hg
    induction hg with
    | one hd =>
      intro r
      refine ⟨_, r, rfl, ?_⟩
      rintro rfl
      simp only [HexDigit, show (0x3a : UInt8).toNat = 58 from rfl] at hd
      omega
    | more _ _ _ ih =>
      intro r
      rw [List.append_assoc]
      exact ih _
  cases h with
  | one hg => simpa using grp hg []
  | @ip4 a l =>
    rw [ipStr_four l]
    obtain ⟨x, r, e, x0, hx, _⟩ := ip4Str_shape _ l
    rw [e]
    cases x with
    | nil => exact absurd rfl x0
    | cons c x =>
      refine ⟨c, _, rfl, ?_⟩
      have := hx c List.mem_cons_self
      rintro rfl
      cases this
  | more hg _ => exact grp hg _

theorem noHex_colon (s : Bytes) : NoHex (0x3a :: s) := by intro c m; cases m; decide

theorem ip6Loop_group {t : Bytes} {g : Nat} (hg : GroupText t g) (n : Nat) (ip : Bytes) (e : Option Nat) (c : UInt8) (s : Bytes)
    (hc : c ≠ 0x3a) : ip6Loop (n + 1) ip e (t ++ 0x3a :: c :: s) = ip6Loop n (ip ++ groupBytes g) e (c :: s) := by
  have t0 : t.length ≠ 0 := fun h => (groupText_pos hg).1 (List.length_eq_zero_iff.1 h)
  simp only [ip6Loop, hexField_text hg (noHex_colon _)]
  rw [if_neg t0, if_neg (by simp), if_neg (by decide), if_neg hc]
  rfl

theorem ip6Loop_end {s y : Bytes} (h : EndText s y) (n : Nat) (ip : Bytes) (e : Option Nat) (hn : ip.length + 2 * n = 16)
    (hy : ip.length + y.length ≤ 16) (he : e = none → ip.length + y.length = 16) :
    ip6Loop n ip e s = some (ip ++ y, e, []) := by
  induction h generalizing n ip with
  | @one t g hg =>
    cases n with
    | zero => simp only [groupBytes, List.length_cons, List.length_nil] at hy; omega
    | succ n =>
      have t0 : t.length ≠ 0 := fun h => (groupText_pos hg).1 (List.length_eq_zero_iff.1 h)
      have := hexField_text hg (rest := []) (by intro c m; cases m)
      rw [List.append_nil] at this
      simp only [ip6Loop, this]
      rw [if_neg t0, if_neg (by simp)]
      rfl
  | @ip4 a l =>
    cases n with
    | zero => omega
    | succ n =>
      rw [ipStr_four l]
      obtain ⟨x, r, hx, x0, hd, xl, _⟩ := ip4Str_shape a l
      have hf : hexField 0 0 (ip4Str a) = some (x.length, x.foldl (fun n c => n * 16 + digitVal c) 0, 0x2e :: r) := by
        rw [hx]
        have := hexField_append x (0x2e :: r) 0 0 (fun c m => isHex_dec (hd c m)) (by omega) (hex_small x hd xl)
          (by intro c m; cases m; decide)
        rw [Nat.zero_add] at this
        exact this
      have l0 : x.length ≠ 0 := fun e => x0 (List.length_eq_zero_iff.1 e)
      simp only [ip6Loop, hf]
      rw [if_neg l0, if_pos (by simp), if_neg, if_neg (by omega), (ip4_iff _ a).2 ⟨l, rfl⟩]
      rintro ⟨h1, h2⟩
      have := he h1
      omega
  | @more t s b g hg hs ih =>
    obtain ⟨c, r, e1, e2⟩ := endText_head hs
    simp only [List.length_append, show (groupBytes g).length = 2 from rfl] at hy he
    cases n with
    | zero => omega
    | succ n =>
      subst e1
      rw [ip6Loop_group hg n ip e c r e2, ih n _ (by simp only [List.length_append, show (groupBytes g).length = 2 from rfl]; omega)
        (by simp only [List.length_append, show (groupBytes g).length = 2 from rfl]; omega)
        (by simp only [List.length_append, show (groupBytes g).length = 2 from rfl]; intro h; have := he h; omega), List.append_assoc]

theorem groupsText_end {s y : Bytes} (h : GroupsText s y) : EndText s y := by
  induction h with
  | one hg => exact .one hg
  | more hg _ ih => exact .more hg ih

theorem ip6Loop_groups {s x : Bytes} (h : GroupsText s x) (n : Nat) (ip r : Bytes) (hn : ip.length + 2 * n = 16)
    (hx : ip.length + x.length ≤ 16) :
    ip6Loop n ip none (s ++ 0x3a :: 0x3a :: r) =
      if r = [] then some (ip ++ x, some (ip.length + x.length), [])
      else ip6Loop (n - x.length / 2) (ip ++ x) (some (ip.length + x.length)) r := by
  induction h generalizing n ip with
  | @one t g hg =>
    simp only [show (groupBytes g).length = 2 from rfl] at hx ⊢
    cases n with
    | zero => omega
    | succ n =>
      have t0 : t.length ≠ 0 := fun h => (groupText_pos hg).1 (List.length_eq_zero_iff.1 h)
      simp only [ip6Loop, hexField_text hg (noHex_colon _)]
      rw [if_neg t0, if_neg (by simp), if_neg (by decide), if_pos trivial, if_neg (by decide)]
      simp only [List.length_append, List.length_cons, List.length_nil, groupBytes]
      rfl
  | @more t s b g hg hs ih =>
    obtain ⟨c, u, e1, e2⟩ := endText_head (groupsText_end hs)
    simp only [List.length_append, show (groupBytes g).length = 2 from rfl] at hx ⊢
    cases n with
    | zero => omega
    | succ n =>
      have := ih n (ip ++ groupBytes g) (by simp only [List.length_append, show (groupBytes g).length = 2 from rfl]; omega)
        (by simp only [List.length_append, show (groupBytes g).length = 2 from rfl]; omega)
      subst e1
      simp only [List.append_assoc, List.cons_append, List.length_append, show (groupBytes g).length = 2 from rfl] at this ⊢
      rw [ip6Loop_group hg n ip none c _ e2, this, show ip.length + 2 + b.length = ip.length + (2 + b.length) by omega,
        show n - b.length / 2 = n + 1 - (2 + b.length) / 2 by omega]

theorem ip6_iff (s a : Bytes) : ip6Parse s = some a ↔ IP6Text s a := by
  constructor
  · intro h
    unfold ip6Parse at h
    split at h
    · rename_i r
      split at h
      · rename_i hr
        cases h
        subst hr
        exact .inr ⟨[], [], [], [], rfl, .inl ⟨rfl, rfl⟩, .inl ⟨rfl, rfl⟩, by decide, by decide⟩
      · rename_i hr
        obtain ⟨⟨ip', e', s'⟩, h1, h2⟩ := Option.bind_eq_some_iff.1 h
        simp only [ip6Expand] at h2
        split at h2
        · cases h2
        rename_i hs'
        have hs' : s' = [] := Decidable.of_not_not hs'
        subst hs'
        rcases ip6Loop_sound 8 [] r ip' _ e' hr h1 with ⟨rfl, y, ey, ht⟩ | ⟨e, _⟩
        · simp only [List.nil_append] at ey
          subst ey
          split at h2
          · rename_i hl
            cases h2
            refine .inr ⟨[], r, [], ip', rfl, .inl ⟨rfl, rfl⟩, .inr ht, by simpa using hl, ?_⟩
            simp [zeros]
          · simp at h2
        · cases e
    · rename_i hne
      obtain ⟨⟨ip', e', s'⟩, h1, h2⟩ := Option.bind_eq_some_iff.1 h
      simp only [ip6Expand] at h2
      split at h2
      · cases h2
      rename_i hs'
      have hs' : s' = [] := Decidable.of_not_not hs'
      subst hs'
      have s0 : s ≠ [] := by
        rintro rfl
        cases h1
      have le := ip6Loop_length 8 [] s none (by simp) _ h1
      simp only at le
      rcases ip6Loop_sound 8 [] s ip' _ e' s0 h1 with ⟨rfl, y, rfl, ht⟩ | ⟨_, f, x, r, y, rfl, hf, hr, rfl, rfl⟩
      · simp only at h2 le
        split at h2
        · cases h2
        · simp only [Option.isSome_none, Bool.false_eq_true, if_false, Option.some.injEq] at h2
          subst h2
          exact .inl ⟨ht, by omega⟩
      · simp only [List.nil_append, List.length_append, List.length_nil, Nat.zero_add] at h2 le
        split at h2
        · rename_i hl
          cases h2
          refine .inr ⟨f, r, x, y, rfl, .inr hf, hr, hl, ?_⟩
          rw [List.take_left, List.drop_left]
          rfl
        · simp at h2
  · rintro (⟨ht, hl⟩ | ⟨f, r, x, y, rfl, hf, hr, hl, rfl⟩)
    · obtain ⟨c, u, e1, e2⟩ := endText_head ht
      rw [ip6Parse_front, ip6Loop_end ht 8 [] none rfl (by simp [hl]) (by simp [hl])]
      · simp [ip6Expand, hl]
      · intro r e
        rw [e1] at e
        cases e
        exact e2 rfl
    · rcases hf with ⟨rfl, rfl⟩ | hf
      · simp only [List.nil_append, ip6Parse, List.length_nil, Nat.zero_add] at hl ⊢
        rcases hr with ⟨rfl, rfl⟩ | hr
        · rw [if_pos rfl]; rfl
        · obtain ⟨c, u, e1, e2⟩ := endText_head hr
          rw [if_neg (by rw [e1]; simp), ip6Loop_end hr 8 [] (some 0) rfl (by simp; omega) (by simp)]
          simp only [List.nil_append, Option.bind_some, ip6Expand]
          rw [if_neg (by simp), if_pos hl]
          simp [zeros]
      · obtain ⟨c, u, e1, e2⟩ := endText_head (groupsText_end hf)
        have xe : x.length % 2 = 0 := by
          clear e1 hl hr
          induction hf with
          | one => simp [groupBytes]
          | more _ h ih =>
            simp only [List.length_append, groupBytes, List.length_cons, List.length_nil]
            omega
        rw [ip6Parse_front, ip6Loop_groups hf 8 [] r rfl (by simp; omega)]
        · rcases hr with ⟨rfl, rfl⟩ | hr
          · simp only [List.length_nil, Nat.add_zero] at hl
            simp only [if_true, List.nil_append, Option.bind_some, ip6Expand, List.length_nil, Nat.zero_add, Nat.add_zero]
            rw [if_neg (by simp), if_pos hl]
            simp [zeros]
          · obtain ⟨d, v, e3, e4⟩ := endText_head hr
            rw [if_neg (by rw [e3]; simp), ip6Loop_end hr _ _ _ (by simp; omega) (by simp; omega) (by simp)]
            simp only [List.nil_append, Option.bind_some, ip6Expand, List.length_append, List.length_nil, Nat.zero_add]
            rw [if_neg (by simp), if_pos hl, List.take_left, List.drop_left]
            rfl
        · intro r' e
          rw [e1] at e
          exact e2 (List.cons.inj e).1

end SMC.Socket
