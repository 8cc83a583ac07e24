import Verif.Spec.CLCText
import Verif.Lemmas.Text
/-!
# Cutting the texts of CLC messages at their fields
-/

namespace SMC

open Spec CLC

/-! ## Texts of single fields -/

theorem rmbeSizeStr_sep {a b : UInt8} {s t : Bytes} : rmbeSizeStr a ++ s = rmbeSizeStr b ++ t ↔ a = b ∧ s = t := by
  constructor
  · intro h
    fields [rmbeSizeStr] at h
    obtain ⟨h1, h2⟩ := h
    cases UInt8.toNat_inj.1 h1
    simpa using h2
  · rintro ⟨rfl, rfl⟩; rfl

theorem clcQpmtuStr_sep {a b : UInt8} {s t : Bytes} :
    CLC.qpmtuStr a ++ s = CLC.qpmtuStr b ++ t ↔ a = b ∧ s = t := by
  constructor
  · intro h
    fields [CLC.qpmtuStr] at h
    obtain ⟨h1, h2⟩ := h
    cases UInt8.toNat_inj.1 h1
    simpa using h2
  · rintro ⟨rfl, rfl⟩; rfl

theorem osTypeStr_sep {a b : UInt8} {s t : Bytes} : osTypeStr a ++ s = osTypeStr b ++ t ↔ a = b ∧ s = t := by
  constructor
  · intro h
    fields [osTypeStr] at h
    obtain ⟨h1, h2⟩ := h
    cases UInt8.toNat_inj.1 h1
    simpa using h2
  · rintro ⟨rfl, rfl⟩; rfl

theorem peerDiagnosisStr_sep {a b : UInt32} {s t : Bytes} :
    peerDiagnosisStr a ++ s = peerDiagnosisStr b ++ t ↔ a = b ∧ s = t := by
  constructor
  · intro h
    fields [peerDiagnosisStr] at h
    obtain ⟨h1, h2⟩ := h
    cases UInt32.toNat_inj.1 h1
    simpa using h2
  · rintro ⟨rfl, rfl⟩; rfl

theorem inst_inj {a b c d : UInt8} (h : (b.toUInt16 ||| (a.toUInt16 <<< 8)).toNat = (d.toUInt16 ||| (c.toUInt16 <<< 8)).toNat) :
    a = c ∧ b = d := by
  have f : ∀ x y : UInt8, (y.toUInt16 ||| (x.toUInt16 <<< 8)).toNat = x.toNat * 256 + y.toNat := by
    intro x y
    have hx := x.toNat_lt
    have hy := y.toNat_lt
    simp only [UInt16.toNat_or, UInt16.toNat_shiftLeft, UInt8.toNat_toUInt16, UInt16.toNat_ofNat]
    rw [Nat.or_comm, Nat.shiftLeft_eq, Nat.mod_eq_of_lt (by simp; omega)]
    have := Nat.two_pow_add_eq_or_of_lt (i := 8) (b := y.toNat) (by simpa using hy) x.toNat
    simp only [Nat.reduceMod, Nat.reducePow] at *
    rw [Nat.mul_comm, ← this]
  rw [f, f] at h
  have h1 := a.toNat_lt; have h2 := b.toNat_lt; have h3 := c.toNat_lt; have h4 := d.toNat_lt
  exact ⟨UInt8.toNat_inj.1 (by omega), UInt8.toNat_inj.1 (by omega)⟩

theorem peerIDStr_sep {a b : Bytes} {c : UInt8} {l s t : Bytes} (ha : a.length = 8) (hb : b.length = 8) (hc : isAddr c = false) :
    peerIDStr a ++ ((c :: l) ++ s) = peerIDStr b ++ ((c :: l) ++ t) ↔ a = b ∧ s = t := by
  constructor
  · intro h
    fields [peerIDStr] at h
    obtain ⟨h1, h2⟩ := h
    obtain ⟨h3, h4⟩ := inst_inj h1
    refine ⟨?_, h2.2⟩
    have h5 := h2.1
    match a, ha, b, hb with
    | [a1, a2, a3, a4, a5, a6, a7, a8], _, [b1, b2, b3, b4, b5, b6, b7, b8], _ => simp_all
  · rintro ⟨rfl, rfl⟩; rfl

theorem prefix_sep {a b : IPv6Prefix} {c : UInt8} {l s t : Bytes} (ha : a.pfx.length = 16) (hb : b.pfx.length = 16)
    (hd : isDec c = false) :
    a.string ++ ((c :: l) ++ s) = b.string ++ ((c :: l) ++ t) ↔ a = b ∧ s = t := by
  have h1 : a.pfx.length ≠ 4 := by omega
  have h2 : b.pfx.length ≠ 4 := by omega
  constructor
  · intro h
    fields [IPv6Prefix.string] at h
    rw [UInt8.toNat_inj] at h
    cases a; cases b; simp_all
  · rintro ⟨rfl, rfl⟩; rfl

/-! ## Header and trailer -/

theorem eyecatcherStr_inj {a b : Bytes} (ha : IsEye a) (hb : IsEye b) (h : eyecatcherStr a = eyecatcherStr b) : a = b := by
  rcases ha with rfl | rfl <;> rcases hb with rfl | rfl <;> first | rfl | (exfalso; revert h; decide)

theorem eyecatcherStr_no (a : Bytes) : (44 : UInt8) ∉ eyecatcherStr a := by
  unfold eyecatcherStr; split <;> (try split) <;> decide

theorem msgTypeStr_no (a c : UInt8) (hc : c = 58 ∨ c = 41) : c ∉ msgTypeStr a := by
  unfold msgTypeStr; rcases hc with rfl | rfl <;> (repeat' split) <;> decide

theorem pathStr_no (a : UInt8) : (44 : UInt8) ∉ pathStr a := by
  unfold pathStr; (repeat' split) <;> decide

theorem pathStr_inj {a b : UInt8} (ha : a.toNat < 4) (hb : b.toNat < 4) (h : pathStr a = pathStr b) : a = b := by
  have e : ∀ x : UInt8, x.toNat < 4 → x = 0 ∨ x = 1 ∨ x = 2 ∨ x = 3 := by
    intro x hx
    have : x.toNat = 0 ∨ x.toNat = 1 ∨ x.toNat = 2 ∨ x.toNat = 3 := by omega
    rcases this with h | h | h | h
    · exact Or.inl (UInt8.toNat_inj.1 h)
    · exact Or.inr (Or.inl (UInt8.toNat_inj.1 h))
    · exact Or.inr (Or.inr (Or.inl (UInt8.toNat_inj.1 h)))
    · exact Or.inr (Or.inr (Or.inr (UInt8.toNat_inj.1 h)))
  rcases e a ha with rfl | rfl | rfl | rfl <;> rcases e b hb with rfl | rfl | rfl | rfl <;>
    first | rfl | (exfalso; revert h; decide)

theorem dec_no (n : Nat) : (44 : UInt8) ∉ dec n := not_mem_of_all (dec_all n) (by decide)

theorem flagString_no (h : Header) : (44 : UInt8) ∉ h.flagString := by
  unfold Header.flagString
  (repeat' split) <;> unfmt [List.append_nil] <;>
    simp only [List.mem_append, not_or] <;> refine ⟨by decide, ?_⟩ <;>
    first | exact pathStr_no _ | exact dec_no _

theorem flagString_inj {h h' : Header} (ht : h.Typ = h'.Typ) (hv : h.Version = h'.Version) (hp : h.Path = h'.Path)
    (h1 : h.Pathv2.toNat < 4) (h2 : h'.Pathv2.toNat < 4) (e : h.flagString = h'.flagString) :
    if h.Typ = 1 ∧ h.Version = 2 then h.Pathv2 = h'.Pathv2 else h.Flag = h'.Flag := by
  unfold Header.flagString at e
  rw [← ht, ← hv, ← hp] at e
  split
  · rename_i c
    have c1 : h.Typ = TypeProposal := c.1
    have c2 : h.Version = SMCv2 := c.2
    rw [if_pos c1, if_pos c2, if_pos c1, if_pos c2] at e
    unfmt [List.append_nil, List.append_cancel_left_eq] at e
    exact pathStr_inj h1 h2 e
  · rename_i c
    apply UInt8.toNat_inj.1
    apply dec_inj
    by_cases c1 : h.Typ = TypeProposal
    · have c2 : ¬ h.Version = SMCv2 := fun c2 => c ⟨c1, c2⟩
      rw [if_pos c1, if_neg c2, if_pos c1, if_neg c2] at e
      unfmt [List.append_nil, List.append_cancel_left_eq] at e
      exact e
    · rw [if_neg c1, if_neg c1] at e
      (repeat' split at e) <;> unfmt [List.append_nil, List.append_cancel_left_eq] at e <;> exact e

theorem header_cut {h h' : Header} (hp : PlainHeader h) (hp' : PlainHeader h') {l s t : Bytes}
    (e : h.string ++ ((44 :: l) ++ s) = h'.string ++ ((44 :: l) ++ t)) :
    hdrFields { h with rsv := 0 } = hdrFields { h' with rsv := 0 } ∧ s = t := by
  unfmt [Header.string] at e
  have e1 := (str_sep (msgTypeStr_no h.Typ _ (Or.inl rfl)) (msgTypeStr_no h'.Typ _ (Or.inl rfl))).1 e
  have e2 := (str_sep (eyecatcherStr_no h.Eyecatcher) (eyecatcherStr_no h'.Eyecatcher)).1 e1.2
  have e3 := (dec_sep (by decide)).1 e2.2
  have e4 := (str_sep (msgTypeStr_no h.Typ _ (Or.inr rfl)) (msgTypeStr_no h'.Typ _ (Or.inr rfl))).1 e3.2
  have e5 := (dec_sep (by decide)).1 e4.2
  have e6 := (dec_sep (by decide)).1 e5.2
  have e7 := (str_sep (flagString_no h) (flagString_no h')).1 e6.2
  have e8 := (str_sep (l := l) (pathStr_no h.Path) (pathStr_no h'.Path)).1 e7.2
  have f1 := eyecatcherStr_inj hp.eye hp'.eye e2.1
  have f2 := UInt8.toNat_inj.1 e3.1
  have f3 := UInt16.toNat_inj.1 e5.1
  have f4 := UInt8.toNat_inj.1 e6.1
  have f5 := pathStr_inj hp.path hp'.path e8.1
  have f6 := flagString_inj f2 f4 f5 hp.pathv2 hp'.pathv2 e7.1
  refine ⟨?_, e8.2⟩
  cases h; cases h'
  simp only at *
  subst f1 f2 f3 f4 f5
  unfold hdrFields
  split at f6
  · rename_i c; rw [if_pos c, if_pos c]; simp [f6]
  · rename_i c; rw [if_neg c, if_neg c]; simp [f6]

/-! ## Lists -/

theorem prefixes_next (rs : List IPv6Prefix) (l r : Bytes) : ∃ r', prefixesStr rs ++ ((44 :: l) ++ r) = (44 :: []) ++ r' := by
  cases rs with
  | nil => exact ⟨_, rfl⟩
  | cons x xs =>
    unfmt [prefixesStr, List.flatMap_cons]
    exact ⟨_, rfl⟩

theorem prefixes_cut {ps qs : List IPv6Prefix} (hp : PlainPrefixes ps) (hq : PlainPrefixes qs) {c : UInt8} {l s t : Bytes}
    (hc : c ≠ 73) (h : prefixesStr ps ++ ((44 :: 32 :: c :: l) ++ s) = prefixesStr qs ++ ((44 :: 32 :: c :: l) ++ t)) :
    ps = qs ∧ s = t := by
  induction ps generalizing qs with
  | nil =>
    cases qs with
    | nil => exact ⟨rfl, by simpa [prefixesStr] using h⟩
    | cons q qs =>
      exfalso
      unfmt [prefixesStr, List.flatMap_nil, List.flatMap_cons] at h
      injection h with _ h
      injection h with _ h
      injection h with h _
      exact hc h
  | cons p ps ih =>
    cases qs with
    | nil =>
      exfalso
      unfmt [prefixesStr, List.flatMap_nil, List.flatMap_cons] at h
      injection h with _ h
      injection h with _ h
      injection h with h _
      exact hc h.symm
    | cons q qs =>
      unfmt [prefixesStr, List.flatMap_cons, List.append_cancel_left_eq] at h
      obtain ⟨r1, k1⟩ := prefixes_next ps (32 :: c :: l) s
      obtain ⟨r2, k2⟩ := prefixes_next qs (32 :: c :: l) t
      change p.string ++ (prefixesStr ps ++ ((44 :: 32 :: c :: l) ++ s)) = q.string ++ (prefixesStr qs ++ ((44 :: 32 :: c :: l) ++ t)) at h
      rw [k1, k2, prefix_sep (hp p (by simp)) (hq q (by simp)) (by decide)] at h
      obtain ⟨rfl, rfl⟩ := h
      obtain ⟨rfl, h2⟩ := ih (fun x hx => hp x (by simp [hx])) (fun x hx => hq x (by simp [hx])) (k1.trans k2.symm)
      exact ⟨rfl, h2⟩

/-- a number and a list of prefixes -/
theorem count_cut {ps qs : List IPv6Prefix} (hp : PlainPrefixes ps) (hq : PlainPrefixes qs) {n m : Nat} {c : UInt8} {l s t : Bytes}
    (hc : c ≠ 73)
    (h : dec n ++ (prefixesStr ps ++ ((44 :: 32 :: c :: l) ++ s)) = dec m ++ (prefixesStr qs ++ ((44 :: 32 :: c :: l) ++ t))) :
    n = m ∧ ps = qs ∧ s = t := by
  obtain ⟨r1, k1⟩ := prefixes_next ps (32 :: c :: l) s
  obtain ⟨r2, k2⟩ := prefixes_next qs (32 :: c :: l) t
  rw [k1, k2] at h
  obtain ⟨h1, rfl⟩ := (dec_sep (by decide)).1 h
  exact ⟨h1, prefixes_cut hp hq hc (k1.trans k2.symm)⟩

theorem eids_cut (n : Nat) {i : Nat} {es fs : List Bytes} (hl : es.length = fs.length)
    (he : ∀ e ∈ es, 44 ∉ eidStr e ∧ 93 ∉ eidStr e) (hf : ∀ e ∈ fs, 44 ∉ eidStr e ∧ 93 ∉ eidStr e) {l s t : Bytes}
    (h : eidsStr n i es ++ ((93 :: l) ++ s) = eidsStr n i fs ++ ((93 :: l) ++ t)) :
    (es.take (n - i)).map eidStr = (fs.take (n - i)).map eidStr ∧ s = t := by
  induction es generalizing i fs with
  | nil =>
    cases fs with
    | nil => exact ⟨rfl, by simpa [eidsStr] using h⟩
    | cons f fs => simp at hl
  | cons e es ih =>
    cases fs with
    | nil => simp at hl
    | cons f fs =>
      simp only [List.length_cons, Nat.add_right_cancel_iff] at hl
      unfold eidsStr at h
      by_cases hi : i ≥ n
      · rw [if_pos hi, if_pos hi] at h
        simp only [List.nil_append, List.append_cancel_left_eq] at h
        exact ⟨by rw [Nat.sub_eq_zero_of_le hi]; rfl, h⟩
      · rw [if_neg hi, if_neg hi] at h
        unfmt [List.append_cancel_left_eq] at h
        have nx : ∃ c, (c = 44 ∨ c = 93) ∧ ∀ (xs : List Bytes) (r : Bytes), xs.length = es.length →
            ∃ r', eidsStr n (i + 1) xs ++ ((93 :: l) ++ r) = (c :: []) ++ r' := by
          by_cases hi2 : i + 1 ≥ n ∨ es.length = 0
          · refine ⟨93, Or.inr rfl, fun xs r hx => ⟨l ++ r, ?_⟩⟩
            have : eidsStr n (i + 1) xs = [] := by
              cases xs with
              | nil => rfl
              | cons x xs =>
                unfold eidsStr
                rw [if_pos]
                rcases hi2 with c | c
                · exact c
                · simp at hx; omega
            rw [this]; rfl
          · refine ⟨44, Or.inl rfl, fun xs r hx => ?_⟩
            cases xs with
            | nil => simp at hx; omega
            | cons x xs =>
              unfold eidsStr
              rw [if_neg (fun c => hi2 (Or.inl c)), if_pos (by omega)]
              exact ⟨_, rfl⟩
        obtain ⟨c, hc, nx⟩ := nx
        obtain ⟨r1, k1⟩ := nx es s rfl
        obtain ⟨r2, k2⟩ := nx fs t hl.symm
        rw [k1, k2] at h
        have he1 := he e (by simp)
        have hf1 := hf f (by simp)
        have h := (str_sep (hc.elim (fun c => c ▸ he1.1) (fun c => c ▸ he1.2))
          (hc.elim (fun c => c ▸ hf1.1) (fun c => c ▸ hf1.2))).1 h
        obtain ⟨h1, rfl⟩ := h
        have ih := ih hl (fun x hx => he x (by simp [hx])) (fun x hx => hf x (by simp [hx])) (k1.trans k2.symm)
        have hn : n - i = (n - (i + 1)) + 1 := by omega
        rw [hn]
        exact ⟨by simp only [List.take_succ_cons, List.map_cons, h1, ih.1], ih.2⟩

theorem gids_cut (n : Nat) {i : Nat} {gs fs : List GIDEntry} (hl : gs.length = fs.length) {l s t : Bytes}
    (h : gidsStr n i gs ++ ((93 :: l) ++ s) = gidsStr n i fs ++ ((93 :: l) ++ t)) :
    gs.take (n - i) = fs.take (n - i) ∧ s = t := by
  induction gs generalizing i fs with
  | nil =>
    cases fs with
    | nil => exact ⟨rfl, by simpa [gidsStr] using h⟩
    | cons f fs => simp at hl
  | cons e es ih =>
    cases fs with
    | nil => simp at hl
    | cons f fs =>
      simp only [List.length_cons, Nat.add_right_cancel_iff] at hl
      unfold gidsStr at h
      by_cases hi : i ≥ n
      · rw [if_pos hi, if_pos hi] at h
        simp only [List.nil_append, List.append_cancel_left_eq] at h
        exact ⟨by rw [Nat.sub_eq_zero_of_le hi]; rfl, h⟩
      · rw [if_neg hi, if_neg hi] at h
        unfmt [List.append_cancel_left_eq] at h
        have h := (dec_sep (by decide)).1 h
        obtain ⟨h1, h⟩ := h
        simp only [List.append_cancel_left_eq] at h
        have nx : ∃ c, (c = 44 ∨ c = 93) ∧ ∀ (xs : List GIDEntry) (r : Bytes), xs.length = es.length →
            ∃ r', gidsStr n (i + 1) xs ++ ((93 :: l) ++ r) = (c :: []) ++ r' := by
          by_cases hi2 : i + 1 ≥ n ∨ es.length = 0
          · refine ⟨93, Or.inr rfl, fun xs r hx => ⟨l ++ r, ?_⟩⟩
            have : gidsStr n (i + 1) xs = [] := by
              cases xs with
              | nil => rfl
              | cons x xs =>
                unfold gidsStr
                rw [if_pos]
                rcases hi2 with c | c
                · exact c
                · simp at hx; omega
            rw [this]; rfl
          · refine ⟨44, Or.inl rfl, fun xs r hx => ?_⟩
            cases xs with
            | nil => simp at hx; omega
            | cons x xs =>
              unfold gidsStr
              rw [if_neg (fun c => hi2 (Or.inl c)), if_pos (by omega)]
              exact ⟨_, rfl⟩
        obtain ⟨c, hc, nx⟩ := nx
        obtain ⟨r1, k1⟩ := nx es s rfl
        obtain ⟨r2, k2⟩ := nx fs t hl.symm
        rw [k1, k2] at h
        have h := (dec_sep (by rcases hc with rfl | rfl <;> decide)).1 h
        obtain ⟨h2, rfl⟩ := h
        have ih := ih hl (k1.trans k2.symm)
        have hn : n - i = (n - (i + 1)) + 1 := by omega
        rw [hn]
        refine ⟨?_, ih.2⟩
        have : e = f := by
          cases e; cases f
          simp only [GIDEntry.mk.injEq]
          exact ⟨UInt64.toNat_inj.1 h1, UInt16.toNat_inj.1 h2⟩
        simp only [List.take_succ_cons, this, ih.1]

/-! ## EIDs -/

theorem eidStr_eq (e : Bytes) : eidStr e = trimRight (e.take ((e.findIdx? (· = 0)).getD e.length)) := by
  unfold eidStr
  unfmt [List.append_nil]

end SMC
