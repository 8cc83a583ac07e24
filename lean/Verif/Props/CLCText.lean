import Verif.Lemmas.CLCText
/-!
# C49–C53, C55: texts of CLC messages
-/

namespace SMC.Props

open SMC Spec CLC

/-! ## C49 -/

/-- C49: messages that differ in raw bytes and reserved fields only have the same text. -/
theorem C49_string_ignores_reserved (m m' : Message) (h : noReserved m = noReserved m') : m.string = m'.string := by
  have f : ∀ m : Message, (noReserved m).string = m.string := by intro m; cases m <;> rfl
  rw [← f m, ← f m', h]

example : noReserved (.decline { rsv := [1, 2, 3, 4], PeerDiagnosis := 5 }) = noReserved (.decline { PeerDiagnosis := 5 }) := rfl

/-! ## C51 -/

theorem trimRight_spec (s : Bytes) : ∃ n, s = trimRight s ++ List.replicate n 32 := by
  have f : ∀ r : Bytes, ∃ n, r = List.replicate n 32 ++ r.dropWhile (· = 32) := by
    intro r
    induction r with
    | nil => exact ⟨0, rfl⟩
    | cons c r ih =>
      by_cases hc : c = 32
      · obtain ⟨n, hn⟩ := ih
        refine ⟨n + 1, ?_⟩
        rw [List.dropWhile_cons_of_pos (by simpa using hc), List.replicate_succ, hc]
        simpa using hn
      · exact ⟨0, by rw [List.dropWhile_cons_of_neg (by simpa using hc)]; rfl⟩
  obtain ⟨n, hn⟩ := f s.reverse
  refine ⟨n, ?_⟩
  have := congrArg List.reverse hn
  simpa [trimRight] using this

theorem trimRight_last (s : Bytes) : (trimRight s).getLast? ≠ some 32 := by
  unfold trimRight
  rw [List.getLast?_reverse]
  intro h
  have := List.head?_dropWhile_not (p := fun c : UInt8 => decide (c = 32)) s.reverse
  rw [h] at this
  simp at this

/-- C51: the text of an EID is the EID up to its first NUL byte without trailing blanks. -/
theorem C51_eid_text (e : Bytes) : EIDText e (eidStr e) := by
  rw [eidStr_eq]
  obtain ⟨n, hn⟩ := trimRight_spec (e.take ((e.findIdx? (· = 0)).getD e.length))
  have hno : 0 ∉ e.take ((e.findIdx? (· = 0)).getD e.length) := by
    intro h
    cases hf : e.findIdx? (· = 0) with
    | none =>
      rw [hf] at h
      have := List.findIdx?_eq_none_iff.1 hf 0 (List.mem_of_mem_take h)
      simp at this
    | some i =>
      rw [hf] at h
      obtain ⟨hi, -, h2⟩ := List.findIdx?_eq_some_iff_getElem.1 hf
      obtain ⟨j, hj, h3⟩ := List.mem_iff_getElem.1 h
      simp only [Option.getD_some, List.length_take] at hj
      have := h2 j (by omega)
      rw [List.getElem_take] at h3
      simp [h3] at this
  refine ⟨⟨n, e.drop ((e.findIdx? (· = 0)).getD e.length), ?_, ?_⟩, ?_, trimRight_last _⟩
  · rw [← hn, List.take_append_drop]
  · cases hf : e.findIdx? (· = 0) with
    | none => left; simp
    | some i =>
      right
      obtain ⟨hi, h1, -⟩ := List.findIdx?_eq_some_iff_getElem.1 hf
      refine ⟨e.drop (i + 1), ?_⟩
      have h1 : e[i] = 0 := by simpa using h1
      rw [Option.getD_some, List.drop_eq_getElem_cons hi, h1]
  · intro h
    apply hno
    rw [hn]
    exact List.mem_append_left _ h

theorem trim_unique {t t' : Bytes} {n n' : Nat} (h : t.getLast? ≠ some 32) (h' : t'.getLast? ≠ some 32)
    (e : t ++ List.replicate n 32 = t' ++ List.replicate n' 32) : t = t' := by
  have f : ∀ (t : Bytes) n, t.getLast? ≠ some 32 → trimRight (t ++ List.replicate n 32) = t := by
    intro t n h
    unfold trimRight
    rw [List.reverse_append, List.reverse_replicate, List.dropWhile_append_of_pos (by simp)]
    cases hr : t.reverse with
    | nil => simpa using hr
    | cons c r =>
      have hc : t.getLast? = some c := by rw [← List.head?_reverse, hr]; rfl
      rw [List.dropWhile_cons_of_neg (by intro h2; apply h; rw [hc]; simpa using h2), ← hr, List.reverse_reverse]
  rw [← f t n h, e, f t' n' h']

/-- C51: there is only one such text. -/
theorem C51_eid_text_unique (e t : Bytes) (h : EIDText e t) : t = eidStr e := by
  have g := C51_eid_text e
  obtain ⟨n, r, h1, h2⟩ := h.split
  obtain ⟨n', r', h3, h4⟩ := g.split
  have no : ∀ (t : Bytes) n, 0 ∉ t → (0 : UInt8) ∉ t ++ List.replicate n 32 := by
    intro t n ht h
    rcases List.mem_append.1 h with h | h
    · exact ht h
    · have := List.eq_of_mem_replicate h; revert this; decide
  have a := no t n h.noNul
  have b := no (eidStr e) n' g.noNul
  have h3 := h1.symm.trans h3
  refine trim_unique (n := n) (n' := n') h.trimmed g.trimmed ?_
  rcases h2 with rfl | ⟨x, rfl⟩ <;> rcases h4 with rfl | ⟨y, rfl⟩
  · simpa using h3
  · exfalso; apply a; rw [List.append_nil] at h3; rw [h3]; simp
  · exfalso; apply b; rw [List.append_nil] at h3; rw [← h3]; simp
  · exact ((append_sep a b).1 h3).1

example : eidStr (go! "IBM-SYSZ  " ++ hex! "00 41 20 00") = go! "IBM-SYSZ" := by decide +kernel
example : EIDText (go! "a b  ") (go! "a b") := ⟨⟨2, [], rfl, .inl rfl⟩, by decide, by decide⟩

/-! ## C52 -/

/-- C52: sizes below 49 are shown with their uncompressed values. All sizes that `Parse` can
produce are below 16. -/
theorem C52_rmbe_size (s : UInt8) (hs : s.toNat < 49) :
    rmbeSizeStr s = dec s.toNat ++ go! " (" ++ dec (2 ^ (s.toNat + 14)) ++ go! ")" := by
  have h : (s + 14).toNat = s.toNat + 14 := by
    rw [UInt8.toNat_add]
    change (s.toNat + 14) % 256 = _
    omega
  unfold rmbeSizeStr
  unfmt [List.append_nil, h, shiftStr]
  rw [if_pos (by omega)]

/-- C52: the texts of the sizes beyond, which `Parse` cannot produce, are wrong: the `int` overflows, or the `uint8` wraps
around -/
theorem C52_rmbe_beyond (s : UInt8) :
    (s.toNat = 49 → rmbeSizeStr s = go! "49 (-9223372036854775808)") ∧
    (50 ≤ s.toNat → s.toNat < 242 → rmbeSizeStr s = dec s.toNat ++ go! " (0)") ∧
    (242 ≤ s.toNat → rmbeSizeStr s = dec s.toNat ++ go! " (" ++ dec (2 ^ (s.toNat - 242)) ++ go! ")") := by
  have lt := s.toNat_lt
  have h : (s + 14).toNat = (s.toNat + 14) % 256 := by
    rw [UInt8.toNat_add]
    rfl
  refine ⟨fun hs => ?_, fun hs hs' => ?_, fun hs => ?_⟩
  · obtain rfl : s = 49 := UInt8.toNat_inj.1 hs
    decide +kernel
  · unfold rmbeSizeStr
    unfmt [List.append_nil, h, shiftStr]
    rw [if_neg (by omega), if_neg (by omega)]
    rfl
  · unfold rmbeSizeStr
    unfmt [List.append_nil, h, shiftStr]
    rw [if_pos (by omega), show (s.toNat + 14) % 256 = s.toNat - 242 by omega]

example : rmbeSizeStr 49 = go! "49 (-9223372036854775808)" ∧ rmbeSizeStr 50 = go! "50 (0)" ∧
    rmbeSizeStr 242 = go! "242 (1)" := by decide +kernel

/-! ## C53 -/

theorem diagText_mem : ∀ p ∈ diagnoses, diagText (UInt32.ofNat p.1) = p.2 := by decide +kernel

theorem diagText_other (p : UInt32) (h : ∀ t, (p.toNat, t) ∉ diagnoses) : diagText p = go! "Unknown" := by
  have f : ∀ q ∈ diagnoses, ¬ p = UInt32.ofNat q.1 := by
    rintro ⟨c, t⟩ hq rfl
    apply h t
    have hc : ∀ q ∈ diagnoses, q.1 < 2 ^ 32 := by decide
    have := hc _ hq
    simp only at this
    rw [UInt32.toNat_ofNat_of_lt' this]
    exact hq
  simp only [diagnoses, List.forall_mem_cons] at f
  unfold diagText
  iterate 30 (refine (if_neg f.1).trans ?_; replace f := f.2)
  rfl

/-- C53: every known code prints its value and its own description. -/
theorem C53_known (c : Nat) (t : Bytes) (h : (c, t) ∈ diagnoses) :
    peerDiagnosisStr (UInt32.ofNat c) = hexInt c ++ go! " (" ++ t ++ go! ")" := by
  have hc : ∀ q ∈ diagnoses, q.1 < 2 ^ 32 := by decide
  unfold peerDiagnosisStr
  unfmt [List.append_nil, diagText_mem _ h]
  rw [UInt32.toNat_ofNat_of_lt' (hc _ h)]

/-- C53: all other codes print their values and "Unknown". -/
theorem C53_unknown (p : UInt32) (h : ∀ t, (p.toNat, t) ∉ diagnoses) :
    peerDiagnosisStr p = hexInt p.toNat ++ go! " (Unknown)" := by
  unfold peerDiagnosisStr
  rw [diagText_other p h]
  unfmt [List.append_nil]
  rfl

/-- C53: distinct codes have distinct texts. -/
theorem C53_injective (p q : UInt32) (h : peerDiagnosisStr p = peerDiagnosisStr q) : p = q :=
  (peerDiagnosisStr_sep (s := []) (t := []).1 (by rw [h])).1

/-- C53: the descriptions are distinct and none of them is "Unknown". -/
theorem C53_descriptions : (diagnoses.map (·.1)).Nodup ∧ (diagnoses.map (·.2)).Nodup ∧
    go! "Unknown" ∉ diagnoses.map (·.2) := by decide +kernel

example : (0x03030000, go! "no SMC device found (R or D)") ∈ diagnoses := by decide
example : ∀ t, ((0x03030008 : UInt32).toNat, t) ∉ diagnoses := by
  intro t h
  have : ∀ q ∈ diagnoses, q.1 ≠ 0x03030008 := by decide
  exact this _ h rfl

/-! ## C55 -/

/-- C55: the option is found at any position, and only the SMC option is taken for it. -/
theorem C55_option (opts : List TCPOption) :
    checkSMCOption opts = true ↔
      ∃ o ∈ opts, o.OptionType = 254 ∧ o.OptionLength = 6 ∧ o.OptionData = [0xE2, 0xD4, 0xC3, 0xD9] := by
  induction opts with
  | nil => simp [checkSMCOption]
  | cons o opts ih =>
    unfold checkSMCOption
    by_cases h : o.OptionType = 254 ∧ o.OptionLength = 6 ∧ o.OptionData = SMCOption
    · rw [if_pos h]
      exact ⟨fun _ => ⟨o, by simp, h⟩, fun _ => rfl⟩
    · rw [if_neg h, ih]
      constructor
      · rintro ⟨x, hx, h2⟩
        exact ⟨x, by simp [hx], h2⟩
      · rintro ⟨x, hx, h2⟩
        rcases List.mem_cons.1 hx with rfl | hx
        · exact absurd h2 h
        · exact ⟨x, hx, h2⟩

example : checkSMCOption [⟨2, 4, hex! "05b4"⟩, ⟨1, 1, []⟩, ⟨254, 6, hex! "e2d4c3d9"⟩] = true ∧
    checkSMCOption [⟨254, 6, hex! "e2d4c3c4"⟩, ⟨253, 6, hex! "e2d4c3d9"⟩] = false := by decide

end SMC.Props
