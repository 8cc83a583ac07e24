import Verif.Spec.Stream
import Verif.Props.CLCRound
/-!
# C82: streams of CLC messages
-/

namespace SMC.Props

open SMC Spec CLC

/-- the first bytes of an encoding -/
theorem header_first {v : Bytes} {h : Header} {n : Nat} {r : List Bool} (f : FitsHeader h n) (hv : toBits v = bitsHeader h ++ r) :
    raw v 0 4 = h.Eyecatcher ∧ num v 4 0 8 = h.Typ.toNat ∧ num v 7 0 4 = h.Version.toNat := by
  obtain ⟨f1, f2, f3, f4, f5, f6, f7⟩ := f
  unfold bitsHeader at hv
  simp only [List.append_assoc] at hv
  have d0 : (toBits v).drop 0 = _ := hv
  have d1 := drop_next d0 (n := 32) (by simp [f1])
  have d2 := drop_next d1 (n := 8) (by simp)
  have d3 := drop_next d2 (n := 16) (by simp)
  refine ⟨raw_of_seg ?_, num_drop d1 h.Typ.toNat_lt, num_drop d3 f3⟩
  unfold seg
  rw [d0, List.take_append_of_le_length (by simp [f1]), List.take_of_length_le (by simp [f1])]

/-- C82: in front of anything else, an encoded message is recognised with its length. -/
theorem C82_recognised (m : Message) (hf : FitsCLC m) (hk : Known m) (rest e : Bytes) :
    newMessage ⟨pack (bitsCLC m) ++ rest, e⟩ = .ret [] (some (freshCLC (clcKind m)), m.hdr.Length) ∧
      m.hdr.Length.toNat = (pack (bitsCLC m)).length := by
  obtain ⟨n, r, f1, f2, f3⟩ := fits_shape hf
  have hv := toBits_pack n _ f3
  have hlen := pack_length n _ f3
  have hs := fits_snug hf hv
  have hacc := snug_accepted hs.1
  have hd0 := (header_read f1 (hv.trans f2)).1
  generalize pack (bitsCLC m) = v at hv hlen hs hacc hd0
  have h28 : 28 ≤ v.length := by
    have := hacc.1
    have : 28 ≤ minLen (clcKind m) := by cases clcKind m <;> decide
    omega
  have hv' : toBits (v ++ rest) = bitsHeader m.hdr ++ (r ++ toBits rest) := by
    rw [Spec.toBits_append, hv, f2, List.append_assoc]
  obtain ⟨g1, g2, g3⟩ := header_read f1 hv'
  obtain ⟨g4, g5, g6⟩ := header_first f1 hv'
  obtain ⟨k1, k2, k3⟩ := hk
  have hcl : classify (v ++ rest) = some (clcKind m) := by
    unfold classify
    have := f1.2.1
    rw [g4, g5, g6, g2, if_pos ⟨k1, by omega⟩, k3]
  have h8 : 8 ≤ (⟨v ++ rest, e⟩ : Slice).len := by rw [Slice.len_mk, List.length_append]; omega
  obtain ⟨l, n', h1⟩ := C29_newMessage_kind ⟨v ++ rest, e⟩ h8
  dsimp only at h1
  rw [hcl, Option.map_some] at h1
  have hlog := (C29_newMessage_log ⟨v ++ rest, e⟩ h8).2 (by
    rintro ⟨-, c⟩
    have := f1.2.1
    dsimp only at c
    omega)
  have hn := ((C30_newMessage_length ⟨v ++ rest, e⟩ h8 l _ n' h1).1 rfl).1
  rw [h1] at hlog
  have hlog : l = [] := hlog
  have hn' : n' = m.hdr.Length := by
    rw [← UInt16.toNat_inj, hn, f1.2.1]; exact g1
  rw [h1, hlog, hn']
  exact ⟨rfl, by rw [f1.2.1, hlen]⟩

/-- C82: messages sent one after another are all read back from the stream, and nothing is reported but trailers that are
no eyecatchers. -/
theorem C82_stream (ms : List Message) (hf : ∀ m ∈ ms, FitsCLC m) (hk : ∀ m ∈ ms, Known m) (e : Bytes) (n : Nat)
    (hn : ms.length ≤ n) :
    ∃ ms', readStream n ⟨stream ms, e⟩ = .ret (ms.flatMap trailerLines) ms' ∧ ms'.map core = ms.map core ∧
      ms'.map (·.trailer) = ms.map (·.trailer) := by
  induction ms generalizing n with
  | nil =>
    refine ⟨[], ?_, rfl, rfl⟩
    cases n <;> rfl
  | cons m ms ih =>
    obtain ⟨n, rfl⟩ : ∃ k, n = k + 1 := ⟨n - 1, by simp at hn; omega⟩
    have fm := hf m (by simp)
    obtain ⟨h1, h2⟩ := C82_recognised m fm (hk m (by simp)) (stream ms) e
    obtain ⟨m', h3, h4, h5⟩ := C81_roundtrip m fm (stream ms ++ e)
    obtain ⟨ms', h6, h7, h8⟩ := ih (fun x hx => hf x (by simp [hx])) (fun x hx => hk x (by simp [hx])) n (by simpa using hn)
    refine ⟨m' :: ms', ?_, by rw [List.map_cons, List.map_cons, h4, h7], by rw [List.map_cons, List.map_cons, h5, h8]⟩
    have hst : stream (m :: ms) = pack (bitsCLC m) ++ stream ms := rfl
    have hne : ¬ (⟨pack (bitsCLC m) ++ stream ms, e⟩ : Slice).len = 0 := by
      obtain ⟨n, r, f1, f2, f3⟩ := fits_shape fm
      have := pack_length n _ f3
      have : 64 ≤ (bitsCLC m).length := by rw [f2, List.length_append, header_length f1]; omega
      rw [Slice.len_mk, List.length_append]; omega
    have hsub : (⟨pack (bitsCLC m) ++ stream ms, e⟩ : Slice).sto m.hdr.Length.toNat
        = .ret [] ⟨pack (bitsCLC m), stream ms ++ e⟩ := by
      unfold Slice.sto
      rw [Slice.sub_mk (by omega) (by rw [h2, List.length_append]; omega), h2, Nat.sub_zero, List.drop_zero, List.take_left, List.drop_left]
    have hfrom : (⟨pack (bitsCLC m) ++ stream ms, e⟩ : Slice).sfrom m.hdr.Length.toNat = .ret [] ⟨stream ms, e⟩ := by
      rw [Slice.sfrom_mk (by rw [h2, List.length_append]; omega), h2, List.drop_left]
    rw [hst, readStream, if_neg hne, h1]
    simp only [Go.ret_bind, hsub, h3, hfrom, h6]
    show Go.ret (trailerLines m ++ (ms.flatMap trailerLines ++ [])) (m' :: ms') = _
    rw [List.append_nil, List.flatMap_cons]

example : FitsCLC (.proposalV2 sampleProposal) ∧ Known (.proposalV2 sampleProposal) := by
  refine ⟨sample_fits, ?_⟩
  unfold Known
  decide

end SMC.Props
