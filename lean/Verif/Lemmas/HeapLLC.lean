import Verif.Lemmas.Heap
import Verif.Lemmas.LLC
import Verif.Lemmas.RoCE
/-!
# LLC and RoCE parsers on memory do what the parsers on values do
-/

namespace SMC

theorem Ref.Own.nil (n : Nat) (h1 : Heap) : Ref.nil.Own n h1 := ⟨.nil h1, .inl rfl⟩

theorem Ref.Own.ext {n : Nat} {a b : Heap} {r : Ref} (hr : r.Own n a) (h : a.Ext b) : r.Own n b :=
  ⟨h.valid hr.1, hr.2⟩

theorem Ref.Own.le {n k : Nat} {a : Heap} {r : Ref} (hr : r.Own n a) (h : k ≤ n) : r.Own k a :=
  ⟨hr.1, hr.2.imp_right fun h' => Nat.le_trans h h'⟩

namespace LLC
open Sim

/-- All slices of an LLC message are outside the first `n` arrays. -/
def Refs.Own (n : Nat) (h1 : Heap) (s : Refs) : Prop :=
  s.raw.Own n h1 ∧ s.mac.Own n h1 ∧ s.gid.Own n h1

theorem setRawH_bind {γ δ : Type} {h : Heap} {buffer : Ref} (hb : buffer.Valid h) {f : Ref → HGo γ}
    {y : Go δ} {R : Heap → γ → δ → Prop}
    (hf : ∀ h1 r, h.Ext h1 → r.Own h.length h1 → (h1.slice buffer).vis = h1.bytes r → Sim h1 (f r) y R) :
    Sim h (setRawH buffer >>= f) y R := by
  refine makeCopy_bind hb fun h1 r he hv ha hl hr => hf h1 r he ⟨hv, .inr (by omega)⟩ ?_
  rw [hr, Heap.bytes, he.slice hb]
  have h2 : (h.slice buffer).vis.length = buffer.len := Heap.len_slice hb
  simp only [copyInto, zeros, List.length_replicate]
  rw [List.take_of_length_le (by omega), List.drop_of_length_le (by simp; omega), List.append_nil]

theorem copyInto_self (x : Bytes) : copyInto (zeros x.length) x = x := by
  simp [copyInto, zeros]

theorem setBaseMsgH_bind {γ δ : Type} {h : Heap} {buffer : Ref} (hb : buffer.Valid h) {b : BaseMsg}
    {f : BaseMsg × Ref → HGo γ} {g : BaseMsg → Go δ} {R : Heap → γ → δ → Prop}
    (hf : ∀ h1 b1 r, h.Ext h1 → r.Own h.length h1 → Sim h1 (f (b1, r)) (g { b1 with Raw := h1.bytes r }) R) :
    Sim h (setBaseMsgH b buffer >>= f) (b.setBaseMsg (h.slice buffer) >>= g) R := by
  refine Sim.bind (R := fun h1 p v => p.2.Own h.length h1 ∧ v = { p.1 with Raw := h1.bytes p.2 }) ?_ ?_
  · unfold setBaseMsgH BaseMsg.setBaseMsg
    refine setRawH_bind hb fun h1 raw he hr hraw => ?_
    rw [← he.slice hb]
    replace hb := he.valid hb
    refine idx_bind fun t => ?_
    refine sfrom_bind hb fun buf2 hv _ _ => ?_
    refine idx_bind fun l => ?_
    refine Sim.pure ⟨hr, ?_⟩
    simp only [BaseMsg.setRaw, Slice.len, copyInto_self, hraw]
  · rintro h1 ⟨b1, r⟩ v he ⟨h2, rfl⟩
    exact hf h1 b1 r he h2

theorem parseConfirmH_sim {h : Heap} {buffer : Ref} (hb : buffer.Valid h) :
    Sim h (parseConfirmH buffer) (return .confirmLink (← parseConfirm (h.slice buffer)))
      (fun h1 m v => m.s.Own h.length h1 ∧ v = m.view h1) := by
  refine map_right (R := fun h1 m c => m.s.Own h.length h1 ∧ Msg.confirmLink c = m.view h1) ?_
    fun _ _ _ _ k => k
  unfold parseConfirmH parseConfirm ConfirmLink.parse
  dsimp only
  refine setBaseMsgH_bind hb fun h1 b raw he1 hraw => ?_
  rw [← he1.slice hb]
  replace hb := he1.valid hb
  refine sfrom_bind hb fun buffer hb _ _ => ?_
  refine idx_bind fun res1 => ?_
  refine sfrom_bind hb fun buffer hb _ _ => ?_
  refine idx_bind fun reply => ?_
  refine idx_bind fun res2 => ?_
  refine sfrom_bind hb fun buffer hb _ _ => ?_
  refine sub_bind hb fun src hs _ _ => ?_
  refine makeCopy_bind hs fun h2 mac he2 hmac ha2 _ hm => ?_
  rw [← he2.slice hb]
  replace hb := he2.valid hb
  refine sfrom_bind hb fun buffer hb _ _ => ?_
  refine sub_bind hb fun src' hs' _ _ => ?_
  refine makeCopy_bind hs' fun h3 gid he3 hgid ha3 _ hg => ?_
  rw [← he3.slice hb]
  replace hb := he3.valid hb
  refine sfrom_bind hb fun buffer hb _ _ => ?_
  refine idx_bind fun q0 => ?_
  refine idx_bind fun q1 => ?_
  refine idx_bind fun q2 => ?_
  refine sfrom_bind hb fun buffer hb _ _ => ?_
  refine idx_bind fun link => ?_
  refine sfrom_bind hb fun buffer hb _ _ => ?_
  refine sub_bind hb fun _ _ _ _ => ?_
  refine read_bind fun uid => ?_
  refine sfrom_bind hb fun buffer hb _ _ => ?_
  refine idx_bind fun maxl => ?_
  refine sfrom_bind hb fun buffer hb _ _ => ?_
  refine read_pure ?_
  have l1 := he1.length
  have l2 := he2.length
  refine Sim.pure ⟨⟨hraw.ext (he2.trans he3), ?_, ?_⟩, ?_⟩
  · exact ⟨he3.valid hmac, .inr (by dsimp only; omega)⟩
  · exact ⟨hgid, .inr (by dsimp only; omega)⟩
  · simp only [HMsg.view, ConfirmLink.on, (he2.trans he3).bytes hraw.1, he3.bytes hmac, hm, hg]
    rfl

theorem parseAddLinkH_sim {h : Heap} {buffer : Ref} (hb : buffer.Valid h) :
    Sim h (parseAddLinkH buffer) (return .addLink (← parseAddLink (h.slice buffer)))
      (fun h1 m v => m.s.Own h.length h1 ∧ v = m.view h1) := by
  refine map_right (R := fun h1 m c => m.s.Own h.length h1 ∧ Msg.addLink c = m.view h1) ?_
    fun _ _ _ _ k => k
  unfold parseAddLinkH parseAddLink AddLink.parse
  dsimp only
  refine setBaseMsgH_bind hb fun h1 b raw he1 hraw => ?_
  rw [← he1.slice hb]
  replace hb := he1.valid hb
  refine sfrom_bind hb fun buffer hb _ _ => ?_
  refine idx_bind fun res1 => ?_
  refine idx_bind fun rsn => ?_
  refine sfrom_bind hb fun buffer hb _ _ => ?_
  refine idx_bind fun reply => ?_
  refine idx_bind fun reject => ?_
  refine idx_bind fun res2 => ?_
  refine sfrom_bind hb fun buffer hb _ _ => ?_
  refine sub_bind hb fun src hs _ _ => ?_
  refine makeCopy_bind hs fun h2 mac he2 hmac ha2 _ hm => ?_
  rw [← he2.slice hb]
  replace hb := he2.valid hb
  refine sfrom_bind hb fun buffer hb _ _ => ?_
  refine sub_bind hb fun _ _ _ _ => ?_
  refine read_pure ?_
  refine sfrom_bind hb fun buffer hb _ _ => ?_
  refine sub_bind hb fun src' hs' _ _ => ?_
  refine makeCopy_bind hs' fun h3 gid he3 hgid ha3 _ hg => ?_
  rw [← he3.slice hb]
  replace hb := he3.valid hb
  refine sfrom_bind hb fun buffer hb _ _ => ?_
  refine idx_bind fun q0 => ?_
  refine idx_bind fun q1 => ?_
  refine idx_bind fun q2 => ?_
  refine sfrom_bind hb fun buffer hb _ _ => ?_
  refine idx_bind fun link => ?_
  refine sfrom_bind hb fun buffer hb _ _ => ?_
  refine idx_bind fun res3 => ?_
  refine idx_bind fun mtu => ?_
  refine sfrom_bind hb fun buffer hb _ _ => ?_
  refine idx_bind fun p0 => ?_
  refine idx_bind fun p1 => ?_
  refine idx_bind fun p2 => ?_
  refine sfrom_bind hb fun buffer hb _ _ => ?_
  refine read_pure ?_
  have l1 := he1.length
  have l2 := he2.length
  refine Sim.pure ⟨⟨hraw.ext (he2.trans he3), ?_, ?_⟩, ?_⟩
  · exact ⟨he3.valid hmac, .inr (by dsimp only; omega)⟩
  · exact ⟨hgid, .inr (by dsimp only; omega)⟩
  · simp only [HMsg.view, AddLink.on, (he2.trans he3).bytes hraw.1, he3.bytes hmac, hm, hg]
    rfl

/-- The fields of a message other than `SenderMAC` and `SenderGID`, `Raw` aside, are those of `v`. -/
def RawOnly (m : Msg) : Prop :=
  match m with
  | .confirmLink _ => False
  | .addLink _ => False
  | _ => True

theorem view_rawOnly {v : Msg} (hv : RawOnly v) {h : Heap} {s : Refs} (hr : v.base.Raw = h.bytes s.raw) :
    HMsg.view h ⟨v, s⟩ = v := by
  cases v with
  | confirmLink c => exact hv.elim
  | addLink a => exact hv.elim
  | _ o =>
    unfold HMsg.view
    simp only [Msg.base] at hr
    simp only [← hr]

theorem parseRawH_sim {h : Heap} {buffer : Ref} (hb : buffer.Valid h) {f : Slice → Go Msg}
    (hf : ∀ l v, f (h.slice buffer) = .ret l v → RawOnly v ∧ v.base.Raw = (h.slice buffer).vis) :
    Sim h (parseRawH f buffer) (f (h.slice buffer))
      (fun h1 m v => m.s.Own h.length h1 ∧ v = m.view h1) := by
  unfold parseRawH
  refine setRawH_bind hb fun h1 raw he hraw hr => ?_
  rw [← he.slice hb] at hf ⊢
  have e : ((HGo.read buffer f >>= fun v => pure (HMsg.mk v { raw := raw })) : HGo HMsg) h1
      = Go.bind (f (h1.slice buffer)) fun v => .ret [] (⟨v, { raw := raw }⟩, h1) := by
    rw [HGo.run_bind]
    show Go.bind (Go.bind (f (h1.slice buffer)) fun a => .ret [] (a, h1)) _ = _
    cases f (h1.slice buffer) with
    | panic l => rfl
    | ret l v => simp [Go.bind, Pure.pure, HGo.run]
  unfold Sim
  rw [e]
  cases hy : f (h1.slice buffer) with
  | panic l => rfl
  | ret l v =>
    obtain ⟨k1, k2⟩ := hf _ _ hy
    refine ⟨by simp, Heap.Ext.refl h1, ⟨hraw, .nil _ _, .nil _ _⟩, ?_⟩
    exact (view_rawOnly k1 (k2.trans hr)).symm

/-- Where a parser returns `p` for every slice of 44 bytes, it is a function to which
`parseRawH_sim` applies. -/
theorem rawOnly_of {α : Type} {f : Slice → Go α} {c : α → Msg} {base : α → BaseMsg} {s : Slice}
    (hc : ∀ a, RawOnly (c a) ∧ (c a).base = base a)
    (hf : ∀ l a, f s = .ret l a → (base a).Raw = s.vis) :
    ∀ l v, (f s >>= fun a => (Pure.pure (c a) : Go Msg)) = .ret l v → RawOnly v ∧ v.base.Raw = s.vis := by
  intro l v h
  cases hs : f s with
  | panic l' => rw [hs] at h; cases h
  | ret l' a =>
    rw [hs] at h
    cases h
    rw [(hc a).2]
    exact ⟨(hc a).1, hf _ _ hs⟩

theorem parseLLCH_sim {h : Heap} {buffer : Ref} (hb : buffer.Valid h) :
    Sim h (parseLLCH buffer) (parseLLC (h.slice buffer))
      (fun h1 m v => m.s.Own h.length h1 ∧ v = m.view h1) := by
  have hl : (h.slice buffer).len = buffer.len := Heap.len_slice hb
  have other : Sim h (parseRawH (fun s => return .other (← parseOther s)) buffer)
      (return .other (← parseOther (h.slice buffer))) (fun h1 m v => m.s.Own h.length h1 ∧ v = m.view h1) := by
    refine parseRawH_sim hb (rawOnly_of (base := Other.base) (fun a => ⟨trivial, rfl⟩) fun l a k => ?_)
    cases hs : h.slice buffer with
    | mk v e => rw [hs, parseOther, other_parse] at k; cases k; rfl
  unfold parseLLCH parseLLC
  rw [hl]
  refine Sim.ite (fun _ => other) fun hn => ?_
  have h44 : (h.slice buffer).vis.length = 44 := by
    have : (h.slice buffer).vis.length = buffer.len := hl
    have : buffer.len = 44 := Decidable.not_not.1 hn
    omega
  refine Sim.idx_bind fun t => ?_
  refine Sim.ite (fun _ => parseConfirmH_sim hb) fun _ => ?_
  refine Sim.ite (fun _ => parseAddLinkH_sim hb) fun _ => ?_
  refine Sim.ite (fun _ => parseRawH_sim hb (rawOnly_of (base := AddLinkCont.base) (fun a => ⟨trivial, rfl⟩) fun l a k => ?_)) fun _ => ?_
  · cases hs : h.slice buffer with
    | mk v e => rw [hs] at h44; rw [hs, parseAddLinkCont, addLinkCont_parse _ rfl _ _ (by dsimp only at h44; omega)] at k; cases k; rfl
  refine Sim.ite (fun _ => parseRawH_sim hb (rawOnly_of (base := DeleteLink.base) (fun a => ⟨trivial, rfl⟩) fun l a k => ?_)) fun _ => ?_
  · cases hs : h.slice buffer with
    | mk v e => rw [hs] at h44; rw [hs, parseDeleteLink, deleteLink_parse _ _ _ (by dsimp only at h44; omega)] at k; cases k; rfl
  refine Sim.ite (fun _ => parseRawH_sim hb (rawOnly_of (base := ConfirmRKey.base) (fun a => ⟨trivial, rfl⟩) fun l a k => ?_)) fun _ => ?_
  · cases hs : h.slice buffer with
    | mk v e => rw [hs] at h44; rw [hs, parseConfirmRKey, confirmRKey_parse _ rfl _ _ (by dsimp only at h44; omega)] at k; cases k; rfl
  refine Sim.ite (fun _ => parseRawH_sim hb (rawOnly_of (base := ConfirmRKeyCont.base) (fun a => ⟨trivial, rfl⟩) fun l a k => ?_)) fun _ => ?_
  · cases hs : h.slice buffer with
    | mk v e => rw [hs] at h44; rw [hs, parseConfirmRKeyCont, confirmRKeyCont_parse_44 _ rfl _ _ h44] at k; cases k
  refine Sim.ite (fun _ => parseRawH_sim hb (rawOnly_of (base := DeleteRKey.base) (fun a => ⟨trivial, rfl⟩) fun l a k => ?_)) fun _ => ?_
  · cases hs : h.slice buffer with
    | mk v e => rw [hs] at h44; rw [hs, parseDeleteRKey, deleteRKey_parse _ rfl _ _ (by dsimp only at h44; omega)] at k; cases k; rfl
  refine Sim.ite (fun _ => parseRawH_sim hb (rawOnly_of (base := TestLink.base) (fun a => ⟨trivial, rfl⟩) fun l a k => ?_)) fun _ => ?_
  · cases hs : h.slice buffer with
    | mk v e => rw [hs] at h44; rw [hs, parseTestLink, testLink_parse _ _ _ (by dsimp only at h44; omega)] at k; cases k; rfl
  refine Sim.ite (fun _ => parseRawH_sim hb (rawOnly_of (base := CDC.base) (fun a => ⟨trivial, rfl⟩) fun l a k => ?_)) fun _ => other
  cases hs : h.slice buffer with
  | mk v e => rw [hs] at h44; rw [hs, parseCDC, cdc_parse _ _ _ (by dsimp only at h44; omega)] at k; cases k; rfl

end LLC

namespace RoCE
open Sim

/-- All slices of a RoCE message but `ICRC` are outside the first `n` arrays. -/
def HRoCE.Own (n : Nat) (h1 : Heap) (r : HRoCE) : Prop :=
  r.LLC.s.Own n h1 ∧ r.BTH.raw.Own n h1 ∧
    ∀ g, r.GRH = some g → g.src.Own n h1 ∧ g.dst.Own n h1 ∧ g.contents.Own n h1

theorem parseBTHH_bind {γ δ : Type} {h : Heap} {r : Ref} (hr : r.Valid h) (hl : r.len = 12)
    {f : HBTH → HGo γ} {g : BTH → Go δ} {R : Heap → γ → δ → Prop}
    (hf : ∀ h1 b, h.Ext h1 → b.raw.Own h.length h1 → Sim h1 (f b) (g (b.view h1)) R) :
    Sim h (parseBTHH r >>= f) (parseBTH (h.slice r) >>= g) R := by
  refine Sim.bind (R := fun h1 b v => b.raw.Own h.length h1 ∧ v = b.view h1) ?_ ?_
  · unfold parseBTHH
    refine LLC.setRawH_bind hr fun h1 raw he hraw hv => ?_
    rw [← he.slice hr]
    have hlen : (h1.slice r).vis.length = 12 := by
      have : (h1.slice r).vis.length = r.len := Heap.len_slice (he.valid hr)
      omega
    obtain ⟨b, hb, hbr⟩ : ∃ b, parseBTH (h1.slice r) = .ret [] b ∧ b.Raw = (h1.slice r).vis := by
      cases hs : h1.slice r with
      | mk v e =>
        rw [hs] at hlen
        exact ⟨_, bth_parse {} v e (by dsimp only at hlen; omega), rfl⟩
    have e : ((HGo.read r parseBTH >>= fun v => pure (HBTH.mk v raw)) : HGo HBTH) h1
        = .ret [] (⟨b, raw⟩, h1) := by
      rw [HGo.run_bind, HGo.run_read, hb]
      rfl
    unfold Sim
    rw [e, hb]
    refine ⟨rfl, Heap.Ext.refl h1, hraw, ?_⟩
    simp only [HBTH.view, ← hv, ← hbr]
  · rintro h1 b v he ⟨h2, rfl⟩
    exact hf h1 b he h2

theorem _root_.SMC.HGo.bind_ret {α β : Type} {x : HGo α} {f : α → HGo β} {h h' : Heap} {a : α}
    (hx : x h = .ret [] (a, h')) : (x >>= f) h = f a h' := by
  rw [HGo.run_bind, hx]
  simp only [Go.bind, List.nil_append]
  cases f a h' <;> rfl

theorem sub_eq {r : Ref} {a b : Nat} {h : Heap} (hc : a ≤ b ∧ b ≤ r.cap) :
    r.sub a b h = .ret [] (⟨r.arr, r.off + a, b - a, r.cap - a⟩, h) := by
  rw [HGo.run_sub, if_pos hc]

theorem parseGRHH_bind {γ δ : Type} {h : Heap} {r : Ref} (hr : r.Valid h) (hl : r.len = 40)
    {f : HGRH → HGo γ} {g : GRH → Go δ} {R : Heap → γ → δ → Prop}
    (hf : ∀ h1 b, h.Ext h1 → b.src.Own h.length h1 ∧ b.dst.Own h.length h1 ∧ b.contents.Own h.length h1 →
      Sim h1 (f b) (g (b.view h1)) R) :
    Sim h (parseGRHH r >>= f) (parseGRH (h.slice r) >>= g) R := by
  refine Sim.bind (R := fun h1 b v =>
    (b.src.Own h.length h1 ∧ b.dst.Own h.length h1 ∧ b.contents.Own h.length h1) ∧ v = b.view h1) ?_ ?_
  · unfold parseGRHH
    have hlen : (h.slice r).vis.length = 40 := by
      have : (h.slice r).vis.length = r.len := Heap.len_slice hr
      omega
    refine makeCopy_bind hr fun h1 data he hv ha hdl hd => ?_
    have hd : h1.bytes data = (h1.slice r).vis := by
      rw [hd, he.slice hr, hl, ← hlen]
      exact LLC.copyInto_self _
    rw [← he.slice hr]
    rw [← he.slice hr] at hlen
    have hc := hv.1
    have hcv : data.len = 40 := by omega
    have hvv : data.arr < h1.length ∧ data.off + data.cap ≤ (h1.getD data.arr []).length := by
      rcases hv.2 with hv | hv
      · omega
      · exact hv
    have e : ((do
        let v ← HGo.read r parseGRH
        if r.len < 40 then pure { v := v }
        else pure { v := v, src := ← data.sub 8 24, dst := ← data.sub 24 40, contents := ← data.sub 0 40 }) : HGo HGRH) h1
        = .ret [] (⟨decodeIPv6 (h1.slice r).vis, ⟨data.arr, data.off + 8, 16, data.cap - 8⟩,
            ⟨data.arr, data.off + 24, 16, data.cap - 24⟩, ⟨data.arr, data.off, 40, data.cap⟩⟩, h1) := by
      rw [HGo.bind_ret (a := decodeIPv6 (h1.slice r).vis) (h' := h1) rfl, if_neg (by omega),
        HGo.bind_ret (sub_eq (by omega)), HGo.bind_ret (sub_eq (by omega)), HGo.bind_ret (sub_eq (by omega))]
      rfl
    unfold Sim
    rw [e]
    refine ⟨rfl, Heap.Ext.refl h1, ⟨?_, ?_, ?_⟩, ?_⟩
    · exact ⟨⟨by dsimp only; omega, .inr ⟨hvv.1, by dsimp only; omega⟩⟩, .inr (by dsimp only; omega)⟩
    · exact ⟨⟨by dsimp only; omega, .inr ⟨hvv.1, by dsimp only; omega⟩⟩, .inr (by dsimp only; omega)⟩
    · exact ⟨⟨by dsimp only; omega, .inr ⟨hvv.1, by dsimp only; omega⟩⟩, .inr (by dsimp only; omega)⟩
    · have key : ∀ a n k, a + n ≤ 40 → h1.bytes ⟨data.arr, data.off + a, n, k⟩ = ((h1.slice r).vis.drop a).take n := by
        intro a n k hk
        rw [← hd]
        simp only [Heap.bytes, Heap.slice, hcv, List.drop_take, List.drop_drop, List.take_take]
        rw [show min n (40 - a) = n by omega]
      have key0 := key 0 40 data.cap (by omega)
      rw [Nat.add_zero] at key0
      simp only [HGRH.view, key 8 16 _ (by omega), key 24 16 _ (by omega), key0]
      generalize (h1.slice r).vis = x at hlen
      match x, hlen with
      | b0 :: b1 :: b2 :: b3 :: b4 :: b5 :: b6 :: b7 :: x, hlen =>
        rw [decodeIPv6, if_neg (by omega)]
        rfl
  · rintro h1 b v he ⟨h2, rfl⟩
    exact hf h1 b he h2

/-- the reference to the last four bytes -/
def _root_.SMC.Ref.last4 (r : Ref) : Ref := ⟨r.arr, r.off + r.len - 4, 4, r.cap - (r.len - 4)⟩

theorem icrcH_bind {γ δ : Type} {h : Heap} {r : Ref} {f : Ref → HGo γ} {g : Slice → Go δ}
    {R : Heap → γ → δ → Prop} (hr : r.Valid h)
    (hf : ∀ r', r'.Valid h → 4 ≤ r.len → r' = r.last4 → Sim h (f r') (g (h.slice r')) R) :
    Sim h (icrcH r >>= f) (icrc (h.slice r) >>= g) R := by
  unfold icrcH icrc
  rw [Heap.len_slice hr]
  by_cases hc : r.len < 4
  · rw [if_pos hc, if_pos hc]
    exact (rfl : ([] : List Bytes) = [])
  · rw [if_neg hc, if_neg hc]
    refine sfrom_bind_eq hr fun r' h1 h2 h3 => hf r' h1 (by omega) ?_
    rw [h3, Ref.last4, show r.off + (r.len - 4) = r.off + r.len - 4 by omega,
      show r.len - (r.len - 4) = 4 by omega]

theorem payloadH_bind {γ δ : Type} {h : Heap} {r : Ref} {f : Ref → HGo γ} {g : Slice → Go δ}
    {R : Heap → γ → δ → Prop} (hr : r.Valid h)
    (hf : ∀ r', r'.Valid h → r'.arr = r.arr → Sim h (f r') (g (h.slice r')) R) :
    Sim h (payloadH r >>= f) (payload (h.slice r) >>= g) R := by
  unfold payloadH payload
  rw [Heap.len_slice hr]
  by_cases hc : r.len < 4
  · rw [if_pos hc, if_pos hc]
    exact (rfl : ([] : List Bytes) = [])
  · rw [if_neg hc, if_neg hc]
    exact sto_bind hr fun r' h1 _ h3 => hf r' h1 h3

theorem parseRoCEv2H_sim {h : Heap} {buffer : Ref} (hb : buffer.Valid h) :
    Sim h (parseRoCEv2H buffer) (parseRoCEv2 (h.slice buffer))
      (fun h1 m v => m.Own h.length h1 ∧ v = m.view h1 ∧ m.ICRC.Valid h1 ∧ 4 ≤ buffer.len ∧ m.ICRC = buffer.last4) := by
  unfold parseRoCEv2H parseRoCEv2
  refine sto_bind hb fun hdr hh hl _ => ?_
  refine parseBTHH_bind hh hl fun h1 bth he1 hbth => ?_
  rw [← he1.slice hb]
  replace hb := he1.valid hb
  refine sfrom_bind_eq hb fun buf2 hb2 hl2 ha2 => ?_
  refine icrcH_bind hb2 fun crc hcrc h4 ha => ?_
  refine payloadH_bind hb2 fun buf3 hb3 _ => ?_
  refine Sim.bind (LLC.parseLLCH_sim hb3) ?_
  rintro h2 llc v he2 ⟨ho, rfl⟩
  refine Sim.pure ⟨⟨?_, hbth.ext he2, fun g k => by cases k⟩, ?_, he2.valid hcrc, ?_, ?_⟩
  · exact ⟨ho.1.le he1.length, ho.2.1.le he1.length, ho.2.2.le he1.length⟩
  · simp only [HRoCE.view, Option.map_none, HBTH.view, he2.bytes hbth.1, he2.slice hcrc]
  · rw [ha2] at h4; dsimp only at h4; omega
  · rw [ha2] at h4; dsimp only at h4
    have hcap := hb.1
    simp only [ha, ha2, Ref.last4, Ref.mk.injEq, true_and]
    omega

theorem parseRoCEv1H_sim {h : Heap} {buffer : Ref} (hb : buffer.Valid h) :
    Sim h (parseRoCEv1H buffer) (parseRoCEv1 (h.slice buffer))
      (fun h1 m v => m.Own h.length h1 ∧ v = m.view h1 ∧ m.ICRC.Valid h1 ∧ 4 ≤ buffer.len ∧ m.ICRC = buffer.last4) := by
  unfold parseRoCEv1H parseRoCEv1
  refine sto_bind hb fun hdr hh hl _ => ?_
  refine parseGRHH_bind hh hl fun h0 grh he0 hgrh => ?_
  rw [← he0.slice hb]
  replace hb := he0.valid hb
  refine sfrom_bind_eq hb fun buf1 hb1 hl1 ha1 => ?_
  refine sto_bind hb1 fun hdr hh hl _ => ?_
  refine parseBTHH_bind hh hl fun h1 bth he1 hbth => ?_
  rw [← he1.slice hb1]
  replace hb1 := he1.valid hb1
  refine sfrom_bind_eq hb1 fun buf2 hb2 hl2 ha2 => ?_
  refine icrcH_bind hb2 fun crc hcrc h4 ha => ?_
  refine payloadH_bind hb2 fun buf3 hb3 _ => ?_
  refine Sim.bind (LLC.parseLLCH_sim hb3) ?_
  rintro h2 llc v he2 ⟨ho, rfl⟩
  have hle := he0.length
  have hle' := he1.length
  have he02 := he1.trans he2
  refine Sim.pure ⟨⟨?_, (hbth.ext he2).le hle, ?_⟩, ?_, he2.valid hcrc, ?_, ?_⟩
  · exact ⟨ho.1.le (by omega), ho.2.1.le (by omega), ho.2.2.le (by omega)⟩
  · rintro g ⟨⟩
    exact ⟨hgrh.1.ext he02, hgrh.2.1.ext he02, hgrh.2.2.ext he02⟩
  · simp only [HRoCE.view, Option.map_some, HGRH.view, HBTH.view, he2.bytes hbth.1, he2.slice hcrc,
      he02.bytes hgrh.1.1, he02.bytes hgrh.2.1.1, he02.bytes hgrh.2.2.1]
  · rw [ha2, ha1] at h4; dsimp only at h4; omega
  · rw [ha2, ha1] at h4; dsimp only at h4
    have hcap := hb.1
    simp only [ha, ha2, ha1, Ref.last4, Ref.mk.injEq, true_and]
    omega

end RoCE
end SMC
