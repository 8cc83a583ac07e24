import Verif.Lemmas.CutLoops
import Verif.Lemmas.CLC
/-!
# The values of the fields of CLC messages after a crash
-/

namespace SMC.Tail
open SGo Left CLC

/-- the end of a method that rejects the message -/
macro "cut_reject" : tactic => `(tactic| (
  refine Cut.weaken (j := 100) (by decide) id ?_
  repeat cut_gets
  refine Cut.logs (log_ret _) (log_ret _) ?_
  refine Cut.sto fun _ _ _ => ?_
  exact Cut.logs_last (errDump_ret _)))

/-- Where the trailer is not read, it stays as it is. -/
theorem trailer_panic {a b : Slice} {t : Bytes} {l l' : List Bytes} {u : Unit} (hx : (trailerParseS a t).1 = .panic l)
    (hy : (trailerParseS b t).1 = .ret l' u) : (trailerParseS a t).2 = t := by
  obtain ⟨av, ae⟩ := a
  obtain ⟨bv, be⟩ := b
  by_cases ha : 4 ≤ av.length
  · exfalso
    have hx : trailerParse t ⟨av, ae⟩ = .panic l := by
      rw [← final_trailerParseS]
      unfold final
      rcases h : trailerParseS ⟨av, ae⟩ t with ⟨⟨l1, x⟩ | l1, s⟩
      · rw [h] at hx
        cases hx
      · rw [h] at hx
        cases hx
        rfl
    by_cases ht : 4 ≤ t.length
    · unfold trailerParse at hx
      rw [lastBytes_eq _ _ ha] at hx
      simp only [Go.ret_bind] at hx
      rw [hasEyecatcher_eq _ _ (by rw [copyInto_length]; omega)] at hx
      simp only [Go.ret_bind] at hx
      split at hx
      · obtain ⟨m, hm⟩ := errDump_ret ⟨last4 av, ae⟩
        rw [hm] at hx
        cases hx
      · cases hx
    · have hy : ∃ w, trailerParse t ⟨bv, be⟩ = .ret l' w := by
        rw [← final_trailerParseS]
        unfold final
        rcases h : trailerParseS ⟨bv, be⟩ t with ⟨⟨l1, x⟩ | l1, s⟩
        · rw [h] at hy
          cases hy
          exact ⟨_, rfl⟩
        · rw [h] at hy
          cases hy
      obtain ⟨w, hy⟩ := hy
      unfold trailerParse at hy
      rcases eb : lastBytes ⟨bv, be⟩ with ⟨lb, vb⟩ | lb
      · rw [eb] at hy
        have e : hasEyecatcher ⟨copyInto t vb.vis, []⟩ = .panic [] := by
          unfold hasEyecatcher Slice.sto Slice.sub
          rw [if_neg]
          · rfl
          · simp only [Slice.cap, copyInto_length, EyecatcherLen, List.length_nil]
            omega
        obtain rfl : lb = [] := by
          unfold lastBytes Slice.sfrom at eb
          split at eb
          · cases eb
          · split at eb <;> cases eb
            rfl
        simp only [Go.ret_bind] at hy
        rw [e] at hy
        cases hy
      · rw [eb] at hy
        cases hy
  · unfold trailerParseS
    rw [bind_lift_panic (l := [])]
    unfold lastBytes
    rw [if_pos]
    show av.length < 4
    omega

/-- the trailer is the last field -/
theorem cut_trailer {σ ρ : Type} {V : View σ ρ} {W : Nat → Way → Prop} {i k : Nat} {r : Prop} {part : σ → Bytes} {put : Bytes → σ → σ}
    {a b : Slice} (hi : i ≤ k) (hF : ∀ t s, ∃ a, V.fields (put t s) = (V.fields s).set k a)
    (hps : ∀ s, put (part s) s = s) (hq : ∀ q s, part (V.put q s) = part s) :
    Cut V W i r (within part put (trailerParseS a)) (within part put (trailerParseS b)) := by
  refine Cut.last (fun _ s q l l' y hp hy => ?_) fun s n hn => ?_
  · have hy : (trailerParseS b (part (V.put q s))).1 = .ret l' y := hy
    rw [hq] at hy
    show put (trailerParseS a (part s)).2 s = s
    rw [trailer_panic hp hy, hps]
  · obtain ⟨c, hc⟩ := hF (trailerParseS b (part s)).2 s
    show (V.fields (put (trailerParseS b (part s)).2 s))[n]? = _
    rw [hc, List.getElem?_set_ne (by omega)]

macro "cut_trail" k:num : tactic => `(tactic| (
  refine cut_trailer (k := $k) (by decide) ?_ ?_ ?_
  · exact fun _ _ => ⟨_, rfl⟩
  · exact fun _ => rfl
  · exact fun _ _ => rfl))

theorem decline_between {m s' m' : Decline} {short long : Slice} {l l' : List Bytes} (h : Part short long)
    (hs : Decline.parseS short m = (.panic l, s')) (hl : m.parse long = .ret l' m') :
    Between [] (decline m) (decline m') (decline s') := by
  rw [← Decline.final_parseS] at hl
  unfold Decline.parseS at hs hl
  rw [within_headerS] at hs hl
  · refine cut_whole (V := declineView) h ?_ hs hl
    repeat cut_step
    refine Cut.ite ?_ ?_
    · cut_reject
    repeat cut_step
    cut_trail 11
  all_goals (intros; rfl)

/-- the operating system and the reserved bytes of a Decline of version 2 -/
theorem cut_nibble {W : Nat → Way → Prop} (hW : W 10 .nibble) {len off : Nat} {a b : Slice} {f g : Unit → SGo DeclineV2 Unit}
    (next : Cut declineV2View W 11 (Rest len off a b) (f ()) (g ())) :
    Cut declineV2View W 10 (Rest len off a b)
      ((liftM (a.sto 4) : SGo DeclineV2 Slice) >>= fun x => SGo.assign (fun d => { d with rsv := copyInto d.rsv x.vis }) >>= fun _ =>
        (liftM (a.idx 0) : SGo DeclineV2 UInt8) >>= fun x => SGo.assign ({ · with OSType := x >>> 4 }) >>= fun _ =>
        SGo.assign (fun d => { d with rsv := d.rsv.modify 0 (· &&& 0b00001111) }) >>= f)
      ((liftM (b.sto 4) : SGo DeclineV2 Slice) >>= fun x => SGo.assign (fun d => { d with rsv := copyInto d.rsv x.vis }) >>= fun _ =>
        (liftM (b.idx 0) : SGo DeclineV2 UInt8) >>= fun x => SGo.assign ({ · with OSType := x >>> 4 }) >>= fun _ =>
        SGo.assign (fun d => { d with rsv := d.rsv.modify 0 (· &&& 0b00001111) }) >>= g) := by
  obtain ⟨N, hN⟩ : ∃ N : Slice → SGo DeclineV2 Unit, ∀ c, N c = (
      (liftM (c.sto 4) : SGo DeclineV2 Slice) >>= fun x => SGo.assign (fun d => { d with rsv := copyInto d.rsv x.vis }) >>= fun _ =>
        (liftM (c.idx 0) : SGo DeclineV2 UInt8) >>= fun x => SGo.assign ({ · with OSType := x >>> 4 }) >>= fun _ =>
        SGo.assign (fun d => { d with rsv := d.rsv.modify 0 (· &&& 0b00001111) })) := ⟨_, fun _ => rfl⟩
  have assoc : ∀ (c : Slice) (f : Unit → SGo DeclineV2 Unit),
      ((liftM (c.sto 4) : SGo DeclineV2 Slice) >>= fun x => SGo.assign (fun d => { d with rsv := copyInto d.rsv x.vis }) >>= fun _ =>
        (liftM (c.idx 0) : SGo DeclineV2 UInt8) >>= fun x => SGo.assign ({ · with OSType := x >>> 4 }) >>= fun _ =>
        SGo.assign (fun d => { d with rsv := d.rsv.modify 0 (· &&& 0b00001111) }) >>= f) = N c >>= f := by
    intro c f
    rw [hN]
    simp only [bind_assoc']
  have eval : ∀ (c : Slice) (s : DeclineV2),
      (∃ l, N c s = (.panic l, s)) ∨
      (∃ l v, c.sto 4 = .ret [] v ∧ N c s = (.panic l, { s with rsv := copyInto s.rsv v.vis })) ∨
      (∃ v x, c.sto 4 = .ret [] v ∧ c.idx 0 = .ret [] x ∧
        N c s = (.ret [] (), { s with OSType := x >>> 4, rsv := (copyInto s.rsv v.vis).modify 0 (· &&& 0b00001111) })) := by
    intro c s
    rw [hN]
    rcases e0 : c.sto 4 with ⟨l, v⟩ | l
    · obtain rfl := sub_nil e0
      rcases e1 : c.idx 0 with ⟨l, x⟩ | l
      · obtain rfl := idx_nil e1
        refine .inr (.inr ⟨v, x, rfl, rfl, ?_⟩)
        rw [bind_lift_ret rfl, bind_assign, bind_lift_ret rfl, bind_assign]
        rfl
      · refine .inr (.inl ⟨l, v, rfl, ?_⟩)
        rw [bind_lift_ret rfl, bind_assign, bind_lift_panic rfl]
    · exact .inl ⟨l, bind_lift_panic rfl⟩
  have only : ∀ c : Slice, Only declineV2View 10 (N c) := by
    intro c s n hn
    have e : ∀ o r, (declineV2View.fields { s with OSType := o, rsv := r })[n]? = (declineV2View.fields s)[n]? := by
      intro o r
      have : declineV2View.fields { s with OSType := o, rsv := r } = (declineV2View.fields s).set 10 (.bytes (o :: r)) := rfl
      rw [this, List.getElem?_set_ne (Ne.symm hn)]
    rcases eval c s with ⟨l, h⟩ | ⟨l, v, _, h⟩ | ⟨v, x, _, _, h⟩
    · rw [h]
    · rw [h]
      exact e _ _
    · rw [h]
      exact e _ _
  rw [assoc, assoc]
  refine Cut.lump (fun _ _ => Rest len off a b) (Nat.le_refl _) (only a) (only b) ?_ ?_ (fun _ _ => next)
  · intro hr s q l u hx
    rcases eval a s with ⟨l, h⟩ | ⟨l, v, _, h⟩ | ⟨v, x, h1, h2, h⟩
    · rw [h] at hx
      cases hx
    · rw [h] at hx
      cases hx
    · obtain ⟨l2, w, k1, k3, _⟩ := hr.sub h1
      obtain rfl := sub_nil k1
      have k1 : b.sto 4 = .ret [] w := k1
      have k2 := hr.idx h2
      refine ⟨[], (), ?_, hr⟩
      rw [h, hN]
      rw [bind_lift_ret k1, bind_assign, bind_lift_ret k2, bind_assign, k3]
      rfl
  · intro hr s q l l' u t hx hy
    rcases eval a s with ⟨l, h⟩ | ⟨l, v, h1, h⟩ | ⟨v, x, h1, h2, h⟩
    · rw [h]
      exact Ok.old
    · obtain ⟨l2, w, k1, k3, k4⟩ := hr.sub h1
      rcases eval b (declineV2View.put q s) with ⟨l, k⟩ | ⟨l, v, _, k⟩ | ⟨w', x, j1, j2, k⟩
      · rw [k] at hy
        cases hy
      · rw [k] at hy
        cases hy
      rw [k] at hy
      cases hy
      rw [show b.sto 4 = b.sub 0 4 from rfl, k1] at j1
      cases j1
      rw [h]
      show Ok W 10 (some (.bytes (s.OSType :: s.rsv)))
        (some (.bytes ((x >>> 4) :: (copyInto s.rsv w.vis).modify 0 (· &&& 0b00001111))))
        (some (.bytes (s.OSType :: copyInto s.rsv v.vis)))
      obtain ⟨w, we⟩ := w
      obtain rfl : w = v.vis := k3
      have hw : ∃ z, v.vis = x :: z := by
        obtain ⟨bv, be⟩ := b
        unfold Slice.sub at k1
        unfold Slice.idx at j2
        split at k1
        · simp only [Go.ret.injEq, Slice.mk.injEq] at k1
          split at j2
          · rename_i hx0
            cases j2
            obtain ⟨y, t, rfl⟩ : ∃ y t, bv = y :: t := by
              cases bv with
              | nil => cases hx0
              | cons y t => exact ⟨y, t, rfl⟩
            cases hx0
            exact ⟨_, k1.2.1.symm⟩
          · cases j2
        · cases k1
      obtain ⟨z, hz⟩ := hw
      rcases hr : s.rsv with _ | ⟨r, rs⟩
      · rw [hz]
        exact .inl rfl
      · rw [hz]
        refine .inr (.inr ⟨.nibble, hW, s.OSType, x >>> 4, x &&& 0b00001111, copyInto rs z, ?_, ?_, .inr ⟨_, rfl⟩⟩)
        · simp only [copyInto, List.length_cons, List.take_succ_cons, List.drop_succ_cons, List.cons_append, List.modify_zero_cons]
        · have e : ∀ x : UInt8, (x >>> 4) <<< 4 ||| (x &&& 0b00001111) = x := by byte_decide
          rw [e]
          simp only [copyInto, List.length_cons, List.take_succ_cons, List.drop_succ_cons, List.cons_append]
    · rw [h] at hx
      cases hx

theorem declineV2_between {m s' m' : DeclineV2} {short long : Slice} {l l' : List Bytes} (h : Part short long)
    (hs : DeclineV2.parseS short m = (.panic l, s')) (hl : m.parse long = .ret l' m') :
    Between declineV2Ways (declineV2 m) (declineV2 m') (declineV2 s') := by
  rw [← DeclineV2.final_parseS] at hl
  unfold DeclineV2.parseS at hs hl
  rw [within_headerS] at hs hl
  · refine cut_whole (V := declineV2View) h ?_ hs hl
    repeat cut_step
    refine Cut.ite ?_ ?_
    · cut_reject
    iterate 7 cut_step
    refine cut_nibble (by decide) ?_
    repeat cut_step
    cut_trail 11
  all_goals (intros; rfl)

theorem acceptSMCR_between {m s' m' : AcceptSMCR} {short long : Slice} {l l' : List Bytes} (h : Part short long)
    (hs : AcceptSMCR.parseS short m = (.panic l, s')) (hl : m.parse long = .ret l' m') :
    Between acceptSMCRWays (acceptSMCR m) (acceptSMCR m') (acceptSMCR s') := by
  rw [← AcceptSMCR.final_parseS] at hl
  unfold AcceptSMCR.parseS at hs hl
  rw [within_headerS] at hs hl
  · refine cut_whole (V := acceptSMCRView) h ?_ hs hl
    repeat cut_step
    refine Cut.ite ?_ ?_
    · cut_reject
    repeat (first | cut_three_nat | cut_step)
    cut_trail 21
  all_goals (intros; rfl)

theorem acceptSMCD_between {m s' m' : AcceptSMCD} {short long : Slice} {l l' : List Bytes} (h : Part short long)
    (hs : AcceptSMCD.parseS short m = (.panic l, s')) (hl : m.parse long = .ret l' m') :
    Between [] (acceptSMCD m) (acceptSMCD m') (acceptSMCD s') := by
  rw [← AcceptSMCD.final_parseS] at hl
  unfold AcceptSMCD.parseS at hs hl
  rw [within_headerS] at hs hl
  · refine cut_whole (V := acceptSMCDView) h ?_ hs hl
    repeat cut_step
    refine Cut.ite ?_ ?_
    · cut_reject
    repeat cut_step
    cut_trail 16
  all_goals (intros; rfl)

/-- `x` rejects the message only if `y` does or if the buffer is too short. -/
theorem Cut.short {σ ρ α β : Type} {V : View σ ρ} {W : Nat → Way → Prop} {i : Nat} {r A B C : Prop} [Decidable (A ∨ B)]
    [Decidable (A ∨ C)] {x x' : SGo σ α} {y y' : SGo σ β} (hx : ∀ s, (x s).2 = s) (hBC : r → C → B)
    (h : Cut V W i r x y) (h' : Cut V W i r x' y') :
    Cut V W i r (if A ∨ B then x else x') (if A ∨ C then y else y') := by
  by_cases h1 : A ∨ B <;> by_cases h2 : A ∨ C
  · rw [if_pos h1, if_pos h2]
    exact h
  · rw [if_pos h1, if_neg h2]
    exact Cut.still hx h'.1
  · rw [if_neg h1, if_pos h2]
    exact ⟨h.1, fun hr => absurd (h2.imp_right (hBC hr)) h1⟩
  · rw [if_neg h1, if_neg h2]
    exact h'

theorem acceptSMCDv2_between {m s' m' : AcceptSMCDv2} {short long : Slice} {l l' : List Bytes} (h : Part short long)
    (hs : AcceptSMCDv2.parseS short m = (.panic l, s')) (hl : m.parse long = .ret l' m') :
    Between [] (acceptSMCDv2 m) (acceptSMCDv2 m') (acceptSMCDv2 s') := by
  rw [← AcceptSMCDv2.final_parseS] at hl
  unfold AcceptSMCDv2.parseS at hs hl
  rw [within_headerS] at hs hl
  · refine cut_whole (V := acceptSMCDv2View) h ?_ hs hl
    repeat cut_step
    refine Cut.weaken (j := 8) (by decide) id ?_
    refine Cut.short ?_ ?_ ?_ ?_
    · exact fun s => rejects _ _ _ s
    · intro hr hc
      have := hr.1.1.length_le
      unfold Slice.len at hc ⊢
      omega
    · cut_reject
    repeat cut_step
    dsimp only
    refine Cut.ite ?_ ?_
    · unfold AcceptSMCDv2.parseFCES
      simp only [bind_assoc']
      repeat cut_step
      cut_trail 23
    · rw [pure_bind', pure_bind']
      cut_trail 23
  all_goals (intros; rfl)

end SMC.Tail
