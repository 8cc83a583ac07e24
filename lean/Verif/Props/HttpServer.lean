import Verif.Lemmas.HttpLoss
import Verif.Lemmas.Query
/-!
# Properties of requests and of StartServer: C63, C64, C65
-/

namespace SMC.Props
open SMC.Http

/-! ## C63 -/

/-- "flush=true" -/
def flushTrue : Bytes := go! "flush=true"

/-- The full statement of **C63** as a proposition: in every execution in which only requests
reset the buffer, every non-empty write is in the buffer or in some response once all goroutines
are idle. -/
def NoLoss : Prop :=
  ∀ n as y es, (Sys.init n).run as = some (y, es) → OnlyRequestsReset as →
    (∀ p ∈ y.buf.pcs, p = .idle) → ∀ t p, p ≠ [] → .buf (.call t (.write p)) ∈ es →
    p <:+: y.buf.contents ∨ ∃ u b, .response u b ∈ es ∧ p <:+: b

/-- Goroutine 0 handles a request with flush=true, goroutine 1 writes "x" between the copy and the
reset. -/
def lossy : List SysAct :=
  [.request 0 flushTrue] ++ List.replicate 6 (.run 0 0) ++ [.serve 0 0] ++
  [.call 1 (.write [0x78])] ++ List.replicate 6 (.run 1 0) ++ [.check 0] ++ List.replicate 4 (.run 0 0)

/-- **C63** is false: a write between the copy and the reset is in no response. -/
theorem C63_false : ¬ NoLoss := by
  intro h
  have e : (Sys.init 2).run lossy = some (⟨⟨false, none, 0, [[], [0x78]], [.idle, .idle]⟩, [.free, .free]⟩,
    [.buf (.call 0 .copy), .buf (.ret 0 (.copied [])), .response 0 [], .buf (.call 1 (.write [0x78])),
     .buf (.ret 1 (.wrote 1)), .buf (.call 0 .reset), .buf (.ret 0 .wasReset)]) := by decide +kernel
  have := h 2 lossy _ _ e (by intro t; simp [lossy]) (by simp) 1 [0x78] (by simp) (by simp)
  simp only [State.contents, List.mem_cons, SysEvent.response.injEq, reduceCtorEq, false_or,
    List.not_mem_nil, or_false] at this
  rcases this with h | ⟨u, b, ⟨rfl, rfl⟩, h⟩ <;> exact absurd h (by decide)

/-- Goroutine 0 writes "x", then handles a request with flush=true whose client takes no byte
of the response. -/
def unsent : List SysAct :=
  [.call 0 (.write [0x78])] ++ List.replicate 6 (.run 0 0) ++ [.request 0 flushTrue] ++
  List.replicate 7 (.run 0 0) ++ [.serve 0 0, .check 0] ++ List.replicate 4 (.run 0 0)

/-- **C63** is false even without concurrency: the buffer is reset if the response could not be
sent. -/
theorem C63_false_unsent : ¬ NoLoss := by
  intro h
  have e : (Sys.init 1).run unsent = some (⟨⟨false, none, 0, [[0x78], [0x78]], [.idle]⟩, [.free]⟩,
    [.buf (.call 0 (.write [0x78])), .buf (.ret 0 (.wrote 1)), .buf (.call 0 .copy),
     .buf (.ret 0 (.copied [0x78])), .response 0 [], .buf (.call 0 .reset),
     .buf (.ret 0 .wasReset)]) := by decide +kernel
  have := h 1 unsent _ _ e (by intro t; simp [unsent]) (by simp) 0 [0x78] (by simp) (by simp)
  simp only [State.contents, List.mem_cons, SysEvent.response.injEq, reduceCtorEq, false_or,
    List.not_mem_nil, or_false] at this
  rcases this with h | ⟨u, b, ⟨rfl, rfl⟩, h⟩ <;> exact absurd h (by decide)

/-- **C63** Exactly what a flush can discard unserved: before every reset the same goroutine
copied the whole buffer and sent a prefix `w` of the copy; what the reset discards is that copy
and what was written in between, or only the latter if somebody else reset in between. -/
theorem C63_window (n : Nat) (as : List SysAct) (y : Sys) (es : List SysEvent)
    (hs : (Sys.init n).run as = some (y, es)) (hr : OnlyRequestsReset as) :
    ∃ H, observed H = es ∧ SysLinearizable H ∧
      ∀ a b t v, H = a ++ .pt (.effect t .reset v) :: b →
        ∃ c d e w, a = c ++ .pt (.effect t .copy (.copied (contentsAfter c))) ::
            (d ++ .response t w :: e) ∧
          (∀ p ∈ d ++ e, p.apart t) ∧ w <+: contentsAfter c ∧
          contentsAfter a = if .reset ∈ opsIn (d ++ e) then contentsAfter (d ++ e)
            else contentsAfter c ++ (opsIn (d ++ e)).flatMap Op.payload := by
  obtain ⟨H, i, rfl⟩ := (SysInv.init n).runs hr hs
  rw [List.nil_append] at i
  refine ⟨H, rfl, ⟨fun t => by rw [i.inv.phases t]; rfl, i.inv.legal⟩, ?_⟩
  intro a b t v e
  obtain ⟨x, w, c, d, e', rfl, hd, he, hw⟩ := i.resets a b t v e
  have hl := i.inv.legal
  rw [e] at hl
  obtain rfl := copied_contents hl
  exact ⟨c, d, e', w, rfl, fun p m => (List.mem_append.1 m).elim (hd p) (he p), hw,
    contents_window ..⟩

/-- **C63**, what holds of it: no non-empty write is lost if, for every reset, the whole copy was sent and
nothing was written between the copy and the reset. -/
theorem C63_partial (n : Nat) (as : List SysAct) (y : Sys) (es : List SysEvent)
    (hs : (Sys.init n).run as = some (y, es)) (hr : OnlyRequestsReset as) :
    ∃ H, observed H = es ∧ SysLinearizable H ∧ (Undisturbed H → (∀ p ∈ y.buf.pcs, p = .idle) →
      ∀ t p, .buf (.call t (.write p)) ∈ es →
        p <:+: y.buf.contents ∨ ∃ u b, .response u b ∈ es ∧ p <:+: b) := by
  obtain ⟨H, i, rfl⟩ := (SysInv.init n).runs hr hs
  rw [List.nil_append] at i
  refine ⟨H, rfl, ⟨fun t => by rw [i.inv.phases t]; rfl, i.inv.legal⟩, ?_⟩
  intro hu hi t p hm
  have hc : Point.seen (.call t (.write p)) ∈ points H := mem_points.2 (mem_observed_buf.1 hm)
  obtain ⟨v, he⟩ := call_effect (i.inv.allIdle hi t) hc
  obtain ⟨a, b, rfl⟩ := List.append_of_mem (mem_points.1 he)
  by_cases hb : Op.reset ∈ opsIn b
  · right
    obtain ⟨b1, u, v', b2, rfl, hn⟩ := first_reset hb
    have e : a ++ .pt (.effect t (.write p) v) :: (b1 ++ .pt (.effect u .reset v') :: b2) =
      (a ++ .pt (.effect t (.write p) v) :: b1) ++ .pt (.effect u .reset v') :: b2 := by simp
    obtain ⟨x, w, c, d, e', e1, hd, he, hw⟩ := i.resets _ _ _ _ e
    obtain ⟨rfl, nw⟩ := hu _ _ _ _ e c x d w e' e1
      (fun p m => (List.mem_append.1 m).elim (hd p) (he p))
    have hl := i.inv.legal
    rw [e, e1] at hl
    obtain rfl := copied_contents hl
    refine ⟨u, contentsAfter c, ?_, ?_⟩
    · refine mem_observed_response.2 ?_
      rw [e, e1]
      simp
    · have : p <:+: contentsAfter (a ++ .pt (.effect t (.write p) v) :: b1) := written_contents hn
      rw [e1, contents_window] at this
      split at this
      · rename_i hres
        have : p = [] := List.infix_nil.1 (by simpa [contentsAfter, no_writes_since nw] using this)
        rw [this]
        exact List.nil_infix
      · rw [no_writes_payload nw, List.append_nil] at this
        exact this
  · left
    rw [i.contents hi]
    exact written_contents hb

/-- Writes of two goroutines that have returned, a request without flush, and then a request with
flush=true whose response is sent in full. -/
def served : List SysAct :=
  [.call 0 (.write [0x61, 0x62]), .call 1 (.write [0x63])] ++ List.replicate 7 (.run 0 0) ++
  List.replicate 6 (.run 1 9) ++ [.request 2 (go! "a=b")] ++ List.replicate 9 (.run 2 0) ++ [.serve 2 2, .check 2] ++
  [.request 1 flushTrue] ++ List.replicate 9 (.run 1 0) ++ [.serve 1 3, .check 1] ++
  List.replicate 4 (.run 1 0)

/-- The hypotheses of `C63_window` and `C63_partial` hold, with a reset and with idle goroutines. -/
example : OnlyRequestsReset served ∧ ((Sys.init 3).run served).map (fun x => (x.2, x.1.buf.pcs)) =
    some ([.buf (.call 0 (.write [0x61, 0x62])), .buf (.call 1 (.write [0x63])),
      .buf (.ret 0 (.wrote 2)), .buf (.ret 1 (.wrote 1)), .buf (.call 2 .copy),
      .buf (.ret 2 (.copied [0x61, 0x62, 0x63])), .response 2 [0x61, 0x62],
      .buf (.call 1 .copy), .buf (.ret 1 (.copied [0x61, 0x62, 0x63])),
      .response 1 [0x61, 0x62, 0x63], .buf (.call 1 .reset), .buf (.ret 1 .wasReset)],
      [.idle, .idle, .idle]) := by
  refine ⟨by intro t; simp [served], by decide +kernel⟩

/-- There are undisturbed histories with a reset. -/
example : Undisturbed [.pt (.effect 0 .copy (.copied [1])), .response 0 [1],
    .pt (.effect 0 .reset .wasReset)] := by
  intro a b t v e c x d w e' ea hp
  rcases a with _ | ⟨a1, _ | ⟨a2, _ | ⟨a3, a⟩⟩⟩
  · simp at e
  · simp at e
  · simp only [List.cons_append, List.nil_append, List.cons.injEq] at e
    obtain ⟨rfl, rfl, e, rfl⟩ := e
    rcases c with _ | ⟨c1, _ | ⟨c2, c⟩⟩
    · simp only [List.nil_append, List.cons.injEq, SysPoint.pt.injEq, Point.effect.injEq,
        Val.copied.injEq, true_and] at ea
      obtain ⟨⟨rfl, rfl⟩, ea⟩ := ea
      rcases d with _ | ⟨d1, d⟩
      · simp only [List.nil_append, List.cons.injEq, SysPoint.response.injEq, true_and] at ea
        obtain ⟨rfl, rfl⟩ := ea
        exact ⟨rfl, by simp [opsIn, points, effects]⟩
      · simp at ea
    · simp at ea
    · simp at ea
  · have := congrArg List.length e
    simp at this

/-- **C63**, what holds of it: a request with flush=true that is handled while nobody else uses the buffer and whose
response is sent in full discards exactly what it sent. -/
theorem C63_alone_partial (n : Nat) (as bs : List SysAct) (y y1 y2 : Sys) (es e1 e2 : List SysEvent)
    (t : Nat) (q : Bytes) (hs : (Sys.init n).run as = some (y, es)) (hr : OnlyRequestsReset as)
    (hi : ∀ p ∈ y.buf.pcs, p = .idle) (h1 : y.step (.request t q) = some (y1, e1))
    (hb : ∀ a ∈ bs, a.ofHandler t) (h2 : y1.run bs = some (y2, e2))
    (hf : y2.hs[t]? = some .free) (u : Nat) (w : Bytes) (hw : .response u w ∈ e2)
    (hl : w.length = y.buf.contents.length) :
    w = y.buf.contents ∧ y2.buf.contents = if flushes q then [] else w := by
  obtain ⟨H, i, rfl⟩ := (SysInv.init n).runs hr hs
  obtain ⟨k, i1, rfl, _⟩ := Alone.start i hi h1
  obtain ⟨k2, i2, rfl, r2⟩ := i1.runs hb h2
  have e : w = y.buf.contents := (r2 u w hw).eq_of_length hl
  exact ⟨e, e ▸ i2.finish hf⟩

/-- **C63** Exactly when such a request loses nothing, whatever part `w` of the response was sent: it does not flush, or
everything was sent. -/
theorem C63_alone_exact (n : Nat) (as bs : List SysAct) (y y1 y2 : Sys) (es e1 e2 : List SysEvent)
    (t : Nat) (q : Bytes) (hs : (Sys.init n).run as = some (y, es)) (hr : OnlyRequestsReset as)
    (hi : ∀ p ∈ y.buf.pcs, p = .idle) (h1 : y.step (.request t q) = some (y1, e1))
    (hb : ∀ a ∈ bs, a.ofHandler t) (h2 : y1.run bs = some (y2, e2))
    (hf : y2.hs[t]? = some .free) (u : Nat) (w : Bytes) (hw : .response u w ∈ e2) :
    w <+: y.buf.contents ∧ (y2.buf.contents = y.buf.contents ∨
      y2.buf.contents = [] ∧ FirstValue q (go! "flush") (go! "true")) ∧
    (w = y.buf.contents ∨ y2.buf.contents = y.buf.contents ↔
      ¬ FirstValue q (go! "flush") (go! "true") ∨ w.length = y.buf.contents.length) := by
  rw [← flushes_iff, Bool.not_eq_true]
  obtain ⟨H, i, rfl⟩ := (SysInv.init n).runs hr hs
  obtain ⟨k, i1, rfl, _⟩ := Alone.start i hi h1
  obtain ⟨k2, i2, rfl, r2⟩ := i1.runs hb h2
  have hp := r2 u w hw
  have e := i2.finish hf
  refine ⟨hp, ?_, ?_⟩
  · cases hq : flushes q with
    | false => rw [hq] at e; exact .inl e
    | true => rw [hq] at e; exact .inr ⟨e, rfl⟩
  · cases hq : flushes q with
    | false => rw [hq] at e; exact iff_of_true (.inr e) (.inl rfl)
    | true =>
      rw [hq] at e
      refine ⟨?_, ?_⟩
      · rintro (rfl | h)
        · exact .inr rfl
        · rw [e, if_pos rfl] at h
          rw [← h] at hp ⊢
          rw [List.prefix_nil.1 hp]
          exact .inr rfl
      · rintro (h | h)
        · cases h
        · exact .inl (hp.eq_of_length h)

/-! ## C64 -/

/-- **C64** The condition under which a request resets the buffer, for every query. -/
theorem C64_condition (q : Bytes) : flushes q = true ↔ FirstValue q (go! "flush") (go! "true") :=
  flushes_iff q

/-- **C64** A request that has sent its response calls `Reset` exactly if the first value of the
parameter is "true"; otherwise it ends and leaves the buffer alone. -/
theorem C64_check (y y' : Sys) (t : Nat) (q : Bytes) (es : List SysEvent)
    (hh : y.hs[t]? = some (.checking q)) (hs : y.step (.check t) = some (y', es)) :
    (FirstValue q (go! "flush") (go! "true") → es = [.buf (.call t .reset)] ∧
      y'.hs[t]? = some .resetting) ∧
    (¬ FirstValue q (go! "flush") (go! "true") → es = [] ∧ y'.buf = y.buf ∧
      y'.hs[t]? = some .free) := by
  simp only [Sys.step, hh] at hs
  rw [← flushes_iff]
  split at hs
  · rename_i hf
    simp only [Option.bind_eq_bind, Option.bind_eq_some_iff, Option.pure_def,
      Option.some.injEq, Prod.mk.injEq, Prod.exists] at hs
    obtain ⟨s, e, h1, rfl, rfl⟩ := hs
    obtain ⟨_, _, rfl⟩ := step_call h1
    exact ⟨fun _ => ⟨rfl, by rw [hset_get hh, if_pos rfl]⟩, fun h => absurd hf h⟩
  · rename_i hf
    simp only [Option.some.injEq, Prod.mk.injEq] at hs
    obtain ⟨rfl, rfl⟩ := hs
    exact ⟨fun h => absurd h hf, fun _ => ⟨rfl, rfl, by rw [hset_get hh, if_pos rfl]⟩⟩

/-- **C64** However requests and writers interleave: if no request has "true" as the first value
of flush, nobody resets the buffer. -/
theorem C64_never (n : Nat) (as : List SysAct) (y : Sys) (es : List SysEvent)
    (hs : (Sys.init n).run as = some (y, es)) (hr : OnlyRequestsReset as)
    (hq : ∀ t q, .request t q ∈ as → ¬ FirstValue q (go! "flush") (go! "true")) (t : Nat) :
    .buf (.call t .reset) ∉ es := by
  refine quiet_run ?_ (fun a m t e => hr t (e ▸ m)) (fun a m t q e => ?_) hs t
  · intro x m
    rw [(List.mem_replicate.1 m).2]
    trivial
  · have := hq t q (e ▸ m)
    rw [← flushes_iff] at this
    simpa using this

/-- **C64** A request handled while nobody else uses the buffer: it is empty afterwards if the
first value of flush is "true", otherwise it is as before; and the request is sent nothing but
a prefix of it. -/
theorem C64_alone (n : Nat) (as bs : List SysAct) (y y1 y2 : Sys) (es e1 e2 : List SysEvent)
    (t : Nat) (q : Bytes) (hs : (Sys.init n).run as = some (y, es)) (hr : OnlyRequestsReset as)
    (hi : ∀ p ∈ y.buf.pcs, p = .idle) (h1 : y.step (.request t q) = some (y1, e1))
    (hb : ∀ a ∈ bs, a.ofHandler t) (h2 : y1.run bs = some (y2, e2))
    (hf : y2.hs[t]? = some .free) :
    (FirstValue q (go! "flush") (go! "true") → y2.buf.contents = []) ∧
    (¬ FirstValue q (go! "flush") (go! "true") → y2.buf.contents = y.buf.contents) ∧
    ∀ u w, .response u w ∈ e1 ++ e2 → w <+: y.buf.contents := by
  obtain ⟨H, i, rfl⟩ := (SysInv.init n).runs hr hs
  obtain ⟨k, i1, rfl, r1⟩ := Alone.start i hi h1
  obtain ⟨k2, i2, rfl, r2⟩ := i1.runs hb h2
  have := i2.finish hf
  rw [← flushes_iff]
  refine ⟨fun h => by rw [this, if_pos h], fun h => by rw [this, if_neg h], ?_⟩
  intro u w m
  exact (List.mem_append.1 m).elim (fun m => absurd m (r1 u w)) (r2 u w)

/-- The queries of requests that flush and that do not. -/
example : flushes (go! "flush=true") ∧ flushes (go! "x=1&flush=true&flush=false") ∧
    flushes (go! "fl%75sh=tru%65") ∧ flushes (go! "%zz=1&;&flush=true") ∧
    !flushes (go! "flush=false&flush=true") ∧ !flushes (go! "flush=True") ∧
    !flushes (go! "flush") ∧ !flushes (go! "flush=true+") ∧ !flushes (go! "flush=true;a=b") ∧
    !flushes [] := by decide +kernel

/-- The hypotheses of `C64_alone`, `C64_check` and `C63_alone_partial` can be met, with and without flush. -/
example (f : Bool) :
    let q := if f then flushTrue else go! "flush=no"
    let as : List SysAct := [.call 0 (.write [0x61, 0x62])] ++ List.replicate 7 (.run 0 0)
    let bs : List SysAct := List.replicate 8 (.run 1 0) ++ [.serve 1 2, .check 1] ++
      if f then List.replicate 4 (.run 1 0) else []
    ∃ y y1 y2 es e1 e2, (Sys.init 2).run as = some (y, es) ∧ OnlyRequestsReset as ∧
      (∀ p ∈ y.buf.pcs, p = .idle) ∧ y.buf.contents = [0x61, 0x62] ∧
      y.step (.request 1 q) = some (y1, e1) ∧
      (∀ a ∈ bs, a.ofHandler 1) ∧ y1.run bs = some (y2, e2) ∧ y2.hs[1]? = some .free ∧
      .response 1 [0x61, 0x62] ∈ e2 ∧ y2.buf.contents = if f then [] else [0x61, 0x62] := by
  cases f <;>
  refine ⟨_, _, _, _, _, _, Option.eq_some_of_isSome (by decide +kernel), by intro t; simp,
    by decide +kernel, by decide +kernel, Option.eq_some_of_isSome (by decide +kernel),
    ?_, Option.eq_some_of_isSome (by decide +kernel), by decide +kernel, by decide +kernel,
    by decide +kernel⟩ <;> simp [SysAct.ofHandler]

/-- The hypotheses of `C63_alone_exact` can be met by a request that flushes of which only the first byte is sent. -/
example :
    let as : List SysAct := [.call 0 (.write [0x61, 0x62])] ++ List.replicate 7 (.run 0 0)
    let bs : List SysAct := List.replicate 8 (.run 1 0) ++ [.serve 1 1, .check 1] ++ List.replicate 4 (.run 1 0)
    ∃ y y1 y2 es e1 e2, (Sys.init 2).run as = some (y, es) ∧ OnlyRequestsReset as ∧
      (∀ p ∈ y.buf.pcs, p = .idle) ∧ y.buf.contents = [0x61, 0x62] ∧
      y.step (.request 1 flushTrue) = some (y1, e1) ∧
      (∀ a ∈ bs, a.ofHandler 1) ∧ y1.run bs = some (y2, e2) ∧ y2.hs[1]? = some .free ∧
      .response 1 [0x61] ∈ e2 ∧ y2.buf.contents = [] := by
  refine ⟨_, _, _, _, _, _, Option.eq_some_of_isSome (by decide +kernel), by intro t; simp,
    by decide +kernel, by decide +kernel, Option.eq_some_of_isSome (by decide +kernel),
    ?_, Option.eq_some_of_isSome (by decide +kernel), by decide +kernel, by decide +kernel,
    by decide +kernel⟩
  simp [SysAct.ofHandler]

/-! ## C65 -/

/-- The full statement of **C65** as a proposition: once the address can be listened on, `StartServer` returns, from
whatever calls made before. -/
def Restartable : Prop :=
  ∀ w, StartedWorld w → ∀ l, ∃ w', startServer w (some l) = .returned w' ∧ w'.listener = some l

/-- **C65** is false: the second successful call panics, after it has replaced the listener of the
server by one that nobody serves. -/
theorem C65_false : ¬ Restartable ∧ ∀ w, StartedWorld w → go! "/" ∈ w.patterns → ∀ l,
    ∃ w', startServer w (some l) = .panicked w' ∧ w'.listener = some l ∧ w'.served = w.served := by
  have second : ∀ w : World, go! "/" ∈ w.patterns → ∀ l,
      ∃ w', startServer w (some l) = .panicked w' ∧ w'.listener = some l ∧ w'.served = w.served := by
    intro w h l
    exact ⟨{ w with listener := some l }, by simp only [startServer, if_pos h], rfl, rfl⟩
  refine ⟨fun h => ?_, fun w _ h l => second w h l⟩
  obtain ⟨w', e, _⟩ := h {} .init 3
  obtain ⟨w'', e', _⟩ := h w' (.call .init e) 4
  cases e
  cases e'

/-- **C65** Exactly when a call returns. -/
theorem C65_returns_iff (w : World) (listen : Option Nat) :
    (∃ w', startServer w listen = .returned w') ↔ listen.isSome ∧ go! "/" ∉ w.patterns := by
  cases listen with
  | none => simp [startServer]
  | some l =>
    simp only [startServer, Option.isSome_some, true_and]
    split <;> rename_i h <;> simp [h]

/-- **C65**, what holds of it: a call that returns has set the listener and serves it; and at most one call ever
returns, the first one with a usable address. -/
theorem C65_partial (w w' : World) (listen : Option Nat)
    (h : startServer w listen = .returned w') :
    listen = w'.listener ∧ w'.listener.isSome ∧ (∀ l, w'.listener = some l → l ∈ w'.served) ∧
    go! "/" ∈ w'.patterns ∧ ∀ l w'', startServer w' l ≠ .returned w'' := by
  cases listen with
  | none => simp [startServer] at h
  | some l =>
    simp only [startServer] at h
    split at h
    · cases h
    · cases h
      refine ⟨rfl, rfl, by simp, by simp, ?_⟩
      intro l w'' e
      have := (C65_returns_iff _ _).1 ⟨w'', e⟩
      simp at this

example : startServer {} (some 3) = .returned ⟨some 3, [go! "/"], [3]⟩ ∧
    startServer ⟨some 3, [go! "/"], [3]⟩ (some 4) = .panicked ⟨some 4, [go! "/"], [3]⟩ ∧
    startServer {} none = .exited {} := by decide +kernel

end SMC.Props
