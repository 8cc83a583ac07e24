import Verif.Spec.Page
import Verif.Props.HttpServer
import Verif.Props.Printable
import Verif.Props.Heading
/-!
# C100: messages arrive at the reader of the page as whole lines
-/

namespace SMC.Props

open SMC Spec Http

theorem lf_of_printable {p : Bytes} (h : Printable p) : (10 : UInt8) ∉ p := by
  intro m
  exact absurd (h 10 m).1 (by decide)

theorem lines_cons {p : Bytes} (h : (10 : UInt8) ∉ p) (r : Bytes) : lines (p ++ [10] ++ r) = p :: lines r := by
  induction p with
  | nil => rfl
  | cons c p ih =>
    have hc : c ≠ 10 := fun e => h (e ▸ List.mem_cons_self)
    have := ih fun m => h (List.mem_cons_of_mem _ m)
    simp only [List.cons_append, lines, if_neg hc] at this ⊢
    rw [this]

theorem lines_part {p : Bytes} (h : (10 : UInt8) ∉ p) : lines p = if p = [] then [] else [p] := by
  induction p with
  | nil => rfl
  | cons c p ih =>
    have hc : c ≠ 10 := fun e => h (e ▸ List.mem_cons_self)
    have := ih fun m => h (List.mem_cons_of_mem _ m)
    simp only [lines, if_neg hc, this, reduceCtorEq, if_false]
    by_cases hp : p = []
    · simp [hp]
    · simp [hp]

theorem showsTexts {ts : List Bytes} (h : ∀ t ∈ ts, OneLine t) {w : Bytes} (hw : w <+: ts.flatten) : ShowsTexts w ts := by
  induction ts generalizing w with
  | nil =>
    obtain rfl : w = [] := List.prefix_nil.1 hw
    exact ⟨[], [], [], rfl, rfl, .inl rfl, fun _ => ⟨rfl, rfl⟩⟩
  | cons t ts ih =>
    obtain ⟨p, rfl, hp⟩ := h t List.mem_cons_self
    have hn := lf_of_printable hp
    rw [List.flatten_cons] at hw
    rcases Nat.lt_or_ge w.length (p ++ [0x0a]).length with hl | hl
    · have hwp : w <+: p ++ [0x0a] := List.prefix_of_prefix_length_le hw (List.prefix_append _ _) (Nat.le_of_lt hl)
      have hwq : w <+: p := by
        rcases List.prefix_concat_iff.1 hwp with e | e
        · rw [e] at hl; exact absurd hl (Nat.lt_irrefl _)
        · exact e
      refine ⟨[], w, (p ++ [0x0a]) :: ts, rfl, ?_, .inr ⟨_, _, rfl, ?_⟩, ?_⟩
      · rw [lines_part fun m => hn (hwq.subset m)]; rfl
      · rw [List.dropLast_concat]; exact hwq
      · intro e
        rw [e, List.flatten_cons, List.length_append] at hl
        omega
    · obtain ⟨w', rfl⟩ := List.prefix_of_prefix_length_le (List.prefix_append _ _) hw hl
      have hw' : w' <+: ts.flatten := (List.prefix_append_right_inj _).1 hw
      obtain ⟨qs, r, rest, rfl, e, hr, hf⟩ := (ih (fun t m => h t (List.mem_cons_of_mem _ m)) hw').cut
      refine ⟨(p ++ [0x0a]) :: qs, r, rest, rfl, ?_, hr, fun e => hf ?_⟩
      · rw [lines_cons hn, e, List.map_cons, List.dropLast_concat, List.cons_append]
      · rw [List.flatten_cons, List.append_cancel_left_eq] at e
        exact e

theorem since_texts (ops : List Op) : since ops = (textsSince ops).flatten ∧ ∀ p ∈ textsSince ops, .write p ∈ ops := by
  constructor
  · unfold since textsSince
    generalize (ops.reverse.takeWhile (· ≠ .reset)).reverse = l
    induction l with
    | nil => rfl
    | cons o l ih => cases o <;> simp [Op.payload, ih]
  · intro p hp
    unfold textsSince at hp
    rw [List.mem_filterMap] at hp
    obtain ⟨o, ho, e⟩ := hp
    split at e
    · cases e
      have := List.mem_reverse.1 ho
      have := (List.takeWhile_sublist _).subset this
      exact List.mem_reverse.1 this
    · cases e

/-- C100: in every interleaving of any number of goroutines that write texts of one line each and of
requests, the lines of every response are the texts written since the last reset before the copy
that is sent, in their order and each of them whole; if the connection took less than the copy, the
first of them, and perhaps the beginning of one more. -/
theorem C100_lines (n : Nat) (as : List SysAct) (y : Sys) (es : List SysEvent)
    (hs : (Sys.init n).run as = some (y, es)) (hr : OnlyRequestsReset as)
    (hw : ∀ t p, .buf (.call t (.write p)) ∈ es → OneLine p) :
    ∃ H, observed H = es ∧ SysLinearizable H ∧ ∀ a b t w, H = a ++ .response t w :: b →
      ∃ c d, a = c ++ .pt (.effect t .copy (.copied (contentsAfter c))) :: d ∧ (∀ p ∈ d, p.apart t) ∧
        ShowsTexts w (textsSince (opsIn c)) := by
  obtain ⟨H, i, rfl⟩ := (SysInv.init n).runs hr hs
  rw [List.nil_append] at i
  have ph : ∀ t, (phase t (points H)).isSome := fun t => by rw [i.inv.phases t]; rfl
  refine ⟨H, rfl, ⟨ph, i.inv.legal⟩, ?_⟩
  intro a b t w e
  obtain ⟨-, x, ⟨c, d, rfl, hd⟩, hx⟩ := i.resp a b t w e
  have hl := i.inv.legal
  rw [e] at hl
  obtain rfl := copied_contents hl
  refine ⟨c, d, rfl, hd, showsTexts ?_ ((since_texts _).1 ▸ hx)⟩
  intro p hp
  have m := (since_texts (opsIn c)).2 p hp
  obtain ⟨⟨o, v⟩, m1, rfl⟩ := List.mem_map.1 m
  obtain ⟨u, m2⟩ := mem_effects.1 m1
  have m3 : .pt (.effect u (.write p) v) ∈ H := by
    rw [e, List.append_assoc]; exact List.mem_append_left _ (mem_points.1 m2)
  have m4 := effect_called (ph u) (mem_points.2 m3)
  exact hw u p (mem_observed_buf.2 (mem_points.1 m4))

/-- Goroutine 0 starts to write "a" and a line feed; goroutine 1, which writes "bc" and a line feed,
waits for it; goroutine 2 answers a request, but the connection takes four of the five bytes. -/
def printing : List SysAct :=
  [.call 0 (.write [0x61, 0x0a]), .call 1 (.write [0x62, 0x63, 0x0a]), .run 0 0] ++ List.replicate 6 (.run 0 0) ++
  List.replicate 8 (.run 1 0) ++ [.request 2 []] ++ List.replicate 11 (.run 2 0) ++ [.serve 2 4]

example : ((Sys.init 3).run printing).map (·.2) = some [.buf (.call 0 (.write [0x61, 0x0a])), .buf (.call 1 (.write [0x62, 0x63, 0x0a])),
      .buf (.ret 0 (.wrote 2)), .buf (.ret 1 (.wrote 3)), .buf (.call 2 .copy), .buf (.ret 2 (.copied [0x61, 0x0a, 0x62, 0x63, 0x0a])),
      .response 2 [0x61, 0x0a, 0x62, 0x63]] ∧ OnlyRequestsReset printing ∧ OneLine [0x61, 0x0a] ∧ OneLine [0x62, 0x63, 0x0a] ∧
    lines [0x61, 0x0a, 0x62, 0x63] = [[0x61], [0x62, 0x63]] :=
  ⟨by decide +kernel, by intro t; simp [printing], ⟨[0x61], rfl, by unfold Printable; decide⟩,
    ⟨[0x62, 0x63], rfl, by unfold Printable; decide⟩, by decide⟩

/-- C100: a page determines the texts it was made of. -/
theorem C100_unique (ts ts' : List Bytes) (h : ∀ t ∈ ts, OneLine t) (h' : ∀ t ∈ ts', OneLine t)
    (e : ts.flatten = ts'.flatten) : ts = ts' := by
  have key : ∀ ts : List Bytes, (∀ t ∈ ts, OneLine t) → (lines ts.flatten).map (· ++ [0x0a]) = ts := by
    intro ts h
    induction ts with
    | nil => rfl
    | cons t ts ih =>
      obtain ⟨p, rfl, hp⟩ := h t List.mem_cons_self
      rw [List.flatten_cons, lines_cons (lf_of_printable hp), List.map_cons, ih fun t m => h t (List.mem_cons_of_mem _ m)]
  rw [← key ts h, ← key ts' h', e]

example : OneLine [0x61, 0x0a] ∧ OneLine [0x62, 0x63, 0x0a] :=
  ⟨⟨[0x61], rfl, by unfold Printable; decide⟩, ⟨[0x62, 0x63], rfl, by unfold Printable; decide⟩⟩

/-- C100: a page with texts of LLC and CDC messages shows how many messages there were, and their
kinds in their order. -/
theorem C100_kinds (ms ms' : List LLC.Msg) (h : (ms.map LLC.Msg.string).flatten = (ms'.map LLC.Msg.string).flatten) :
    ms.map kindOf = ms'.map kindOf := by
  have one : ∀ ms : List LLC.Msg, ∀ t ∈ ms.map LLC.Msg.string, OneLine t := by
    intro ms t m
    obtain ⟨x, -, rfl⟩ := List.mem_map.1 m
    exact (C87_llc x).1
  have e := C100_unique _ _ (one ms) (one ms') h
  clear h one
  induction ms generalizing ms' with
  | nil =>
    cases ms' with
    | nil => rfl
    | cons m ms' => cases e
  | cons m ms ih =>
    cases ms' with
    | nil => cases e
    | cons m' ms' =>
      simp only [List.map_cons, List.cons.injEq] at e ⊢
      exact ⟨C99_llc_kinds m m' _ (.inl rfl) (.inl e.1), ih ms' e.2⟩

example : ([.testLink {}, .cdc {}].map LLC.Msg.string).flatten = ([.testLink { res1 := 1 }, .cdc { res1 := [2] }].map LLC.Msg.string).flatten := by
  decide +kernel

/-- C100: a page with texts of CLC messages, each ended by a line feed, shows how many messages there
were, and their texts in their order, if the names the peers chose are printable. -/
theorem C100_clc (ms ms' : List CLC.Message) (hp : ∀ m ∈ ms ++ ms', ∀ n ∈ shownNames m, Printable (name n))
    (h : (ms.map (·.string ++ [0x0a])).flatten = (ms'.map (·.string ++ [0x0a])).flatten) :
    ms.map CLC.Message.string = ms'.map CLC.Message.string := by
  have one : ∀ ms : List CLC.Message, (∀ m ∈ ms, ∀ n ∈ shownNames m, Printable (name n)) →
      ∀ t ∈ ms.map (·.string ++ [0x0a]), OneLine t := by
    intro ms h t m
    obtain ⟨x, hm, rfl⟩ := List.mem_map.1 m
    exact ⟨_, rfl, (C87_clc x).1.2 (h x hm)⟩
  have e := C100_unique _ _ (one ms fun m hm => hp m (List.mem_append_left _ hm))
    (one ms' fun m hm => hp m (List.mem_append_right _ hm)) h
  have := congrArg (List.map List.dropLast) e
  simp only [List.map_map] at this
  have f : List.dropLast ∘ (fun m : CLC.Message => m.string ++ [0x0a]) = CLC.Message.string := by
    funext m
    exact List.dropLast_concat
  rwa [f] at this

example : (∀ m ∈ [CLC.Message.decline {}, .decline { PeerDiagnosis := 0x03050000 }], ∀ n ∈ shownNames m, Printable (name n)) ∧
    ([CLC.Message.decline {}].map (·.string ++ [0x0a])).flatten =
      ([CLC.Message.decline { rsv := [1, 2, 3, 4] }].map (·.string ++ [0x0a])).flatten := by
  refine ⟨?_, by decide +kernel⟩
  intro m hm
  simp only [List.mem_cons, List.not_mem_nil, or_false] at hm
  rcases hm with rfl | rfl <;> simp [shownNames]

end SMC.Props
