import Verif.Lemmas.Mux
import Verif.Lemmas.Wire
/-!
# C108: every path shows the page
-/

namespace SMC.Http
open SMC.Spec

theorem takeWhile_stop {p : UInt8 → Bool} {x : Bytes} (hx : ∀ b ∈ x, p b = true) {c : UInt8} (hc : p c = false) (r : Bytes) :
    (x ++ c :: r).takeWhile p = x ∧ (x ++ c :: r).dropWhile p = c :: r := by
  rw [List.takeWhile_append_of_pos hx, List.dropWhile_append_of_pos hx]
  simp [hc]

theorem takeWhile_id {p : UInt8 → Bool} {x : Bytes} (hx : ∀ b ∈ x, p b = true) : x.takeWhile p = x ∧ x.dropWhile p = [] := by
  have h1 := List.takeWhile_append_of_pos (l₂ := []) hx
  have h2 := List.dropWhile_append_of_pos (l₂ := []) hx
  simpa using And.intro h1 h2

theorem esc_chars {esc : UInt8 → Bytes} (h : Escaping esc) (p : Bytes) : ∀ b ∈ p.flatMap esc, b ≠ 0x3f ∧ b ≠ 0x23 ∧ b < 0x80 := by
  intro b m
  obtain ⟨c, _, hb⟩ := List.mem_flatMap.1 m
  by_cases h1 : c = 0x2f
  · subst h1
    rw [h.1] at hb
    cases List.mem_singleton.1 hb
    decide
  · by_cases h2 : c = 0x2e
    · subst h2
      rw [h.2.1] at hb
      cases List.mem_singleton.1 hb
      decide
    · exact ((h.2.2 c h1 h2).2 b hb).2.2

theorem redirectTo_clean {esc : UInt8 → Bytes} (h : Escaping esc) {p : Bytes} (hp : CleanPath p) (q : Bytes) :
    redirectTo (urlStr esc p q) = p.flatMap esc ++ if q ≠ [] then 0x3f :: hexEscape q else [] := by
  have hc := esc_chars h p
  have ps : ∀ b ∈ p.flatMap esc, decide (b ≠ (0x3f : UInt8)) = true := fun b m => decide_eq_true (hc b m).1
  have key : (urlStr esc p q).takeWhile (· ≠ 0x3f) = p.flatMap esc ∧
      (urlStr esc p q).dropWhile (· ≠ 0x3f) = if q ≠ [] then 0x3f :: q else [] := by
    unfold urlStr
    split
    · exact takeWhile_stop ps (by decide) q
    · rw [List.append_nil]
      exact takeWhile_id ps
  simp only [redirectTo, key.1, key.2]
  rw [again_clean (esc_clean h hp), hexEscape_append, hexEscape_ascii fun b m => (hc b m).2.2]
  split
  · rw [hexEscape_cons, if_neg (by decide)]
    rfl
  · rfl

theorem target_clean {esc : UInt8 → Bytes} (h : Escaping esc) (p : Bytes) {q : Bytes} (hq : 0x23 ∉ q) :
    target (p.flatMap esc ++ if q ≠ [] then 0x3f :: hexEscape q else []) = (p.flatMap esc, hexEscape q) := by
  have hc := esc_chars h p
  have ps : ∀ b ∈ p.flatMap esc, decide (b ≠ (0x3f : UInt8)) = true := fun b m => decide_eq_true (hc b m).1
  have hs : ∀ b ∈ p.flatMap esc ++ (if q ≠ [] then 0x3f :: hexEscape q else []), decide (b ≠ (0x23 : UInt8)) = true := by
    intro b m
    rw [decide_eq_true_eq]
    rintro rfl
    rcases List.mem_append.1 m with m | m
    · exact (hc _ m).2.1 rfl
    · split at m
      · rcases List.mem_cons.1 m with e | m
        · cases e
        · exact hq ((mem_hexEscape (.inr (.inr (.inr rfl))) q).1 m)
      · cases m
  simp only [target, (takeWhile_id hs).1]
  by_cases c : q = []
  · subst c
    simp only [ne_eq, not_true_eq_false, if_false, List.append_nil, (takeWhile_id ps).1, (takeWhile_id ps).2]
    rfl
  · rw [if_pos c, (takeWhile_stop ps (by decide) _).1, (takeWhile_stop ps (by decide) _).2]
    rfl

end SMC.Http

namespace SMC.Props
open SMC.Spec SMC.Http

/-- **C108.** Cleaning a path gives the text of the place the path leads to. -/
theorem C108_clean (es : List Bytes) (h0 : es ≠ []) (he : ∀ e ∈ es, 0x2f ∉ e) : cleanPath (pathText es) = canonical es :=
  cleanPath_names es h0 he

-- "/a/./b//../c/" leads to "/a/c/"
example : cleanPath (go! "/a/./b//../c/") = go! "/a/c/" ∧
    go! "/a/./b//../c/" = pathText [go! "a", go! ".", go! "b", go! "", go! "..", go! "c", go! ""] ∧
    canonical [go! "a", go! ".", go! "b", go! "", go! "..", go! "c", go! ""] = go! "/a/c/" := by decide

-- there is nothing above the root
example : cleanPath (go! "/../../etc/passwd") = go! "/etc/passwd" ∧ cleanPath (go! "/a/..") = go! "/" := by decide

/-- **C108.** The handler is called for exactly the paths without anything superfluous, whatever they name, with
the query of the request. -/
theorem C108_served (esc : UInt8 → Bytes) (p q q' : Bytes) : route esc (.get p q) = .handler q' ↔ CleanPath p ∧ q' = q := by
  rw [← cleanPath_iff]
  simp only [route]
  by_cases c : cleanPath p = p
  · rw [if_neg (by simpa using c)]
    simp only [Routed.handler.injEq, c, true_and]
    exact eq_comm
  · rw [if_pos c]
    simp [c]

example : route pathEsc (.get (go! "/") (go! "flush=true")) = .handler (go! "flush=true") ∧
    route pathEsc (.get (go! "/some/.../place.html/") []) = .handler [] ∧ CleanPath (go! "/some/.../place.html/") := by
  refine ⟨by decide, by decide, .inr ⟨[go! "some", go! "...", go! "place.html"], by decide, ?_, .inr (by decide)⟩⟩
  unfold Name
  decide

/-- **C108.** All other paths are redirected to the place they lead to. A client that follows the redirect gets the page
at once, and the buffer is emptied as if it had asked there first. -/
theorem C108_follow (esc : UInt8 → Bytes) (h : Escaping esc) (p q : Bytes) (hp : ¬ CleanPath p) (hq : 0x23 ∉ q) :
    ∃ l, route esc (.get p q) = .redirect l ∧
      route esc (.get (target l).1 (target l).2) = .handler (target l).2 ∧ flushes (target l).2 = flushes q ∧
      ∀ es, es ≠ [] → (∀ e ∈ es, 0x2f ∉ e) → p = pathText es → (target l).1 = (canonical es).flatMap esc := by
  refine ⟨_, if_pos (mt (cleanPath_iff p).1 hp), ?_⟩
  rw [redirectTo_clean h (cleanPath_clean p), target_clean h _ hq]
  refine ⟨(C108_served _ _ _ _).2 ⟨esc_clean h (cleanPath_clean p), rfl⟩, flushes_hexEscape q, ?_⟩
  rintro es h0 he rfl
  rw [cleanPath_names es h0 he]

example : route pathEsc (.get (go! "/a b//c/..") (go! "flush=true")) = .redirect (go! "/a%20b?flush=true") ∧
    target (go! "/a%20b?flush=true") = (go! "/a%20b", go! "flush=true") ∧
    route pathEsc (.get (go! "/a%20b") (go! "flush=true")) = .handler (go! "flush=true") := by decide

/-- **C108.** Every path that begins with a slash is a sequence of names. -/
theorem C108_paths (s : Bytes) : ∃ es, es ≠ [] ∧ (∀ e ∈ es, 0x2f ∉ e) ∧ 0x2f :: s = pathText es := by
  obtain ⟨es, h0, e, he⟩ := rooted_names s
  exact ⟨es, h0, he, e⟩

example : go! "//x" = pathText [[], go! "x"] := by decide

/-- **C108.** The escaping of Go 1.23 is one of those `C108_follow` is about. -/
theorem C108_escaping : Escaping pathEsc := by
  have h : ∀ n, n < 256 → UInt8.ofNat n ≠ 0x2f → UInt8.ofNat n ≠ 0x2e → pathEsc (UInt8.ofNat n) ≠ [] ∧
      (pathEsc (UInt8.ofNat n)).all (fun b => decide (b ≠ 0x2f ∧ b ≠ 0x2e ∧ b ≠ 0x3f ∧ b ≠ 0x23 ∧ b < 0x80)) := by
    decide +kernel
  refine ⟨by decide, by decide, fun c => ?_⟩
  refine forall_byte (P := fun c => c ≠ 0x2f → c ≠ 0x2e → pathEsc c ≠ [] ∧ ∀ b ∈ pathEsc c, b ≠ 0x2f ∧ b ≠ 0x2e ∧ b ≠ 0x3f ∧ b ≠ 0x23 ∧ b < 0x80) ?_ c
  intro n hn h1 h2
  exact ⟨(h n hn h1 h2).1, fun b m => of_decide_eq_true (List.all_eq_true.1 (h n hn h1 h2).2 b m)⟩

example : pathEsc 0x2f = [0x2f] ∧ pathEsc 0x3f = go! "%3F" ∧ pathEsc 0xff = go! "%FF" ∧ pathEsc 0x25 = go! "%25" := by decide

theorem percent_plain {c : UInt8} (h : c ≠ 0x25) (r : Bytes) : percent (c :: r) = c :: percent r := by
  match r with
  | [] => rfl
  | [a] => simp [percent]
  | a :: b :: r => rw [percent, if_neg h]

theorem percent_esc (c : UInt8) (r : Bytes) : percent (pathEsc c ++ r) = c :: percent r := by
  have h : ∀ n, n < 256 → (pathEsc (UInt8.ofNat n) = [UInt8.ofNat n] ∧ UInt8.ofNat n ≠ 0x25) ∨
      ((pathEsc (UInt8.ofNat n)).length = 3 ∧ (pathEsc (UInt8.ofNat n)).head? = some 0x25 ∧
        percent (pathEsc (UInt8.ofNat n)) = [UInt8.ofNat n]) := by decide +kernel
  refine forall_byte (P := fun c => percent (pathEsc c ++ r) = c :: percent r) ?_ c
  intro n hn
  rcases h n hn with ⟨h1, h2⟩ | ⟨h1, h2, h3⟩
  · rw [h1]
    exact percent_plain h2 r
  · match e : pathEsc (UInt8.ofNat n), h1 with
    | [x, a, b], _ =>
      rw [e] at h2 h3
      cases h2
      simp only [percent, if_true, List.cons.injEq, and_true] at h3
      rw [show [0x25, a, b] ++ r = 0x25 :: a :: b :: r from rfl, percent, if_pos rfl, h3]

/-- **C108.** The path a client is sent to stands for the path that was cleaned: nothing is lost by the escaping of Go 1.23. -/
theorem C108_decoded (p : Bytes) : percent (p.flatMap pathEsc) = p := by
  induction p with
  | nil => rfl
  | cons c p ih => rw [List.flatMap_cons, percent_esc, ih]

example : (go! "/a b?%2f").flatMap pathEsc = go! "/a%20b%3F%252f" ∧ percent (go! "/a%20b%3F%252f") = go! "/a b?%2f" := by decide

/-- **C108.** The assumption about hashes is needed: a request that does not empty the buffer where it is sent can be sent on to where
it does. -/
theorem C108_hash : ∃ p q l, CleanPath p ∧ flushes q = false ∧ route pathEsc (.get (0x2f :: p) q) = .redirect l ∧ (target l).1 = p ∧
    route pathEsc (.get p (target l).2) = .handler (target l).2 ∧ flushes (target l).2 = true :=
  ⟨go! "/", go! "flush=true#", go! "/?flush=true#", .inl rfl, by decide +kernel, by decide, by decide, by decide, by decide +kernel⟩

end SMC.Props
