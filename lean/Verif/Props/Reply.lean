import Verif.Http.Reply
import Verif.Spec.Reply
import Verif.Props.HttpServer
/-!
# C111: clients read the page from the response
-/

namespace SMC.Http

open SMC Spec

/-! ## Chunks -/

/-- a chunk as sent -/
def chunk (p : Bytes) : Bytes := (digits 16 p.length ++ crlf) ++ p ++ crlf

theorem hexVal_digit : ∀ d < 16, hexVal (digit d) = d ∧ digit d ≠ 0x0d := by decide

theorem hexNumber_append (a : Bytes) (c : UInt8) : hexNumber (a ++ [c]) = 16 * hexNumber a + hexVal c := by
  simp [hexNumber, List.foldl_append]

theorem digitsAux_hex (f n : Nat) (h : n ≤ f) : hexNumber (digitsAux f 16 n) = n ∧ (0x0d : UInt8) ∉ digitsAux f 16 n := by
  induction f generalizing n with
  | zero =>
    obtain rfl : n = 0 := by omega
    decide
  | succ f ih =>
    unfold digitsAux
    split
    · rename_i h16
      have := hexVal_digit n h16
      refine ⟨?_, by simpa using this.2.symm⟩
      simp [hexNumber, this.1]
    · have i := ih (n / 16) (by omega)
      have := hexVal_digit (n % 16) (by omega)
      refine ⟨?_, by simpa [not_or] using ⟨i.2, this.2.symm⟩⟩
      rw [hexNumber_append, i.1, this.1]
      omega

theorem digits_hex (n : Nat) : hexNumber (digits 16 n) = n ∧ (0x0d : UInt8) ∉ digits 16 n := digitsAux_hex n n (Nat.le_refl n)

theorem until_cr {a r : Bytes} (h : (0x0d : UInt8) ∉ a) :
    (a ++ 0x0d :: r).takeWhile (· ≠ 0x0d) = a ∧ (a ++ 0x0d :: r).dropWhile (· ≠ 0x0d) = 0x0d :: r := by
  induction a with
  | nil => simp
  | cons b a ih =>
    rw [List.mem_cons, not_or] at h
    have i := ih h.2
    have hb : decide (b ≠ 0x0d) = true := by simpa using Ne.symm h.1
    rw [List.cons_append, List.takeWhile_cons, List.dropWhile_cons, if_pos hb, if_pos hb, i.1, i.2]
    exact ⟨rfl, rfl⟩

theorem readChunks_last (f : Nat) (rest : Bytes) : readChunks (f + 1) (go! "0" ++ crlf ++ crlf ++ rest) = some ([], rest) := by
  rfl

theorem readChunks_chunk (f : Nat) (p s : Bytes) (hp : p ≠ []) :
    readChunks (f + 1) (chunk p ++ s) = (readChunks f s).map fun (b, rest) => (p ++ b, rest) := by
  obtain ⟨d1, d2⟩ := digits_hex p.length
  have e : chunk p ++ s = digits 16 p.length ++ 0x0d :: 0x0a :: (p ++ (0x0d :: 0x0a :: s)) := by
    simp [chunk, crlf]
  obtain ⟨t1, t2⟩ := until_cr (a := digits 16 p.length) (r := 0x0a :: (p ++ (0x0d :: 0x0a :: s))) d2
  have hl : p.length ≠ 0 := fun h => hp (List.eq_nil_of_length_eq_zero h)
  obtain ⟨k, hk⟩ := Nat.exists_eq_succ_of_ne_zero hl
  rw [e]
  conv => lhs; unfold readChunks
  simp only [t1, t2, d1, List.drop_left, List.take_left]
  rw [hk]
  rfl

theorem readChunks_all (cs : List Bytes) (hc : ∀ p ∈ cs, p ≠ []) (rest : Bytes) (f : Nat) (hf : cs.length < f) :
    readChunks f (cs.flatMap chunk ++ (go! "0" ++ crlf ++ crlf ++ rest)) = some (cs.flatten, rest) := by
  induction cs generalizing f with
  | nil =>
    obtain ⟨f, rfl⟩ := Nat.exists_eq_succ_of_ne_zero (by omega : f ≠ 0)
    exact readChunks_last f rest
  | cons p cs ih =>
    obtain ⟨f, rfl⟩ := Nat.exists_eq_succ_of_ne_zero (by omega : f ≠ 0)
    rw [List.flatMap_cons, List.append_assoc, readChunks_chunk f p _ (hc p (by simp)),
      ih (fun q hq => hc q (by simp [hq])) f (by simpa using hf)]
    rfl

theorem chunks_length (cs : List Bytes) : cs.length ≤ (cs.flatMap chunk).length := by
  induction cs with
  | nil => simp
  | cons p cs ih =>
    rw [List.flatMap_cons, List.length_append, List.length_cons]
    have : 1 ≤ (chunk p).length := by simp [chunk, crlf]; omega
    omega

/-! ## The writer -/

/-- the header was written before the handler returned, and the chunks `cs` behind it -/
structure Going (c : Client) (cs : List Bytes) (r : Reply) : Prop where
  wrote : r.wroteHeader = true
  length : r.length = none
  chunking : r.chunking = c.http11
  close : r.close = !c.http11
  out : r.out = if c.http11 then cs.flatMap chunk else cs.flatten

theorem header_going {c : Client} (hc : c.head = false) (p : Bytes) : Going c [] (Reply.header c false p {}) := by
  obtain ⟨h, v⟩ := c
  cases hc
  cases v <;> exact ⟨rfl, rfl, rfl, rfl, rfl⟩

theorem Going.write {c : Client} (hc : c.head = false) {cs : List Bytes} {r : Reply} (g : Going c cs r) (d : Bool) (p : Bytes) :
    Going c (cs ++ [p]) (r.write c d p) := by
  obtain ⟨h, v⟩ := c
  cases hc
  obtain ⟨g1, g2, g3, g4, g5⟩ := g
  obtain ⟨w, l, k, x, o⟩ := r
  dsimp only at g1 g2 g3 g4 g5
  subst g1 g2 g3 g4 g5
  cases k <;> refine ⟨rfl, rfl, rfl, rfl, ?_⟩ <;> simp [Reply.write, chunk]

theorem going_start {c : Client} (hc : c.head = false) (p : Bytes) : Going c [p] (Reply.write c false {} p) := by
  have e : Reply.write c false {} p = Reply.write c false (Reply.header c false p {}) p := by
    obtain ⟨h, v⟩ := c
    cases hc
    cases v <;> rfl
  rw [e]
  exact (header_going hc p).write hc false p

theorem Going.writes {c : Client} (hc : c.head = false) {cs : List Bytes} {r : Reply} (g : Going c cs r) (ps : List Bytes) :
    Going c (cs ++ ps) (ps.foldl (Reply.write c false) r) := by
  induction ps generalizing cs r with
  | nil => simpa using g
  | cons p ps ih =>
    have := ih (g.write hc false p)
    rwa [List.append_assoc] at this

/-- what is written on and what is in the buffer, when a handler has written `s` -/
def Sent (c : Client) (s : Bytes) (st : Bytes × Reply) : Prop :=
  (st.2 = {} ∧ st.1 = s) ∨ ∃ cs : List Bytes, (∀ p ∈ cs, p ≠ []) ∧ Going c cs st.2 ∧ s = cs.flatten ++ st.1

theorem bufWrite_sent (buf p : Bytes) (hp : p ≠ []) : (∀ q ∈ (bufWrite buf p).1, q ≠ []) ∧
    (bufWrite buf p).1.flatten ++ (bufWrite buf p).2 = buf ++ p := by
  unfold bufWrite
  split
  · simp
  split
  · rename_i hb
    subst hb
    simp [hp]
  · rename_i hb
    dsimp only
    split
    · simp [hb]
    · rename_i h
      refine ⟨?_, by simp⟩
      intro q hq
      simp only [List.mem_cons, List.not_mem_nil, or_false] at hq
      rcases hq with rfl | rfl
      · simp [hb]
      · intro hn
        rw [hn] at h
        exact h (by simp [bufSize])

theorem Sent.write {c : Client} (hc : c.head = false) {s : Bytes} {st : Bytes × Reply} (h : Sent c s st) (p : Bytes) :
    Sent c (s ++ p) (responseWrite c st p) := by
  unfold responseWrite
  split
  · rename_i hp
    rw [hp, List.append_nil]
    exact h
  rename_i hp
  obtain ⟨b1, b2⟩ := bufWrite_sent st.1 p hp
  generalize hw : bufWrite st.1 p = w at b1 b2 ⊢
  obtain ⟨ps, buf⟩ := w
  dsimp only at b1 b2 ⊢
  rcases h with ⟨h1, h2⟩ | ⟨cs, h1, h2, h3⟩
  · rw [h2] at b2
    cases ps with
    | nil => exact .inl ⟨h1, b2⟩
    | cons q qs =>
      refine .inr ⟨q :: qs, b1, ?_, b2.symm⟩
      rw [h1]
      exact (going_start hc q).writes hc qs
  · refine .inr ⟨cs ++ ps, ?_, h2.writes hc ps, ?_⟩
    · intro q hq
      rcases List.mem_append.1 hq with hq | hq
      · exact h1 q hq
      · exact b1 q hq
    · rw [h3, List.flatten_append, List.append_assoc, List.append_assoc, b2]

theorem Sent.writes {c : Client} (hc : c.head = false) {s : Bytes} {st : Bytes × Reply} (h : Sent c s st) (ws : List Bytes) :
    Sent c (s ++ ws.flatten) (ws.foldl (responseWrite c) st) := by
  induction ws generalizing s st with
  | nil => simpa using h
  | cons p ws ih =>
    have := ih (h.write hc p)
    rwa [List.append_assoc] at this

theorem Going.finish {c : Client} {cs : List Bytes} {r : Reply} (g : Going c cs r) :
    (r.finish c).length = none ∧ (r.finish c).chunking = c.http11 ∧ (r.finish c).close = !c.http11 ∧
      (r.finish c).out = if c.http11 then cs.flatMap chunk ++ (go! "0" ++ crlf ++ crlf) else cs.flatten := by
  obtain ⟨h, v⟩ := c
  obtain ⟨g1, g2, g3, g4, g5⟩ := g
  obtain ⟨w, l, k, x, o⟩ := r
  dsimp only at g1 g2 g3 g4 g5
  subst g1 g2 g3 g4 g5
  cases k <;> simp [Reply.finish]

/-- how the body of a response to a request other than HEAD ends, and what is sent of it -/
theorem respond_cases {c : Client} (hc : c.head = false) (ws : List Bytes) :
    ((respond c ws).length = some ws.flatten.length ∧ (respond c ws).chunking = false ∧ (respond c ws).close = false ∧
      (respond c ws).out = ws.flatten) ∨
    ∃ cs : List Bytes, (∀ p ∈ cs, p ≠ []) ∧ cs.flatten = ws.flatten ∧ (respond c ws).length = none ∧
      (respond c ws).chunking = c.http11 ∧ (respond c ws).close = !c.http11 ∧
      (respond c ws).out = if c.http11 then cs.flatMap chunk ++ (go! "0" ++ crlf ++ crlf) else cs.flatten := by
  have h : Sent c ([] ++ ws.flatten) (ws.foldl (responseWrite c) ([], {})) :=
    Sent.writes hc (.inl ⟨rfl, rfl⟩) ws
  rw [List.nil_append] at h
  unfold respond
  generalize ws.foldl (responseWrite c) ([], {}) = st at h ⊢
  obtain ⟨buf, r⟩ := st
  dsimp only
  rcases h with ⟨h1, h2⟩ | ⟨cs, h1, h2, h3⟩
  · left
    dsimp only at h1 h2
    subst h1
    rw [← h2]
    have hd : ∀ p : Bytes, Reply.header c true p {} = { wroteHeader := true, length := some p.length } := by
      intro p
      simp [Reply.header, hc]
    by_cases hb : buf = []
    · rw [if_pos hb, hb]
      simp [Reply.finish, hd]
    · rw [if_neg hb]
      simp [Reply.write, Reply.finish, hd, hc]
  · right
    dsimp only at h2 h3
    by_cases hb : buf = []
    · rw [if_pos hb]
      exact ⟨cs, h1, by rw [h3, hb, List.append_nil], h2.finish⟩
    · rw [if_neg hb]
      refine ⟨cs ++ [buf], ?_, by rw [h3]; simp, (h2.write hc true buf).finish⟩
      intro p hp
      rcases List.mem_append.1 hp with hp | hp
      · exact h1 p hp
      · rw [List.mem_singleton.1 hp]; exact hb

end SMC.Http

namespace SMC.Props

open SMC Spec Http

/-! ## C111 -/

/-- **C111** Whatever the handler writes, in however many pieces, a client that asked for more than the header reads exactly
that from the response, and what follows is the next response; if there is nothing in the header that says where the body
ends, the connection ends there. -/
theorem C111_body (c : Client) (hc : c.head = false) (ws : List Bytes) (rest : Bytes)
    (hr : (respond c ws).close = true → rest = []) :
    readBody false (respond c ws).chunking (respond c ws).length ((respond c ws).out ++ rest) = some (ws.flatten, rest) := by
  rcases respond_cases hc ws with ⟨h1, h2, h3, h4⟩ | ⟨cs, h1, h2, h3, h4, h5, h6⟩
  · rw [h1, h2, h4]
    simp [readBody]
  · rw [h3, h4, h6]
    rw [h5] at hr
    cases hv : c.http11
    · rw [hv] at hr
      obtain rfl := hr rfl
      simp [readBody, h2]
    · have := readChunks_all cs h1 rest
        ((cs.flatMap chunk ++ (go! "0" ++ crlf ++ crlf)) ++ rest).length.succ (by
          have := chunks_length cs
          simp only [List.length_append]
          omega)
      simp only [readBody, if_true, Bool.false_eq_true, if_false]
      rw [List.append_assoc _ _ rest, ← h2]
      rw [List.append_assoc _ _ rest] at this
      exact this

/-- **C111** How the page is sent: its length is announced if it has at most 2048 bytes; longer ones are one chunk, or end
with the connection if the client knows no chunks. -/
theorem C111_framing (c : Client) (hc : c.head = false) (page : Bytes) :
    let r := respond c (copyWrites page)
    (page.length ≤ 2048 → r.length = some page.length ∧ r.chunking = false ∧ r.close = false ∧ r.out = page) ∧
    (2048 < page.length → r.length = none ∧ r.chunking = c.http11 ∧ r.close = !c.http11 ∧
      r.out = if c.http11 then chunk page ++ (go! "0" ++ crlf ++ crlf) else page) := by
  dsimp only
  constructor
  · intro hl
    by_cases hp : page = []
    · subst hp
      obtain ⟨h, v⟩ := c
      cases hc
      cases v <;> exact ⟨rfl, rfl, rfl, rfl⟩
    · have e : copyWrites page = [page] := if_neg hp
      have b : bufWrite [] page = ([], page) := by
        unfold bufWrite
        rw [if_pos (by simpa [bufSize] using hl)]
        rfl
      rw [e]
      unfold respond
      simp only [List.foldl_cons, List.foldl_nil, responseWrite, if_neg hp, b]
      simp [Reply.write, Reply.header, Reply.finish, hc]
  · intro hl
    have hp : page ≠ [] := by rintro rfl; simp at hl
    have e : copyWrites page = [page] := if_neg hp
    have b : bufWrite [] page = ([page], []) := by
      unfold bufWrite
      rw [if_neg (by simpa [bufSize] using hl), if_pos rfl]
    rw [e]
    unfold respond
    simp only [List.foldl_cons, List.foldl_nil, responseWrite, if_neg hp, b, if_true]
    have g := (going_start hc page).finish
    simpa using g

/-- **C111** A client that asks for the header only is sent nothing behind it, whatever the handler writes. -/
theorem C111_head (c : Client) (hc : c.head = true) (ws : List Bytes) : (respond c ws).out = [] := by
  have hw : ∀ d r p, (Reply.write c d r p).out = r.out ∧ (r.chunking = false → (Reply.write c d r p).chunking = false) := by
    intro d r p
    obtain ⟨h, v⟩ := c
    cases hc
    obtain ⟨w, l, k, x, o⟩ := r
    cases w <;> simp [Reply.write, Reply.header]
  have hf : ∀ (ps : List Bytes) (r : Reply), r.out = [] → r.chunking = false →
      (ps.foldl (Reply.write c false) r).out = [] ∧ (ps.foldl (Reply.write c false) r).chunking = false := by
    intro ps
    induction ps with
    | nil => exact fun r h1 h2 => ⟨h1, h2⟩
    | cons p ps ih =>
      intro r h1 h2
      exact ih _ ((hw false r p).1.trans h1) ((hw false r p).2 h2)
  have hr : ∀ (ws : List Bytes) (st : Bytes × Reply), st.2.out = [] → st.2.chunking = false →
      (ws.foldl (responseWrite c) st).2.out = [] ∧ (ws.foldl (responseWrite c) st).2.chunking = false := by
    intro ws
    induction ws with
    | nil => exact fun st h1 h2 => ⟨h1, h2⟩
    | cons p ws ih =>
      intro st h1 h2
      refine ih _ ?_ ?_ <;> unfold responseWrite <;> split
      · exact h1
      · exact (hf _ _ h1 h2).1
      · exact h2
      · exact (hf _ _ h1 h2).2
  obtain ⟨r1, r2⟩ := hr ws ([], {}) rfl rfl
  have fin : ∀ r : Reply, r.out = [] → r.chunking = false → (r.finish c).out = [] := by
    intro r h1 h2
    obtain ⟨w, l, k, x, o⟩ := r
    dsimp only at h1 h2
    subst h1 h2
    cases w <;> simp [Reply.finish, Reply.header, hc]
  unfold respond
  dsimp only
  split
  · exact fin _ r1 r2
  · exact fin _ ((hw _ _ _).1.trans r1) ((hw _ _ _).2 r2)

/-- **C111** A client that asks for the header only is told the length of the page if the page is not empty and not longer
than 2048 bytes, and nothing about it otherwise. -/
theorem C111_head_length (c : Client) (hc : c.head = true) (page : Bytes) :
    (respond c (copyWrites page)).length = if page ≠ [] ∧ page.length ≤ 2048 then some page.length else none := by
  by_cases hp : page = []
  · subst hp
    simp [copyWrites, respond, Reply.finish, Reply.header, hc]
  have e : copyWrites page = [page] := if_neg hp
  rw [e]
  unfold respond
  by_cases hl : page.length ≤ 2048
  · have b : bufWrite [] page = ([], page) := by
      unfold bufWrite
      rw [if_pos (by simpa [bufSize] using hl)]
      rfl
    have hl0 : 0 < page.length := List.length_pos_iff.2 hp
    simp [responseWrite, hp, b, Reply.write, Reply.header, Reply.finish, hc, hl, hl0]
  · have b : bufWrite [] page = ([page], []) := by
      unfold bufWrite
      rw [if_neg (by simpa [bufSize] using hl), if_pos rfl]
    simp [responseWrite, hp, b, Reply.write, Reply.header, Reply.finish, hc, hl]

/-- The full statement of **C111** for a client as a proposition: whenever a request is handled while nobody else uses the
buffer and all writes of the handler succeed, the client reads the page from the response, or the page is still there. -/
def Shown (c : Client) : Prop :=
  ∀ (n : Nat) (as bs : List SysAct) (y y1 y2 : Sys) (es e1 e2 : List SysEvent) (t : Nat) (q : Bytes),
    (Sys.init n).run as = some (y, es) → OnlyRequestsReset as → (∀ p ∈ y.buf.pcs, p = .idle) →
    y.step (.request t q) = some (y1, e1) → (∀ a ∈ bs, a.ofHandler t) → y1.run bs = some (y2, e2) →
    y2.hs[t]? = some .free → ∀ (u : Nat) (w : Bytes), .response u w ∈ e2 → w.length = y.buf.contents.length →
    let r := respond c (copyWrites w)
    readBody c.head r.chunking r.length r.out = some (y.buf.contents, []) ∨ y2.buf.contents = y.buf.contents

/-- **C111** is false: a HEAD request with flush=true throws the page away, and nothing of the page is sent. -/
theorem C111_false (v : Bool) : ¬ Shown ⟨true, v⟩ := by
  intro h
  obtain ⟨y, y1, y2, es, e1, e2, h1, h2, h3, h4, h5, h6, h7, h8, h9, h10⟩ :
      ∃ y y1 y2 es e1 e2, (Sys.init 2).run ([.call 0 (.write [0x61, 0x62])] ++ List.replicate 7 (.run 0 0)) = some (y, es) ∧
      OnlyRequestsReset ([.call 0 (.write [0x61, 0x62])] ++ List.replicate 7 (.run 0 0)) ∧
      (∀ p ∈ y.buf.pcs, p = .idle) ∧ y.buf.contents = [0x61, 0x62] ∧
      y.step (.request 1 flushTrue) = some (y1, e1) ∧
      (∀ a ∈ List.replicate 8 (SysAct.run 1 0) ++ [.serve 1 2, .check 1] ++ List.replicate 4 (.run 1 0), a.ofHandler 1) ∧
      y1.run (List.replicate 8 (.run 1 0) ++ [.serve 1 2, .check 1] ++ List.replicate 4 (.run 1 0)) = some (y2, e2) ∧
      y2.hs[1]? = some .free ∧ .response 1 [0x61, 0x62] ∈ e2 ∧ y2.buf.contents = [] := by
    refine ⟨_, _, _, _, _, _, Option.eq_some_of_isSome (by decide +kernel), by intro t; simp,
      by decide +kernel, by decide +kernel, Option.eq_some_of_isSome (by decide +kernel),
      ?_, Option.eq_some_of_isSome (by decide +kernel), by decide +kernel, by decide +kernel,
      by decide +kernel⟩
    simp [SysAct.ofHandler]
  have := h 2 _ _ y y1 y2 es e1 e2 1 flushTrue h1 h2 h3 h5 h6 h7 h8 1 _ h9 (by rw [h4])
  rw [h4, h10] at this
  simp [readBody] at this

theorem copyWrites_flatten (page : Bytes) : (copyWrites page).flatten = page := by
  unfold copyWrites
  split <;> simp_all

/-- **C111**, what holds of it: every client that asks with another method reads the page, from HTTP/1.0 and HTTP/1.1
responses. -/
theorem C111_partial (c : Client) (hc : c.head = false) : Shown c := by
  intro n as bs y y1 y2 es e1 e2 t q hs hr hi h1 hb h2 hf u w hw hl
  obtain ⟨rfl, _⟩ := C63_alone_partial n as bs y y1 y2 es e1 e2 t q hs hr hi h1 hb h2 hf u w hw hl
  left
  have := C111_body c hc (copyWrites y.buf.contents) [] (fun _ => rfl)
  rwa [List.append_nil, copyWrites_flatten, ← hc] at this

/-- **C111** Exactly when it holds of a request that is handled while nobody else uses the buffer: the method is not HEAD, or
the page is not flushed, or it is empty. -/
theorem C111_exact (c : Client) (n : Nat) (as bs : List SysAct) (y y1 y2 : Sys) (es e1 e2 : List SysEvent) (t : Nat) (q : Bytes)
    (hs : (Sys.init n).run as = some (y, es)) (hr : OnlyRequestsReset as) (hi : ∀ p ∈ y.buf.pcs, p = .idle)
    (h1 : y.step (.request t q) = some (y1, e1)) (hb : ∀ a ∈ bs, a.ofHandler t) (h2 : y1.run bs = some (y2, e2))
    (hf : y2.hs[t]? = some .free) (u : Nat) (w : Bytes) (hw : .response u w ∈ e2) (hl : w.length = y.buf.contents.length) :
    let r := respond c (copyWrites w)
    readBody c.head r.chunking r.length r.out = some (y.buf.contents, []) ∨ y2.buf.contents = y.buf.contents ↔
      c.head = false ∨ ¬ FirstValue q (go! "flush") (go! "true") ∨ y.buf.contents = [] := by
  dsimp only
  rw [← flushes_iff, Bool.not_eq_true]
  obtain ⟨rfl, e⟩ := C63_alone_partial n as bs y y1 y2 es e1 e2 t q hs hr hi h1 hb h2 hf u w hw hl
  cases hc : c.head with
  | false =>
    refine iff_of_true ?_ (.inl rfl)
    rw [← hc]
    exact C111_partial c hc n as bs y y1 y2 es e1 e2 t q hs hr hi h1 hb h2 hf u _ hw rfl
  | true =>
    rw [C111_head c hc, e]
    cases flushes q with
    | false => simp
    | true =>
      rw [if_pos rfl]
      simp only [readBody, if_true, Option.some.injEq, Prod.mk.injEq, and_true, Bool.true_eq_false, false_or]
      rw [or_self, eq_comm]

/-- The hypotheses of `C111_exact` can be met by a request that does not flush; of its response to a HEAD request nothing is
read. -/
example :
    let as : List SysAct := [.call 0 (.write [0x61, 0x62])] ++ List.replicate 7 (.run 0 0)
    let bs : List SysAct := List.replicate 8 (.run 1 0) ++ [.serve 1 2, .check 1]
    let r := respond ⟨true, true⟩ (copyWrites [0x61, 0x62])
    (∃ y y1 y2 es e1 e2, (Sys.init 2).run as = some (y, es) ∧ OnlyRequestsReset as ∧
      (∀ p ∈ y.buf.pcs, p = .idle) ∧ y.buf.contents = [0x61, 0x62] ∧
      y.step (.request 1 (go! "flush=no")) = some (y1, e1) ∧
      (∀ a ∈ bs, a.ofHandler 1) ∧ y1.run bs = some (y2, e2) ∧ y2.hs[1]? = some .free ∧
      .response 1 [0x61, 0x62] ∈ e2 ∧ y2.buf.contents = [0x61, 0x62]) ∧
    readBody true r.chunking r.length r.out = some ([], []) := by
  refine ⟨⟨_, _, _, _, _, _, Option.eq_some_of_isSome (by decide +kernel), by intro t; simp,
    by decide +kernel, by decide +kernel, Option.eq_some_of_isSome (by decide +kernel),
    ?_, Option.eq_some_of_isSome (by decide +kernel), by decide +kernel, by decide +kernel,
    by decide +kernel⟩, by decide⟩
  simp [SysAct.ofHandler]

/-- A page of 2 bytes and one of 2049, for the three kinds of clients; what the second client reads if another response
follows; and a page that comes in pieces. -/
example :
    respond ⟨false, true⟩ (copyWrites (go! "hi")) =
      { wroteHeader := true, length := some 2, out := go! "hi" } ∧
    (respond ⟨false, true⟩ (copyWrites (List.replicate 2049 0x61))).out =
      go! "801\r\n" ++ List.replicate 2049 0x61 ++ go! "\r\n0\r\n\r\n" ∧
    respond ⟨false, false⟩ (copyWrites (List.replicate 2049 0x61)) =
      { wroteHeader := true, close := true, out := List.replicate 2049 0x61 } ∧
    respond ⟨true, true⟩ (copyWrites (go! "hi")) = { wroteHeader := true, length := some 2 } ∧
    respond ⟨true, true⟩ (copyWrites (List.replicate 2049 0x61)) = { wroteHeader := true } ∧
    readBody false true none (go! "a\r\n0123456789\r\n1\r\nx\r\n0\r\n\r\nHTTP/1.1 200 OK") =
      some (go! "0123456789x", go! "HTTP/1.1 200 OK") ∧
    (respond ⟨false, true⟩ [go! "x", [], List.replicate 2048 0x61]).out =
      go! "800\r\n" ++ go! "x" ++ List.replicate 2047 0x61 ++ go! "\r\n1\r\na\r\n0\r\n\r\n" := by decide +kernel

end SMC.Props
