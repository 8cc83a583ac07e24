import Verif.Spec.ReadPage
import Verif.Props.Page
import Verif.Props.Again
/-!
# C104: messages can be read back from a page
-/

namespace SMC.Spec

/-- What is written for an item. -/
def Entry.written : Entry → Bytes
  | .text t => t ++ [10]
  | .dump bs => hexDump bs

end SMC.Spec

namespace SMC.Props

open SMC Spec Http

/-- a line of a dump without its line feed -/
def rowOf16 (n : Nat) (bs : Bytes) : Bytes :=
  offset8 n ++ go! "  " ++ dumpCols 16 0 bs ++ bs.map toChar ++ go! "|"

theorem dumpLine_rowOf16 (n : Nat) (bs r : Bytes) : dumpLine n bs ++ r = rowOf16 n bs ++ 10 :: r := by
  simp [dumpLine, rowOf16]

theorem rowOf16_lf (n : Nat) (bs : Bytes) : (10 : UInt8) ∉ rowOf16 n bs := by
  simp only [rowOf16, List.mem_append, not_or]
  refine ⟨⟨⟨⟨?_, by decide⟩, cols_no_lf _ _ _⟩, ?_⟩, by decide⟩
  · intro hc
    simp only [offset8, List.mem_cons, List.not_mem_nil, or_false] at hc
    rcases hc with h | h | h | h | h | h | h | h <;>
      exact (digit_props _ (Nat.mod_lt _ (by omega))).2.2.1 h.symm
  · intro hc
    obtain ⟨b, _, hb⟩ := List.mem_map.1 hc
    revert hb
    have : ∀ b : UInt8, toChar b ≠ 10 := by byte_decide
    exact this b

theorem lines_row (n : Nat) (bs r : Bytes) : lines (dumpLine n bs ++ r) = rowOf16 n bs :: lines r := by
  rw [dumpLine_rowOf16, lines_sep (rowOf16_lf n bs)]

theorem rowOf16_take (n : Nat) (bs : Bytes) :
    (rowOf16 n bs).take 8 = offset8 n ∧ ((rowOf16 n bs).drop 8).take 2 = [32, 32] := by
  simp [rowOf16, offset8]

theorem digit_dump : ∀ n, n < 16 → isDumpDigit (digit n) = true := by decide

theorem digit_zero : ∀ n, n < 16 → digit n = 48 → n = 0 := by decide

theorem isRow_row (n : Nat) (bs : Bytes) : isRow (rowOf16 n bs) = true := by
  obtain ⟨h1, h2⟩ := rowOf16_take n bs
  simp only [isRow, h1, h2, Bool.and_eq_true, decide_eq_true_eq]
  refine ⟨⟨rfl, ?_⟩, trivial⟩
  simp only [offset8, List.all_cons, List.all_nil, Bool.and_true, Bool.and_eq_true]
  refine ⟨?_, ?_, ?_, ?_, ?_, ?_, ?_, ?_⟩ <;> exact digit_dump _ (Nat.mod_lt _ (by omega))

theorem firstRow_zero (bs : Bytes) : isFirstRow (rowOf16 0 bs) = true := by
  simp only [isFirstRow, (rowOf16_take 0 bs).1, decide_eq_true_eq]
  decide

theorem firstRow_pos (n : Nat) (bs : Bytes) (h : 0 < n) (hn : n < 2 ^ 32) : isFirstRow (rowOf16 n bs) = false := by
  simp only [isFirstRow, (rowOf16_take n bs).1, decide_eq_false_iff_not]
  intro e
  simp only [offset8, List.replicate_succ, List.replicate_zero, List.cons.injEq, and_true] at e
  obtain ⟨e7, e6, e5, e4, e3, e2, e1, e0⟩ := e
  have z7 := digit_zero _ (Nat.mod_lt _ (by omega)) e7
  have z6 := digit_zero _ (Nat.mod_lt _ (by omega)) e6
  have z5 := digit_zero _ (Nat.mod_lt _ (by omega)) e5
  have z4 := digit_zero _ (Nat.mod_lt _ (by omega)) e4
  have z3 := digit_zero _ (Nat.mod_lt _ (by omega)) e3
  have z2 := digit_zero _ (Nat.mod_lt _ (by omega)) e2
  have z1 := digit_zero _ (Nat.mod_lt _ (by omega)) e1
  have z0 := digit_zero _ (Nat.mod_lt _ (by omega)) e0
  omega

theorem undump_row (n : Nat) (bs : Bytes) (hb : bs.length ≤ 16) : undumpLine (rowOf16 n bs) = bs := by
  have := line_read n bs [] hb
  rw [undump, lines_row] at this
  simpa [undump, lines] using this

/-- Nothing at the beginning of the lines belongs to a dump before them. -/
def Fresh (ls : List Bytes) : Prop := ∀ l, ls.head? = some l → isRow l = true → isFirstRow l = true

theorem readEntries_dump {ls : List Bytes} {bs : Bytes} {r : List Entry} (h : readEntries ls = .dump bs :: r) :
    ∃ l, ls.head? = some l ∧ isRow l = true := by
  cases ls with
  | nil => cases h
  | cons l ls =>
    refine ⟨l, rfl, ?_⟩
    cases c : isRow l with
    | true => rfl
    | false => simp [readEntries, c] at h

theorem readEntries_dumpFrom (fuel n : Nat) (bs r : Bytes) (hf : bs.length ≤ fuel) (hb : bs ≠ [])
    (hn : n + bs.length ≤ 2 ^ 32) (hr : Fresh (lines r)) :
    readEntries (lines (dumpFrom fuel n bs ++ r)) = .dump bs :: readEntries (lines r) ∧
      ∃ x, (lines (dumpFrom fuel n bs ++ r)).head? = some (rowOf16 n x) := by
  induction fuel generalizing n bs with
  | zero => exact absurd (List.length_eq_zero_iff.1 (Nat.le_zero.1 hf)) hb
  | succ fuel ih =>
    have hd : dumpFrom (fuel + 1) n bs = dumpLine n (bs.take 16) ++ dumpFrom fuel (n + 16) (bs.drop 16) := by
      rw [dumpFrom]; exact hb
    have pos : 0 < bs.length := List.length_pos_iff.2 hb
    rw [hd, List.append_assoc, lines_row]
    refine ⟨?_, _, rfl⟩
    have hu : undumpLine (rowOf16 n (bs.take 16)) = bs.take 16 := undump_row _ _ (by simp; omega)
    rcases Nat.lt_or_ge 16 bs.length with c | c
    · have ne : bs.drop 16 ≠ [] := by
        intro e
        have := congrArg List.length e
        simp at this
        omega
      obtain ⟨h1, x, h2⟩ := ih (n + 16) (bs.drop 16) (by simp; omega) ne (by simp; omega)
      simp only [readEntries, isRow_row, if_true, h1, h2, Option.any_some]
      rw [firstRow_pos _ _ (by omega) (by omega)]
      simp [hu]
    · have e1 : bs.drop 16 = [] := List.drop_eq_nil_of_le c
      have e2 : bs.take 16 = bs := List.take_of_length_le c
      have e3 : dumpFrom fuel (n + 16) [] = [] := by cases fuel <;> rfl
      rw [e1, e3, List.nil_append, readEntries, isRow_row, if_pos rfl, hu, e2]
      split
      · rename_i b' r' h
        obtain ⟨l, hl, hrow⟩ := readEntries_dump h
        simp [hl, hr l hl hrow, h]
      · rfl

theorem fresh_written {i : Entry} (h : i.Plain) {r : Bytes} (hr : Fresh (lines r)) :
    readEntries (lines (i.written ++ r)) = i :: readEntries (lines r) ∧ Fresh (lines (i.written ++ r)) := by
  cases i with
  | text t =>
    simp only [Entry.Plain] at h
    simp only [Entry.written, List.append_assoc, List.singleton_append]
    rw [lines_sep h.1]
    refine ⟨by simp [readEntries, h.2], ?_⟩
    intro l hl hrow
    simp only [List.head?_cons, Option.some.injEq] at hl
    rw [← hl, h.2] at hrow
    cases hrow
  | dump bs =>
    simp only [Entry.Plain] at h
    obtain ⟨h1, x, h2⟩ := readEntries_dumpFrom bs.length 0 bs r (Nat.le_refl _) h.1 (by omega) hr
    refine ⟨h1, ?_⟩
    intro l hl _
    simp only [Entry.written, hexDump, h2, Option.some.injEq] at hl
    rw [← hl]
    exact firstRow_zero x

theorem readEntries_items (is : List Entry) (h : ∀ i ∈ is, i.Plain) :
    readEntries (lines (is.flatMap Entry.written)) = is ∧ Fresh (lines (is.flatMap Entry.written)) := by
  induction is with
  | nil => exact ⟨rfl, fun l hl => by cases hl⟩
  | cons i is ih =>
    obtain ⟨h1, h2⟩ := ih fun j m => h j (List.mem_cons_of_mem _ m)
    obtain ⟨h3, h4⟩ := fresh_written (h i List.mem_cons_self) h2
    rw [List.flatMap_cons]
    exact ⟨by rw [h3, h1], h4⟩

/-- **C104** Texts and dumps written to a page one after the other, in any order, are read back from
it. -/
theorem C104_read (is : List Entry) (h : ∀ i ∈ is, i.Plain) : readPage (is.flatMap Entry.written) = is :=
  (readEntries_items is h).1

/-- Two dumps one after the other, the first of two lines, and a text. -/
example : (∀ i ∈ [Entry.dump (go! "0123456789abcdef|x\n"), .dump [0xff], .text (go! "CDC: x")], i.Plain) ∧
    [Entry.dump (go! "0123456789abcdef|x\n"), .dump [0xff], .text (go! "CDC: x")].flatMap Entry.written =
      go! "00000000  30 31 32 33 34 35 36 37  38 39 61 62 63 64 65 66  |0123456789abcdef|\n" ++
      go! "00000010  7c 78 0a                                          ||x.|\n" ++
      go! "00000000  ff                                                |.|\n" ++
      go! "CDC: x\n" := by
  refine ⟨?_, by decide +kernel⟩
  intro i m
  simp only [List.mem_cons, List.not_mem_nil, or_false] at m
  rcases m with rfl | rfl | rfl <;> simp only [Entry.Plain] <;> decide

/-! ## Messages -/

/-- Texts of messages and headers do not look like lines of a dump. -/
theorem about_not_row {t : Bytes} {a : Topic} (h : About t a) : isRow t.dropLast = false := by
  obtain ⟨g, hg, r, rfl⟩ := h
  have key : ∀ a ∈ topics, ∀ g ∈ headings a, ∃ c d k, g = c :: d :: k ∧ isDumpDigit c = false := by
    intro a ha g hg
    have : ∀ a ∈ topics, ∀ g ∈ headings a, g.length ≥ 2 ∧ (g.head?.map isDumpDigit) = some false := by decide
    obtain ⟨h1, h2⟩ := this a ha g hg
    match g, h1, h2 with
    | c :: d :: k, _, h2 => exact ⟨c, d, k, rfl, by simpa using h2⟩
  obtain ⟨c, d, k, rfl, hc⟩ := key a (topics_all a) g hg
  have : (c :: d :: k ++ r).dropLast = c :: (d :: k ++ r).dropLast := rfl
  rw [this]
  simp [isRow, hc]

/-- A text and the bytes that are dumped behind it. -/
def entry (x : Bytes × Bytes) : Bytes := x.1 ++ hexDump x.2

/-- The text is one line about a message or header, and there are bytes to dump. -/
def EntryOK (x : Bytes × Bytes) : Prop :=
  OneLine x.1 ∧ (∃ a, About x.1 a) ∧ x.2 ≠ [] ∧ x.2.length ≤ 2 ^ 32

/-- **C104** Texts of messages and headers of any kind, each followed by a dump of its bytes, are read
back. -/
theorem C104_entries (xs : List (Bytes × Bytes)) (h : ∀ x ∈ xs, EntryOK x) :
    readPage (xs.flatMap entry) = xs.flatMap fun x => [.text x.1.dropLast, .dump x.2] := by
  have := C104_read (xs.flatMap fun x => [.text x.1.dropLast, .dump x.2]) ?_
  · rw [← this, List.flatMap_assoc]
    congr 1
    refine congrArg List.flatten (List.map_congr_left fun x m => ?_)
    obtain ⟨⟨p, e, -⟩, -⟩ := h x m
    simp [entry, Entry.written, e]
  · intro i m
    obtain ⟨x, hx, hi⟩ := List.mem_flatMap.1 m
    obtain ⟨⟨p, e, hp⟩, ⟨a, ha⟩, h3⟩ := h x hx
    simp only [List.mem_cons, List.not_mem_nil, or_false] at hi
    rcases hi with rfl | rfl
    · refine ⟨?_, about_not_row ha⟩
      rw [e, List.dropLast_concat]
      exact lf_of_printable hp
    · exact h3

/-- the dumped bytes on a page -/
def dumpsOf (is : List Entry) : List Bytes := is.filterMap fun
  | .dump bs => some bs
  | .text _ => none

theorem dumpsOf_entries (xs : List (Bytes × Bytes)) :
    dumpsOf (xs.flatMap fun x => [.text x.1.dropLast, .dump x.2]) = xs.map (·.2) := by
  induction xs with
  | nil => rfl
  | cons x xs ih => simpa [dumpsOf] using ih

/-- **C104** From a page with texts and dumps of LLC and CDC messages all of them can be got back: the
dumps on the page, parsed again, are the messages, in their order. -/
theorem C104_llc (ms : List (Slice × LLC.Msg))
    (h : ∀ x ∈ ms, LLC.parseLLC x.1 = .ret [] x.2 ∧ x.1.vis ≠ [] ∧ x.1.len ≤ 2 ^ 32) (e : Bytes) :
    (dumpsOf (readPage (ms.flatMap fun x => x.2.string ++ x.2.hex))).map (fun bs => LLC.parseLLC ⟨bs, e⟩) =
      ms.map fun x => .ret [] x.2 := by
  have he : (ms.flatMap fun x => x.2.string ++ x.2.hex) = (ms.map fun x => (x.2.string, x.1.vis)).flatMap entry := by
    rw [List.flatMap_map]
    refine congrArg List.flatten (List.map_congr_left fun x m => ?_)
    have hw := wireMsg_raw (C02_parseLLC_dispatch_partial _ _ _ (h x m).1).2
    have : x.2.hex = hexDump x.2.base.Raw := by cases x.2 <;> rfl
    simp only [entry, this, hw]
  rw [he, C104_entries, dumpsOf_entries, List.map_map, List.map_map]
  · refine List.map_congr_left fun x m => ?_
    have hu := (C98_llc _ _ _ (h x m).1 e)
    simp only [Function.comp]
    rw [← hu.1]
    exact hu.2
  · intro y m
    obtain ⟨x, hx, rfl⟩ := List.mem_map.1 m
    exact ⟨(C87_llc x.2).1, ⟨_, (C99_llc x.2).1⟩, (h x hx).2⟩

/-- a Test Link message and another payload -/
example : ∃ m m', LLC.parseLLC ⟨7 :: 44 :: zeros 42, []⟩ = .ret [] m ∧ LLC.parseLLC ⟨[1, 2], [3]⟩ = .ret [] m' ∧
    m.string ++ m.hex ≠ m'.string ++ m'.hex :=
  ⟨_, _, rfl, rfl, by decide +kernel⟩

/-- the texts of the parts of a packet and the bytes of the parts -/
def packetEntries (names : UInt8 → Bytes) (r : RoCE.RoCE) : List (Bytes × Bytes) :=
  (match r.GRH with
   | none => []
   | some g => [(g.string names, g.Contents)]) ++
  [(r.BTH.string.val?.getD [], r.BTH.Raw), (r.LLC.string, r.LLC.base.Raw)]

theorem entries_decoded {bs : Bytes} {l : List Bytes} {r : RoCE.RoCE} (h : Decoded bs l r)
    (hr : r.LLC.base.Raw ≠ []) (hl : bs.length ≤ 2 ^ 32) :
    EntryOK (r.BTH.string.val?.getD [], r.BTH.Raw) ∧ EntryOK (r.LLC.string, r.LLC.base.Raw) ∧
      r.BTH.Raw ++ r.LLC.base.Raw ++ r.ICRC.vis = bs := by
  obtain ⟨b, p, c, rfl, hb, hc, hw, hp, hi⟩ := h.cut
  have hraw : r.LLC.base.Raw = p := wireMsg_raw (C02_parseLLC_dispatch_partial _ _ _ (hp [])).2
  have hbraw : r.BTH.Raw = b := hw.raw
  simp only [List.length_append] at hl
  obtain ⟨⟨t, ht, ho⟩, -⟩ := C87_bth r.BTH
  refine ⟨?_, ⟨(C87_llc r.LLC).1, ⟨_, (C99_llc r.LLC).1⟩, hr, by simp only [hraw]; omega⟩, by rw [hraw, hbraw, hi]⟩
  rw [ht]
  refine ⟨ho, ⟨_, (C99_roce r.BTH (fun _ => []) {} [] t).1 (.inl ht)⟩, ?_, by simp only [hbraw]; omega⟩
  simp only [hbraw]
  intro e
  rw [e] at hb
  cases hb

theorem entries_packet {names : UInt8 → Bytes} (hn : ∀ b, Printable (names b)) {s : Slice} {l : List Bytes} {r : RoCE.RoCE}
    (h : RoCE.parseRoCEv1 s = .ret l r ∨ RoCE.parseRoCEv2 s = .ret l r) (hr : r.LLC.base.Raw ≠ [])
    (hl : s.len ≤ 2 ^ 32) : (∀ x ∈ packetEntries names r, EntryOK x) ∧
      ((packetEntries names r).map (·.2)).flatten ++ r.ICRC.vis = s.vis := by
  rcases h with h | h
  · obtain ⟨-, g, bs, gr, hv, hg40, hg, hw, hd, -⟩ := C22_v1_cut s l r h
    have hlen : g.length + bs.length ≤ 2 ^ 32 := by
      have := hl
      simp only [Slice.len, hv, List.length_append] at this
      exact this
    obtain ⟨h1, h2, h3⟩ := entries_decoded hd hr (by omega)
    have hgc : gr.Contents = g := by rw [hw.contents]; simp [raw, ← hg40]
    unfold packetEntries
    rw [hg]
    refine ⟨?_, ?_⟩
    · intro x m
      simp only [List.cons_append, List.nil_append, List.mem_cons, List.not_mem_nil, or_false] at m
      rcases m with rfl | rfl | rfl
      · refine ⟨(C87_grh names hn gr).1, ⟨_, (C99_roce {} names gr [] _).2 (.inl rfl)⟩, ?_, ?_⟩
        · simp only [hgc]
          intro e
          rw [e] at hg40
          cases hg40
        · simp only [hgc]; omega
      · exact h1
      · exact h2
    · rw [hv, ← h3, ← hgc]
      simp
  · obtain ⟨-, hd, -, hg⟩ := C22_v2_cut s l r h
    obtain ⟨h1, h2, h3⟩ := entries_decoded hd hr hl
    unfold packetEntries
    rw [hg]
    refine ⟨?_, ?_⟩
    · intro x m
      simp only [List.nil_append, List.mem_cons, List.not_mem_nil, or_false] at m
      rcases m with rfl | rfl
      · exact h1
      · exact h2
    · rw [← h3]; simp

/-- **C104** From a page with texts and dumps of the parts of RoCE packets the parts are read back, and
together with the ICRCs they are the packets. -/
theorem C104_roce (names : UInt8 → Bytes) (hn : ∀ b, Printable (names b)) (xs : List (Slice × RoCE.RoCE))
    (h : ∀ x ∈ xs, (∃ l, RoCE.parseRoCEv1 x.1 = .ret l x.2 ∨ RoCE.parseRoCEv2 x.1 = .ret l x.2) ∧
      x.2.LLC.base.Raw ≠ [] ∧ x.1.len ≤ 2 ^ 32) :
    dumpsOf (readPage (xs.flatMap fun x => (packetEntries names x.2).flatMap entry)) =
      (xs.flatMap fun x => (packetEntries names x.2).map (·.2)) ∧
    ∀ x ∈ xs, ((packetEntries names x.2).map (·.2)).flatten ++ x.2.ICRC.vis = x.1.vis := by
  refine ⟨?_, fun x m => ?_⟩
  · rw [← List.flatMap_assoc, C104_entries, dumpsOf_entries, List.map_flatMap]
    intro y m
    obtain ⟨x, hx, hy⟩ := List.mem_flatMap.1 m
    obtain ⟨⟨l, h1⟩, h2, h3⟩ := h x hx
    exact (entries_packet hn h1 h2 h3).1 y hy
  · obtain ⟨⟨l, h1⟩, h2, h3⟩ := h x m
    exact (entries_packet hn h1 h2 h3).2

/-- a Test Link message in a RoCEv1 packet -/
example : ∃ l r, RoCE.parseRoCEv1 ⟨0x60 :: zeros 39 ++ (0x2a :: zeros 11 ++ (7 :: 44 :: zeros 42) ++ [1, 2, 3, 4]), []⟩ = .ret l r ∧
    r.LLC.base.Raw ≠ [] :=
  ⟨_, _, rfl, by decide⟩

/-- **C104** (partial: only messages with printable names) The same for CLC messages: each text ended by a line feed and
followed by a dump. What is read back is every buffer, which, given to `NewMessage` and `Parse`, is
the message again (`C98_clc`). -/
theorem C104_clc_partial (xs : List (Bytes × CLC.Message))
    (h : ∀ x ∈ xs, (∃ m l, CLC.Message.parse m ⟨x.1, []⟩ = .ret l x.2) ∧ x.1.length ≤ 2 ^ 32 ∧
      ∀ n ∈ shownNames x.2, Printable (name n)) :
    dumpsOf (readPage (xs.flatMap fun x => x.2.string ++ [0x0a] ++ x.2.dump)) = xs.map (·.1) := by
  have he : (xs.flatMap fun x => x.2.string ++ [0x0a] ++ x.2.dump) =
      (xs.map fun x => (x.2.string ++ [0x0a], x.1)).flatMap entry := by
    rw [List.flatMap_map]
    refine congrArg List.flatten (List.map_congr_left fun x m => ?_)
    obtain ⟨⟨m, l, hp⟩, -⟩ := h x m
    have hu := undump_clc hp
    have hd : x.2.dump = hexDump x.2.raw.vis := rfl
    rw [hd, C16_undump_hexDump] at hu
    simp only [entry, hd, hu]
  rw [he, C104_entries, dumpsOf_entries, List.map_map]
  · rfl
  · intro y m
    obtain ⟨x, hx, rfl⟩ := List.mem_map.1 m
    obtain ⟨⟨m, l, hp⟩, hl, hn⟩ := h x hx
    refine ⟨⟨_, rfl, (C87_clc x.2).1.2 hn⟩, ⟨.clc, about_app (C99_clc x.2).1 _⟩, ?_, hl⟩
    intro e0
    obtain ⟨l', hl⟩ := (parse_needs m ⟨x.1, []⟩).panics (by simp only [Slice.len_mk]; rw [show x.1 = [] from e0]; decide)
    rw [hl] at hp
    cases hp

/-- a Decline -/
example : ∃ m m' l, CLC.Message.parse m ⟨hex! "e2 d4 c3 d9 04 00 1c 10 00 00 00 00 00 00 00 00 03 03 00 00 00 00 00 00 e2 d4 c3 d9", []⟩ = .ret l m' ∧
    ∀ n ∈ shownNames m', Printable (name n) := ⟨.decline {}, _, _, rfl, nofun⟩

/-- an SMC-D v2 Accept message that is in order, with an EID that looks like a line of a dump -/
def dumpedAccept : Bytes :=
  hex! "e2d4c3c4 02 004e 21" ++ hex! "1112131415161718 2122232425262728 01 10 0000 00000001 0002" ++
  go! "\n00000000  07 2c|" ++ zeros 15 ++ zeros 8 ++ hex! "e2d4c3c4"

/-- what it is parsed to -/
def dumpedMessage : CLC.Message :=
  .acceptSMCDv2 {
    raw := ⟨dumpedAccept, []⟩, hdr := { Eyecatcher := hex! "e2d4c3c4", Typ := 2, Length := 78, Version := 2, Path := 1 }
    GID := 0x1112131415161718, Token := 0x2122232425262728, DMBEIdx := 1, DMBESize := 1, LinkID := 1, ISMv2VCHID := 2
    EID := go! "\n00000000  07 2c|" ++ zeros 15, trailer := hex! "e2d4c3c4" }

/-- **C104** is false of the code for other CLC messages: behind the text and the dump of this one a
reader finds two dumps, and the first one is what the peer wants to be found. -/
theorem C104_false : ∃ m m', CLC.newMessage ⟨dumpedAccept, []⟩ = .ret [] (some m, 78) ∧
    m.parse ⟨dumpedAccept, []⟩ = .ret [] m' ∧
    dumpsOf (readPage (m'.string ++ [0x0a] ++ m'.dump)) = [[0x07, 0x2c], dumpedAccept] := by
  have hm : (CLC.Message.acceptSMCDv2 {}).parse ⟨dumpedAccept, []⟩ = .ret [] dumpedMessage := by decide +kernel
  exact ⟨_, _, by decide +kernel, hm, by decide +kernel⟩

/-! ## The server -/

/-- **C104** In every interleaving of any number of goroutines that write texts of one line and dumps
and of requests, a reader of a response that was sent completely finds in it exactly the items
written since the last reset before the copy that was sent, in their order. -/
theorem C104_page (n : Nat) (as : List SysAct) (y : Sys) (es : List SysEvent)
    (hs : (Sys.init n).run as = some (y, es)) (hr : OnlyRequestsReset as)
    (hw : ∀ t p, .buf (.call t (.write p)) ∈ es → ∃ i : Entry, i.Plain ∧ p = i.written) :
    ∃ H, observed H = es ∧ SysLinearizable H ∧ ∀ a b t w, H = a ++ .response t w :: b →
      ∃ c d, a = c ++ .pt (.effect t .copy (.copied (contentsAfter c))) :: d ∧ (∀ p ∈ d, p.apart t) ∧
        (w = contentsAfter c → textsSince (opsIn c) = (readPage w).map Entry.written) := by
  obtain ⟨H, i, rfl⟩ := (SysInv.init n).runs hr hs
  rw [List.nil_append] at i
  have ph : ∀ t, (phase t (points H)).isSome := fun t => by rw [i.inv.phases t]; rfl
  refine ⟨H, rfl, ⟨ph, i.inv.legal⟩, ?_⟩
  intro a b t w e
  obtain ⟨-, x, ⟨c, d, rfl, hd⟩, hx⟩ := i.resp a b t w e
  have hl := i.inv.legal
  rw [e] at hl
  obtain rfl := copied_contents hl
  refine ⟨c, d, rfl, hd, ?_⟩
  rintro rfl
  have all : ∀ p ∈ textsSince (opsIn c), ∃ i : Entry, i.Plain ∧ p = i.written := by
    intro p hp
    have m := (since_texts (opsIn c)).2 p hp
    obtain ⟨⟨o, v⟩, m1, rfl⟩ := List.mem_map.1 m
    obtain ⟨u, m2⟩ := mem_effects.1 m1
    have m3 : .pt (.effect u (.write p) v) ∈ H := by
      rw [e, List.append_assoc]; exact List.mem_append_left _ (mem_points.1 m2)
    have m4 := effect_called (ph u) (mem_points.2 m3)
    exact hw u p (mem_observed_buf.2 (mem_points.1 m4))
  have pick : ∀ ts : List Bytes, (∀ p ∈ ts, ∃ i : Entry, i.Plain ∧ p = i.written) →
      ∃ is : List Entry, (∀ i ∈ is, i.Plain) ∧ ts = is.map Entry.written := by
    intro ts h
    induction ts with
    | nil => exact ⟨[], nofun, rfl⟩
    | cons t ts ih =>
      obtain ⟨is, h1, rfl⟩ := ih fun p m => h p (List.mem_cons_of_mem _ m)
      obtain ⟨i, h2, rfl⟩ := h t List.mem_cons_self
      refine ⟨i :: is, ?_, rfl⟩
      intro j m
      rcases List.mem_cons.1 m with rfl | m
      · exact h2
      · exact h1 j m
  obtain ⟨is, h1, h2⟩ := pick _ all
  rw [contentsAfter, (since_texts _).1, h2, ← List.flatMap_def, C104_read is h1]

/-- One goroutine writes a text and a dump, another one answers a request. -/
def dumping : List SysAct :=
  [.call 0 (.write (go! "x\n"))] ++ List.replicate 7 (.run 0 0) ++ [.call 0 (.write (hexDump [0xff]))] ++
  List.replicate 69 (.run 0 0) ++ [.request 1 []] ++ List.replicate 72 (.run 1 0) ++ [.serve 1 66]

example : ((Sys.init 2).run dumping).map (·.2.getLast?) =
      some (some (.response 1 (go! "x\n00000000  ff                                                |.|\n"))) ∧
    OnlyRequestsReset dumping ∧ (Entry.text (go! "x")).Plain ∧ (Entry.dump [0xff]).Plain ∧
    readPage (go! "x\n00000000  ff                                                |.|\n") = [.text (go! "x"), .dump [0xff]] := by
  refine ⟨by decide +kernel, by intro t; simp [dumping], ⟨by decide, by decide⟩, ⟨by decide, by decide⟩, by decide +kernel⟩

end SMC.Props
