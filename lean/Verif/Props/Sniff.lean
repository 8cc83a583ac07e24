import Verif.Lemmas.Sniff
import Verif.Props.ReadPage
/-!
# C109: the type of the page
-/

namespace SMC.Props
open SMC Spec Http

/-! ## "LP" in texts -/

theorem lp_lit {x : Bytes} {n m : Nat} {s : Bytes} (hx : lpOK x = true) (hm : n - x.length = m) (h : LPAfter m s) : LPAfter n (x ++ s) :=
  lp_app hx (by rw [hm]; exact h)

theorem lp_field {x : Bytes} {n : Nat} {s : Bytes} (hx : lpOK x = true) (h : LPAfter n s) : LPAfter n (x ++ s) :=
  lp_app hx (lpAfter_mono (Nat.sub_le _ _) h)

theorem lpOK_dec (n : Nat) : lpOK (dec n) = true := by
  apply lpOK_of
  rintro c m rfl
  exact absurd (dec_all n _ m) (by decide)

theorem lpOK_bool (b : Bool) : lpOK (boolStr b) = true := by cases b <;> decide

/-- goes through a text from field to field until enough of it is seen -/
macro "lps" : tactic => `(tactic| repeat' first
  | exact lpAfter_zero _
  | exact lp_field (lpOK_dec _) (lpAfter_zero _)
  | refine lp_field (lpOK_dec _) ?_
  | refine lp_field (lpOK_bool _) ?_
  | refine lp_lit (by decide) rfl ?_)

set_option maxRecDepth 8000 in
theorem lp_llc (m : LLC.Msg) : LPAfter 35 m.string ∧ LPAfter 35 m.reserved := by
  cases m
  case other m =>
    have h : LPAfter 35 (go! "Other Payload\n" ++ []) := lp_app (by decide) (lpAfter_nil _)
    exact ⟨h, h⟩
  all_goals
    simp only [LLC.Msg.string, LLC.Msg.reserved]
    constructor
    all_goals
      first
        | unfold LLC.ConfirmLink.string
        | unfold LLC.ConfirmLink.reserved
        | unfold LLC.AddLink.string
        | unfold LLC.AddLink.reserved
        | unfold LLC.AddLinkCont.string
        | unfold LLC.AddLinkCont.reserved
        | unfold LLC.DeleteLink.string
        | unfold LLC.DeleteLink.reserved
        | unfold LLC.ConfirmRKey.string
        | unfold LLC.ConfirmRKey.reserved
        | unfold LLC.ConfirmRKeyCont.string
        | unfold LLC.ConfirmRKeyCont.reserved
        | unfold LLC.DeleteRKey.string
        | unfold LLC.DeleteRKey.reserved
        | unfold LLC.TestLink.string
        | unfold LLC.TestLink.reserved
        | unfold LLC.CDC.string
        | unfold LLC.CDC.reserved
      unfmt []
      lps

theorem lp_bth (b : RoCE.BTH) (l : List Bytes) (t : Bytes) (h : b.string = .ret l t ∨ b.reserved = .ret l t) : LPAfter 35 t := by
  have ho : ∀ o, ∃ x, RoCE.opcodeStr o = .ret [] x ∧ lpOK x = true := by
    intro o
    refine ⟨_, C25_opcode_text o, ?_⟩
    revert o; byte_decide
  obtain ⟨x, hx, hl⟩ := ho b.Opcode
  rcases h with h | h
  · unfold RoCE.BTH.string at h
    rw [hx, Go.ret_bind] at h
    obtain ⟨-, rfl⟩ := Go.ret.inj h
    unfmt []
    refine lp_lit (by decide) rfl (lp_field hl ?_)
    lps
  · unfold RoCE.BTH.reserved at h
    rw [hx, Go.ret_bind] at h
    obtain ⟨-, rfl⟩ := Go.ret.inj h
    unfmt []
    refine lp_lit (by decide) rfl (lp_field hl ?_)
    lps

theorem lp_grh (names : UInt8 → Bytes) (g : RoCE.GRH) : LPAfter 35 (g.string names) ∧ LPAfter 35 (g.reserved names) := by
  have h : LPAfter 35 (g.string names) := by
    unfold RoCE.GRH.string
    unfmt []
    lps
  exact ⟨h, h⟩

theorem lpOK_type (t : UInt8) : lpOK (CLC.msgTypeStr t) = true := by
  unfold CLC.msgTypeStr
  (repeat' split) <;> decide

theorem lpOK_eye (e : Bytes) : lpOK (CLC.eyecatcherStr e) = true := by
  unfold CLC.eyecatcherStr
  (repeat' split) <;> decide

theorem lp_header (h : CLC.Header) (r : Bytes) : LPAfter 35 (h.string ++ r) ∧ LPAfter 35 (h.reserved ++ r) := by
  constructor
  · unfold CLC.Header.string
    unfmt []
    refine lp_field (lpOK_type _) (lp_lit (by decide) rfl (lp_field (lpOK_eye _) (lp_lit (by decide) rfl
      (lp_field (lpOK_dec _) (lp_lit (by decide) rfl (lp_field (lpOK_type _) ?_))))))
    lps
  · unfold CLC.Header.reserved
    split <;> unfmt []
    all_goals
      refine lp_field (lpOK_type _) (lp_lit (by decide) rfl (lp_field (lpOK_eye _) (lp_lit (by decide) rfl
        (lp_field (lpOK_dec _) (lp_lit (by decide) rfl (lp_field (lpOK_type _) ?_))))))
      lps

theorem lp_clc (m : CLC.Message) (r : Bytes) : LPAfter 35 (m.string ++ r) ∧ LPAfter 35 (m.reserved ++ r) := by
  obtain ⟨⟨x, h⟩, ⟨y, h'⟩⟩ := clc_texts m
  rw [h, h', List.append_assoc, List.append_assoc m.hdr.reserved]
  exact ⟨(lp_header _ _).1, (lp_header _ _).2⟩

theorem cols_noL (k u : Nat) (bs : Bytes) : (∀ c ∈ dumpCols k u bs, c ≠ 76) ∧ 3 * k ≤ (dumpCols k u bs).length := by
  have cell : ∀ u x, (∀ c ∈ x, c ≠ 76) → x.length = 2 → (∀ c ∈ dumpCell u x, c ≠ 76) ∧ 3 ≤ (dumpCell u x).length := by
    intro u x hx hl
    unfold dumpCell
    refine ⟨fun c m => ?_, ?_⟩
    · rcases List.mem_append.1 m with m | m
      · exact hx c m
      · rintro rfl
        split at m
        · exact absurd m (by decide)
        · split at m
          · exact absurd m (by decide)
          · exact absurd m (by decide)
    · split
      · simp [hl]
      · split <;> simp [hl]
  induction k generalizing u bs with
  | zero => exact ⟨nofun, by simp⟩
  | succ k ih =>
    have join : ∀ x bs, (∀ c ∈ x, c ≠ 76) → x.length = 2 → (∀ c ∈ dumpCell u x ++ dumpCols k (u + 1) bs, c ≠ 76) ∧
        3 * (k + 1) ≤ (dumpCell u x ++ dumpCols k (u + 1) bs).length := by
      intro x bs hx hl
      obtain ⟨c1, c2⟩ := cell u x hx hl
      obtain ⟨d1, d2⟩ := ih (u + 1) bs
      refine ⟨fun c m => (List.mem_append.1 m).elim (c1 c) (d1 c), ?_⟩
      rw [List.length_append]
      omega
    cases bs with
    | nil => exact join _ _ (by decide) rfl
    | cons b bs =>
      refine join _ _ ?_ rfl
      rintro c m rfl
      exact absurd (hex2_all b _ m) (by decide)

/-- how a dump begins, and that it ends with a line feed -/
theorem dump_shape {bs : Bytes} (h : bs ≠ []) : (∃ r, hexDump bs = go! "00000000  " ++ r) ∧ LPAfter 35 (hexDump bs) := by
  cases bs with
  | nil => exact absurd rfl h
  | cons b bs =>
    have e : hexDump (b :: bs) = go! "00000000  " ++ (dumpCols 16 0 ((b :: bs).take 16) ++ (((b :: bs).take 16).map toChar ++
        (go! "|\n" ++ dumpFrom bs.length 16 ((b :: bs).drop 16)))) := by
      simp only [hexDump, List.length_cons, dumpFrom, dumpLine, List.append_assoc]
      rfl
    rw [e]
    refine ⟨⟨_, rfl⟩, lp_lit (by decide) rfl (lp_app (lpOK_of (cols_noL _ _ _).1) ?_)⟩
    have := (cols_noL 16 0 ((b :: bs).take 16)).2
    rw [show 35 - List.length (go! "00000000  ") - (dumpCols 16 0 ((b :: bs).take 16)).length = 0 by
      rw [show List.length (go! "00000000  ") = 10 from rfl]; omega]
    exact lpAfter_zero _

theorem last_app {s : Bytes} (x : Bytes) (h : s.getLast? = some 10) : (x ++ s).getLast? = some 10 := by
  rw [List.getLast?_append, h]
  rfl

theorem dump_last (fuel n : Nat) (bs : Bytes) : (dumpFrom fuel n bs).getLast? ≠ some 76 := by
  induction fuel generalizing n bs with
  | zero => simp [dumpFrom]
  | succ fuel ih =>
    cases bs with
    | nil => simp [dumpFrom]
    | cons b bs =>
      rw [dumpFrom, List.getLast?_append]
      · cases h : (dumpFrom fuel (n + 16) ((b :: bs).drop 16)).getLast? with
        | some c =>
          have := ih (n + 16) ((b :: bs).drop 16)
          rw [h] at this
          exact this
        | none =>
          rw [dumpLine, last_app _ (by decide)]
          decide
      · exact List.cons_ne_nil _ _

/-- What a program that shows messages writes to the page: texts of messages and headers, a line feed after those of CLC
messages, and dumps. -/
inductive Item (names : UInt8 → Bytes) : Bytes → Prop
  | llc (m : LLC.Msg) : Item names m.string
  | llcReserved (m : LLC.Msg) : Item names m.reserved
  | bth (b : RoCE.BTH) (l : List Bytes) (t : Bytes) : b.string = .ret l t ∨ b.reserved = .ret l t → Item names t
  | grh (g : RoCE.GRH) : Item names (g.string names)
  | clc (m : CLC.Message) : Item names (m.string ++ [0x0a])
  | clcReserved (m : CLC.Message) : Item names (m.reserved ++ [0x0a])
  | dump (bs : Bytes) : bs ≠ [] → Item names (hexDump bs)

theorem start_headings : ∀ a ∈ topics, ∀ h ∈ headings a, startOK h = true := by decide +kernel

theorem item_facts {names : UInt8 → Bytes} {t : Bytes} (h : Item names t) :
    (∃ h r, startOK h = true ∧ t = h ++ r) ∧ LPAfter 35 t ∧ t.getLast? ≠ some 76 := by
  have about : ∀ {t a}, About t a → ∃ h r, startOK h = true ∧ t = h ++ r := by
    rintro t a ⟨h, hm, r, e⟩
    exact ⟨h, r, start_headings a (topics_all a) h hm, e.symm⟩
  have line : ∀ {t}, OneLine t → t.getLast? ≠ some 76 := by
    rintro t ⟨p, rfl, -⟩
    simp
  have lf : ∀ x : Bytes, (x ++ [0x0a]).getLast? ≠ some 76 := fun x => by simp
  cases h with
  | llc m => exact ⟨about (C99_llc m).1, (lp_llc m).1, line (C87_llc m).1⟩
  | llcReserved m => exact ⟨about (C99_llc m).2, (lp_llc m).2, line (C87_llc m).2⟩
  | bth b l t h =>
    refine ⟨about ((C99_roce b names {} l t).1 h), lp_bth b l t h, ?_⟩
    obtain ⟨⟨x, hx, ox⟩, y, hy, oy⟩ := C87_bth b
    rcases h with h | h
    · rw [hx] at h; cases h; exact line ox
    · rw [hy] at h; cases h; exact line oy
  | grh g =>
    refine ⟨about ((C99_roce {} names g [] _).2 (.inl rfl)), (lp_grh names g).1, ?_⟩
    unfold RoCE.GRH.string
    unfmt []
    have e : ∀ {x : Bytes}, x.getLast? = some 10 → x.getLast? ≠ some 76 := by
      intro x h
      rw [h]
      decide
    refine e ?_
    repeat' first | decide | refine last_app _ ?_
  | clc m => exact ⟨about (about_app (C99_clc m).1 _), (lp_clc m _).1, lf _⟩
  | clcReserved m => exact ⟨about (about_app (C99_clc m).2 _), (lp_clc m _).2, lf _⟩
  | dump bs hb =>
    obtain ⟨⟨r, e⟩, hl⟩ := dump_shape hb
    exact ⟨⟨_, r, by decide +kernel, e⟩, hl, dump_last _ _ _⟩

theorem lp_items {names : UInt8 → Bytes} {ts : List Bytes} (h : ∀ t ∈ ts, Item names t) : LPAfter 35 ts.flatten := by
  induction ts with
  | nil => exact lpAfter_nil _
  | cons t ts ih =>
    obtain ⟨-, h1, h2⟩ := item_facts (h t List.mem_cons_self)
    exact lp_pages h1 h2 (ih fun t m => h t (List.mem_cons_of_mem _ m))

/-- control characters except tab, line feed, form feed, carriage return and escape -/
def rareControl (b : UInt8) : Bool := b < 0x20 && !([0x09, 0x0a, 0x0c, 0x0d, 0x1b] : Bytes).contains b

theorem binaryByte_eq : binaryByte = rareControl := by
  funext b
  revert b
  byte_decide

/-- Types that are found. -/
example :
    detectType (go! "CDC: Type: 254") = go! "text/plain; charset=utf-8" ∧
    detectType (go! " <sCript >") = go! "text/html; charset=utf-8" ∧
    detectType (go! "0123456789012345678901234567890123LP") = go! "application/vnd.ms-fontobject" ∧
    detectType (hex! "00000010 66747970 6d703432 00000000") = go! "video/mp4" ∧
    detectType (hex! "41 01") = go! "application/octet-stream" := by decide +kernel

/-- **C109** Whatever messages, headers and dumps are on a page, it is plain text, or a file to be saved if one of its first 512
characters is a control character that does not occur in texts. It is never anything else, like HTML or a font. -/
theorem C109_type (names : UInt8 → Bytes) (ts : List Bytes) (h0 : ts ≠ []) (h : ∀ t ∈ ts, Item names t) :
    contentType ts.flatten = some (if (ts.flatten.take 512).any rareControl then go! "application/octet-stream"
      else go! "text/plain; charset=utf-8") := by
  have hl := lp_items h
  cases ts with
  | nil => exact absurd rfl h0
  | cons t ts =>
    obtain ⟨⟨x, r, hx, rfl⟩, -, -⟩ := item_facts (h t List.mem_cons_self)
    rw [List.flatten_cons, List.append_assoc] at hl ⊢
    have hn : x ≠ [] := by
      rintro rfl
      exact absurd hx (by decide +kernel)
    rw [contentType, if_neg (by simp [hn]), detect_start hx hl, binaryByte_eq]

/-- Characters of lines are none of those. -/
theorem lines_plain {w : Bytes} (h : Lines w) (k : Nat) : (w.take k).any rareControl = false := by
  rw [List.any_eq_false]
  intro c m
  have : ∀ c : UInt8, (c = 0x0a ∨ 0x20 ≤ c ∧ c ≤ 0x7e) → ¬ rareControl c = true := by byte_decide
  exact this c (h c (List.mem_of_mem_take m))

/-- **C109** Which items are lines of printable characters. -/
theorem C109_items (names : UInt8 → Bytes) (hn : ∀ b, Printable (names b)) (t : Bytes) (h : Item names t)
    (hc : ∀ m : CLC.Message, t = m.string ++ [0x0a] ∨ t = m.reserved ++ [0x0a] → ∀ n ∈ shownNames m, Printable (name n)) : Lines t := by
  have line : ∀ {t}, OneLine t → Lines t := by
    rintro t ⟨p, rfl, hp⟩
    exact lines_append (lines_of hp) (by decide)
  cases h with
  | llc m => exact line (C87_llc m).1
  | llcReserved m => exact line (C87_llc m).2
  | bth b l t h =>
    obtain ⟨⟨x, hx, ox⟩, y, hy, oy⟩ := C87_bth b
    rcases h with h | h
    · rw [hx] at h; cases h; exact line ox
    · rw [hy] at h; cases h; exact line oy
  | grh g => exact line (C87_grh names hn g).1
  | clc m => exact lines_append (lines_of ((C87_clc m).1.2 (hc m (.inl rfl)))) (by decide)
  | clcReserved m => exact lines_append (lines_of ((C87_clc m).2.2 (hc m (.inr rfl)))) (by decide)
  | dump bs hb => exact lines_dump bs

theorem lines_flatten {ts : List Bytes} (h : ∀ t ∈ ts, Lines t) : Lines ts.flatten := by
  intro c m
  obtain ⟨t, ht, hc⟩ := List.mem_flatten.1 m
  exact h t ht c hc

/-- **C109**, what holds of it: a page of messages, headers and dumps is plain text if they are lines of printable characters (see
`C109_items`). Missing: CLC messages with other characters in their names (`C109_false`). -/
theorem C109_partial (names : UInt8 → Bytes) (ts : List Bytes) (h0 : ts ≠ []) (h : ∀ t ∈ ts, Item names t) (hl : ∀ t ∈ ts, Lines t) :
    contentType ts.flatten = some (go! "text/plain; charset=utf-8") := by
  rw [C109_type names ts h0 h, lines_plain (lines_flatten hl) 512]
  rfl

example : (∀ t ∈ [(LLC.Msg.testLink {}).string, hexDump [0x07, 0x2c]], Item (fun _ => []) t) ∧
    contentType ((LLC.Msg.testLink {}).string ++ hexDump [0x07, 0x2c]) = some (go! "text/plain; charset=utf-8") := by
  refine ⟨fun t m => ?_, by decide +kernel⟩
  rcases List.mem_cons.1 m with rfl | m
  · exact .llc _
  · rw [List.mem_singleton.1 m]
    exact .dump _ (by decide)

/-- an SMC-D v2 Accept message of 78 bytes that is in order, with an EID of one control character -/
def controlAccept : Bytes :=
  hex! "e2d4c3c4 02 004e 21" ++ hex! "1112131415161718 2122232425262728 01 10 0000 00000001 0002" ++
  [0x01] ++ zeros 31 ++ zeros 8 ++ hex! "e2d4c3c4"

/-- what it is parsed to -/
def controlMessage : CLC.Message :=
  .acceptSMCDv2 {
    raw := ⟨controlAccept, []⟩, hdr := { Eyecatcher := hex! "e2d4c3c4", Typ := 2, Length := 78, Version := 2, Path := 1 }
    GID := 0x1112131415161718, Token := 0x2122232425262728, DMBEIdx := 1, DMBESize := 1, LinkID := 1, ISMv2VCHID := 2
    EID := [0x01] ++ zeros 31, trailer := hex! "e2d4c3c4" }

/-- The full statement of **C109** as a proposition: a page with the texts of messages that were received is plain text. -/
def MessagesPlain : Prop :=
  ∀ s m n m' l l', CLC.newMessage s = .ret l (some m, n) → m.parse s = .ret l' m' →
    contentType (m'.string ++ [0x0a]) = some (go! "text/plain; charset=utf-8")

/-- **C109** is false of the code: names are shown as they are. Because of the EID of this message the page is sent as binary data, which browsers
save and do not show. -/
theorem C109_false : ¬ MessagesPlain ∧ ∃ m, CLC.newMessage ⟨controlAccept, []⟩ = .ret [] (some m, 78) ∧
    m.parse ⟨controlAccept, []⟩ = .ret [] controlMessage ∧
    contentType (controlMessage.string ++ [0x0a]) = some (go! "application/octet-stream") := by
  have h1 : CLC.newMessage ⟨controlAccept, []⟩ = .ret [] (some (.acceptSMCDv2 {}), 78) := by decide +kernel
  have h2 : (CLC.Message.acceptSMCDv2 {}).parse ⟨controlAccept, []⟩ = .ret [] controlMessage := by decide +kernel
  have h3 : contentType (controlMessage.string ++ [0x0a]) = some (go! "application/octet-stream") := by decide +kernel
  refine ⟨fun h => ?_, _, h1, h2, h3⟩
  have := h _ _ _ _ _ _ h1 h2
  rw [h3] at this
  exact absurd this (by decide)

/-- **C109** In every interleaving of any number of goroutines that write items and of requests, every response that is not empty is plain
text, however much of it the connection takes. -/
theorem C109_server_partial (names : UInt8 → Bytes) (n : Nat) (as : List SysAct) (y : Sys) (es : List SysEvent)
    (hs : (Sys.init n).run as = some (y, es)) (hr : OnlyRequestsReset as)
    (hw : ∀ t p, .buf (.call t (.write p)) ∈ es → Item names p ∧ Lines p) :
    ∃ H, observed H = es ∧ SysLinearizable H ∧ ∀ a b t w, H = a ++ .response t w :: b →
      ∃ c d, a = c ++ .pt (.effect t .copy (.copied (contentsAfter c))) :: d ∧ (∀ p ∈ d, p.apart t) ∧
        (contentsAfter c ≠ [] → contentType (contentsAfter c) = some (go! "text/plain; charset=utf-8")) := by
  obtain ⟨H, i, rfl⟩ := (SysInv.init n).runs hr hs
  rw [List.nil_append] at i
  have ph : ∀ t, (phase t (points H)).isSome := fun t => by rw [i.inv.phases t]; rfl
  refine ⟨H, rfl, ⟨ph, i.inv.legal⟩, ?_⟩
  intro a b t w e
  obtain ⟨-, x, ⟨c, d, rfl, hd⟩, hx⟩ := i.resp a b t w e
  have hl := i.inv.legal
  rw [e] at hl
  obtain rfl := copied_contents hl
  refine ⟨c, d, rfl, hd, fun h0 => ?_⟩
  have all : ∀ p ∈ textsSince (opsIn c), Item names p ∧ Lines p := by
    intro p hp
    have m := (since_texts (opsIn c)).2 p hp
    obtain ⟨⟨o, v⟩, m1, rfl⟩ := List.mem_map.1 m
    obtain ⟨u, m2⟩ := mem_effects.1 m1
    have m3 : .pt (.effect u (.write p) v) ∈ H := by
      rw [e, List.append_assoc]; exact List.mem_append_left _ (mem_points.1 m2)
    have m4 := effect_called (ph u) (mem_points.2 m3)
    exact hw u p (mem_observed_buf.2 (mem_points.1 m4))
  rw [contentsAfter, (since_texts _).1] at h0 ⊢
  exact C109_partial names _ (by rintro e; rw [e] at h0; exact h0 rfl) (fun t m => (all t m).1) fun t m => (all t m).2

/-- One goroutine writes a dump, another one answers a request, of which the connection takes three bytes. -/
def dumpingOne : List SysAct :=
  [.call 0 (.write (hexDump [0xff]))] ++ List.replicate 69 (.run 0 0) ++ [.request 1 []] ++ List.replicate 70 (.run 1 0) ++ [.serve 1 3]

example : ((Sys.init 2).run dumpingOne).map (·.2.getLast?) = some (some (.response 1 (go! "000"))) ∧
    OnlyRequestsReset dumpingOne ∧ Item (fun _ => []) (hexDump [0xff]) ∧ Lines (hexDump [0xff]) :=
  ⟨by decide +kernel, by intro t; simp [dumpingOne], .dump _ (by decide), lines_dump _⟩

/-- a type that browsers interpret -/
def activeType (ct : Bytes) : Bool := ct == go! "text/html; charset=utf-8" || ct == go! "text/xml; charset=utf-8"

/-- begins with `<` if it is about such a type -/
def _root_.SMC.Http.Sig.active : Sig → Bool
  | .html x => x.head? == some 0x3c
  | .masked mask pat sk ct => !activeType ct || sk && mask.head? == some 0xff && pat.head? == some 0x3c
  | .exact _ ct => !activeType ct
  | _ => true

/-- **C109** Whatever is written to it, a page is HTML or XML only if the first of its characters that is not white space is `<`. -/
theorem C109_active (w : Bytes) (h : detectType w = go! "text/html; charset=utf-8" ∨ detectType w = go! "text/xml; charset=utf-8") :
    ((w.take 512).dropWhile isWS).head? = some 0x3c := by
  have check : ∀ s ∈ signatures, s.active = true := List.all_eq_true.1 (by decide +kernel)
  unfold detectType at h
  simp only at h
  cases e : signatures.findSome? fun s => s.match (w.take 512) ((w.take 512).dropWhile isWS) with
  | none =>
    rw [e] at h
    exact absurd h (by decide)
  | some ct =>
    rw [e, Option.getD_some] at h
    obtain ⟨s, hm, hs⟩ := List.exists_of_findSome?_eq_some e
    have hk := check s hm
    generalize (w.take 512).dropWhile isWS = rest at hs ⊢
    cases s with
    | html x =>
      simp only [Sig.match] at hs
      split at hs
      · rename_i hx
        cases x with
        | nil => cases hk
        | cons b x =>
          cases rest with
          | nil => cases hx
          | cons d rest =>
            obtain rfl : b = 0x3c := by simpa [Sig.active] using hk
            simp only [htmlMatch, Bool.and_eq_true, decide_eq_true_eq] at hx
            exact congrArg some hx.1
      · cases hs
    | masked mask pat sk ct' =>
      simp only [Sig.match] at hs
      by_cases hx : maskMatch mask pat (if sk = true then rest else w.take 512) = true
      · rw [if_pos hx] at hs
        obtain rfl := Option.some.inj hs
        have ha : activeType ct' = true := by simpa [activeType] using h
        obtain ⟨⟨rfl, h1⟩, h2⟩ : (sk = true ∧ mask.head? = some 0xff) ∧ pat.head? = some 0x3c := by simpa [Sig.active, ha] using hk
        rw [if_pos rfl] at hx
        cases mask with
        | nil => cases h1
        | cons m mask =>
          cases pat with
          | nil => cases h2
          | cons p pat =>
            cases rest with
            | nil => cases hx
            | cons d rest =>
              cases h1
              cases h2
              simp only [maskMatch, Bool.and_eq_true, decide_eq_true_eq] at hx
              have : d = 0x3c := by
                rw [← hx.1]
                exact (UInt8.and_neg_one (a := d)).symm
              exact congrArg some this
      · rw [if_neg hx] at hs
        cases hs
    | exact sig ct' =>
      simp only [Sig.match] at hs
      split at hs
      · obtain rfl := Option.some.inj hs
        have ha : activeType ct' = true := by simpa [activeType] using h
        rw [Sig.active, ha] at hk
        cases hk
      · cases hs
    | mp4 =>
      simp only [Sig.match] at hs
      split at hs
      · cases hs
        exact absurd h (by decide)
      · cases hs
    | text =>
      simp only [Sig.match] at hs
      split at hs
      · cases hs
      · cases hs
        exact absurd h (by decide)

-- white space and lower case; more letters
example : detectType (go! " \n<script>") = go! "text/html; charset=utf-8" ∧ detectType (go! "<scripts>") = go! "text/plain; charset=utf-8" := by
  decide +kernel

/-- a letter in upper case -/
def upper (c : UInt8) : UInt8 := if 0x61 ≤ c ∧ c ≤ 0x7a then c - 0x20 else c

/-- The beginnings of tags that make a page HTML. -/
def htmlTags : List Bytes :=
  [go! "<!DOCTYPE HTML", go! "<HTML", go! "<HEAD", go! "<SCRIPT", go! "<IFRAME", go! "<H1", go! "<DIV", go! "<FONT", go! "<TABLE",
   go! "<A", go! "<STYLE", go! "<TITLE", go! "<B", go! "<BODY", go! "<BR", go! "<P", go! "<!--"]

theorem same_letter (b d : UInt8) (hb : ¬ (0x61 ≤ b ∧ b ≤ 0x7a)) :
    (if 0x41 ≤ b ∧ b ≤ 0x5a then d &&& 0xdf else d) = b ↔ upper d = b := by
  have h : ∀ n, n < 256 → ∀ k, k < 256 → ¬ (0x61 ≤ UInt8.ofNat n ∧ UInt8.ofNat n ≤ 0x7a) →
      ((if 0x41 ≤ UInt8.ofNat n ∧ UInt8.ofNat n ≤ 0x5a then UInt8.ofNat k &&& 0xdf else UInt8.ofNat k) = UInt8.ofNat n ↔
        upper (UInt8.ofNat k) = UInt8.ofNat n) := by decide +kernel
  have := h b.toNat b.toNat_lt d.toNat d.toNat_lt
  rw [UInt8.ofNat_toNat, UInt8.ofNat_toNat] at this
  exact this hb

theorem htmlMatch_iff {tag : Bytes} (ht : ∀ b ∈ tag, ¬ (0x61 ≤ b ∧ b ≤ 0x7a)) (data : Bytes) :
    htmlMatch tag data = true ↔ ∃ t c r, data = t ++ c :: r ∧ t.map upper = tag ∧ (c = 0x20 ∨ c = 0x3e) := by
  induction tag generalizing data with
  | nil =>
    cases data with
    | nil => simp [htmlMatch]
    | cons d data =>
      simp only [htmlMatch, isTT, decide_eq_true_eq]
      constructor
      · intro h
        exact ⟨[], d, data, rfl, rfl, h⟩
      · rintro ⟨t, c, r, e, h1, h2⟩
        obtain rfl := List.map_eq_nil_iff.1 h1
        cases e
        exact h2
  | cons b tag ih =>
    cases data with
    | nil => simp [htmlMatch]
    | cons d data =>
      simp only [htmlMatch, Bool.and_eq_true, decide_eq_true_eq]
      rw [same_letter b d (ht b (by simp)), ih (fun x hx => ht x (by simp [hx]))]
      constructor
      · rintro ⟨h1, t, c, r, rfl, h2, h3⟩
        exact ⟨d :: t, c, r, rfl, by rw [List.map_cons, h1, h2], h3⟩
      · rintro ⟨t, c, r, e, h1, h2⟩
        cases t with
        | nil => cases h1
        | cons x t =>
          simp only [List.cons_append, List.cons.injEq] at e
          simp only [List.map_cons, List.cons.injEq] at h1
          exact ⟨e.1 ▸ h1.1, t, c, r, e.2, h1.2, h2⟩

/-- **C109** Exactly the pages that begin with one of these tags, in any case and behind white space, are HTML. -/
theorem C109_html (w : Bytes) : detectType w = go! "text/html; charset=utf-8" ↔
    ∃ t c r, (w.take 512).dropWhile isWS = t ++ c :: r ∧ t.map upper ∈ htmlTags ∧ (c = 0x20 ∨ c = 0x3e) := by
  have hsig : signatures = htmlTags.map .html ++ signatures.drop 17 := by decide +kernel
  have hlow : ∀ tag ∈ htmlTags, ∀ b ∈ tag, ¬ ((0x61 : UInt8) ≤ b ∧ b ≤ 0x7a) := by decide +kernel
  have hrest : ∀ s ∈ signatures.drop 17, ∀ data rest, s.match data rest ≠ some (go! "text/html; charset=utf-8") := by
    have check : ∀ s ∈ signatures.drop 17, (match s with
        | .html _ => false
        | .masked _ _ _ ct | .exact _ ct => ct != go! "text/html; charset=utf-8"
        | _ => true) = true := List.all_eq_true.1 (by decide +kernel)
    intro s hs data rest e
    have := check s hs
    cases s with
    | html x => cases this
    | masked mask pat sk ct =>
      simp only [Sig.match] at e
      have : ct = go! "text/html; charset=utf-8" := by
        cases sk <;> (simp only [Option.ite_none_right_eq_some, Option.some.injEq] at e; exact e.2)
      subst this
      cases check _ hs
    | exact sig ct =>
      simp only [Sig.match, Option.ite_none_right_eq_some, Option.some.injEq] at e
      obtain rfl := e.2
      cases check _ hs
    | mp4 =>
      simp only [Sig.match] at e
      split at e <;> exact absurd e (by decide)
    | text =>
      simp only [Sig.match] at e
      split at e <;> exact absurd e (by decide)
  unfold detectType
  simp only
  generalize w.take 512 = data
  generalize data.dropWhile isWS = rest
  have key : (∃ tag ∈ htmlTags, htmlMatch tag rest = true) ↔
      ∃ t c r, rest = t ++ c :: r ∧ t.map upper ∈ htmlTags ∧ (c = 0x20 ∨ c = 0x3e) := by
    constructor
    · rintro ⟨tag, h1, h2⟩
      obtain ⟨t, c, r, h3, h4, h5⟩ := (htmlMatch_iff (hlow tag h1) rest).1 h2
      exact ⟨t, c, r, h3, h4 ▸ h1, h5⟩
    · rintro ⟨t, c, r, h3, h4, h5⟩
      exact ⟨_, h4, (htmlMatch_iff (hlow _ h4) rest).2 ⟨t, c, r, h3, rfl, h5⟩⟩
  rw [← key]
  constructor
  · intro h
    cases e : signatures.findSome? fun s => s.match data rest with
    | none =>
      rw [e] at h
      exact absurd h (by decide)
    | some ct =>
      rw [e, Option.getD_some] at h
      subst h
      obtain ⟨s, hm, hs⟩ := List.exists_of_findSome?_eq_some e
      rw [hsig] at hm
      rcases List.mem_append.1 hm with hm | hm
      · obtain ⟨tag, ht, rfl⟩ := List.mem_map.1 hm
        simp only [Sig.match] at hs
        by_cases c : htmlMatch tag rest = true
        · exact ⟨tag, ht, c⟩
        · rw [if_neg c] at hs
          cases hs
      · exact absurd hs (hrest s hm data rest)
  · rintro ⟨tag, h1, h2⟩
    rw [hsig, List.findSome?_append]
    cases e : (htmlTags.map Sig.html).findSome? fun s => s.match data rest with
    | none =>
      have := List.findSome?_eq_none_iff.1 e (.html tag) (List.mem_map.2 ⟨tag, h1, rfl⟩)
      simp only [Sig.match, if_pos h2] at this
      cases this
    | some ct =>
      obtain ⟨s, hm, hs⟩ := List.exists_of_findSome?_eq_some e
      obtain ⟨tag', _, rfl⟩ := List.mem_map.1 hm
      simp only [Sig.match] at hs
      split at hs
      · cases hs
        rfl
      · cases hs

example : detectType (go! "\n <bOdy >") = go! "text/html; charset=utf-8" ∧
    (go! "<bOdy").map upper ∈ htmlTags ∧ detectType (go! "<body") = go! "text/plain; charset=utf-8" := by decide +kernel

end SMC.Props
