import Lean.Elab.Tactic.Simproc
import Lean.Meta.Tactic.Simp.BuiltinSimprocs
import Verif.Lemmas.Addr
/-!
# Reading formatted text back

`weave` writes a format string as alternating literals and fields; the lemmas `..._sep` cut two
equal texts at the first field. Together they turn an equation between two formatted texts
into equations between their arguments.
-/

namespace SMC

/-- a format string as literals before verbs, and the last literal -/
def chunk : List Seg → List (Bytes × Verb) × Bytes
  | [] => ([], [])
  | .lit b :: r =>
    match chunk r with
    | ((l, v) :: cs, last) => ((b :: l, v) :: cs, last)
    | ([], last) => ([], b :: last)
  | .verb v :: r =>
    let (cs, last) := chunk r
    (([], v) :: cs, last)

/-- `chunk` of a format string -/
def chunks (fmt : Bytes) : List (Bytes × Verb) × Bytes := chunk (parseFmt fmt)

/-- literals, fields, and what follows -/
def weave : List (Bytes × Verb) → List Arg → Bytes → Bytes
  | [], _, k => k
  | (l, v) :: cs, a :: as, k => l ++ (fmtArg v a ++ weave cs as k)
  | (l, _) :: cs, [], k => l ++ weave cs [] k

theorem render_weave (segs : List Seg) (as : List Arg) :
    render segs as = weave (chunk segs).1 as ((chunk segs).2 ++ []) := by
  induction segs generalizing as with
  | nil => simp [render, chunk, weave]
  | cons s r ih =>
    cases s with
    | lit b =>
      simp only [render, ih, chunk]
      match h : chunk r with
      | ([], last) => simp [weave]
      | ((l, v) :: cs, last) => cases as <;> simp [weave]
    | verb v =>
      cases as with
      | nil => simp [render, ih, chunk, weave]
      | cons a as => simp [render, ih, chunk, weave]

theorem sprintf_weave (fmt : Bytes) (as : List Arg) :
    sprintf fmt as = weave (chunks fmt).1 as ((chunks fmt).2 ++ []) := render_weave _ _

open Lean Meta Simp in
/-- the bytes of a literal list -/
partial def litBytes? (e : Expr) : MetaM (Option (List UInt8)) := do
  let e ← instantiateMVars e
  match_expr e with
  | List.nil _ => return some []
  | List.cons _ h t =>
    let some n ← getOfNatValue? h ``UInt8 | return none
    let some r ← litBytes? t | return none
    return some (UInt8.ofNat n.1 :: r)
  | _ => return none

open Lean in
instance : ToExpr Verb where
  toExpr
    | .d => mkConst ``Verb.d
    | .s => mkConst ``Verb.s
    | .t => mkConst ``Verb.t
    | .hx => mkConst ``Verb.hx
    | .hb => mkConst ``Verb.hb
  toTypeExpr := mkConst ``Verb

open Lean Meta Simp in
/-- evaluates `chunks` on a literal; the kernel checks the result by computation -/
simproc_decl evalChunks (SMC.chunks _) := fun e => do
  let some bs ← litBytes? e.appArg! | return .continue
  let r := toExpr (chunks bs)
  return .done { expr := r, proof? := some (mkExpectedPropHint (← mkEqRefl r) (← mkEq e r)) }

/-- the fields of an equation between formatted texts; the simp set keeps literals whole -/
syntax "unfmt" "[" Lean.Parser.Tactic.simpLemma,* "]" (" at " ident)? : tactic
macro_rules
  | `(tactic| unfmt [$ls,*] at $h) => `(tactic|
    simp only [sprintf_weave, evalChunks, weave, fmtArg, List.append_assoc, List.nil_append, $ls,*] at $h:ident)
  | `(tactic| unfmt [$ls,*]) => `(tactic|
    simp only [sprintf_weave, evalChunks, weave, fmtArg, List.append_assoc, List.nil_append, $ls,*])

/-! ## Cutting at fields -/

theorem sep_of {α : Type} {F : α → Bytes} {p : UInt8 → Bool} (hp : ∀ a, ∀ c ∈ F a, p c = true) {P : α → Prop}
    (hF : ∀ a b, P a → P b → F a = F b → a = b) {a b : α} (ha : P a) (hb : P b) {c : UInt8} {l s t : Bytes}
    (hc : p c = false) : F a ++ ((c :: l) ++ s) = F b ++ ((c :: l) ++ t) ↔ a = b ∧ s = t := by
  simp only [List.cons_append]
  rw [append_sep (not_mem_of_all (hp a) hc) (not_mem_of_all (hp b) hc), List.append_cancel_left_eq]
  exact ⟨fun h => ⟨hF a b ha hb h.1, h.2⟩, fun h => ⟨h.1 ▸ rfl, h.2⟩⟩

/-- characters of `%#x` -/
def isHexX (c : UInt8) : Bool := isHex c || c == 120
/-- characters of `%#b` -/
def isBin (c : UInt8) : Bool := c == 48 || c == 49 || c == 98
/-- characters of `%t` -/
def isBool (c : UInt8) : Bool := (go! "truefalse").contains c

theorem hexInt_all (n : Nat) : ∀ c ∈ hexInt n, isHexX c = true := by
  intro c hc
  simp only [hexInt, List.cons_append, List.nil_append, List.mem_cons] at hc
  rcases hc with rfl | rfl | hc
  · rfl
  · rfl
  · simp [isHexX, digits_all (by decide) isHex_digit n c hc]

theorem hexInt_inj {n m : Nat} (h : hexInt n = hexInt m) : n = m := by
  simp only [hexInt, List.append_cancel_left_eq] at h
  exact digits_inj (by decide) (by decide) h

theorem binInt_all (n : Nat) : ∀ c ∈ binInt n, isBin c = true := by
  intro c hc
  simp only [binInt, List.cons_append, List.nil_append, List.mem_cons] at hc
  rcases hc with rfl | rfl | hc
  · rfl
  · rfl
  · exact digits_all (p := isBin) (by decide) (by decide) n c hc

theorem binInt_inj {n m : Nat} (h : binInt n = binInt m) : n = m := by
  simp only [binInt, List.append_cancel_left_eq] at h
  exact digits_inj (by decide) (by decide) h

theorem boolStr_all : ∀ b, ∀ c ∈ boolStr b, isBool c = true := by decide

theorem boolStr_inj : ∀ a b, boolStr a = boolStr b → a = b := by decide

theorem hexBytes_all (a : Bytes) : ∀ c ∈ hexBytes a, isHexX c = true := by
  unfold hexBytes
  split
  · simp
  · intro c hc
    simp only [List.cons_append, List.nil_append, List.mem_cons] at hc
    rcases hc with rfl | rfl | hc
    · rfl
    · rfl
    · simp [isHexX, flatMap_hex2_all a c hc]

theorem hexBytes_inj {a b : Bytes} (h : hexBytes a = hexBytes b) : a = b := by
  unfold hexBytes at h
  split at h <;> split at h
  · simp_all
  · simp at h
  · simp at h
  · rw [List.append_cancel_left_eq] at h
    exact flatMap_hex2_inj h

section
variable {c : UInt8} {l s t : Bytes}

theorem dec_sep {n m : Nat} (hc : isDec c = false) :
    dec n ++ ((c :: l) ++ s) = dec m ++ ((c :: l) ++ t) ↔ n = m ∧ s = t :=
  sep_of (P := fun _ => True) dec_all (fun _ _ _ _ => dec_inj) trivial trivial hc

theorem hexInt_sep {n m : Nat} (hc : isHexX c = false) :
    hexInt n ++ ((c :: l) ++ s) = hexInt m ++ ((c :: l) ++ t) ↔ n = m ∧ s = t :=
  sep_of (P := fun _ => True) hexInt_all (fun _ _ _ _ => hexInt_inj) trivial trivial hc

theorem binInt_sep {n m : Nat} (hc : isBin c = false) :
    binInt n ++ ((c :: l) ++ s) = binInt m ++ ((c :: l) ++ t) ↔ n = m ∧ s = t :=
  sep_of (P := fun _ => True) binInt_all (fun _ _ _ _ => binInt_inj) trivial trivial hc

theorem boolStr_sep {a b : Bool} (hc : isBool c = false) :
    boolStr a ++ ((c :: l) ++ s) = boolStr b ++ ((c :: l) ++ t) ↔ a = b ∧ s = t :=
  sep_of (P := fun _ => True) boolStr_all (fun _ _ _ _ => boolStr_inj _ _) trivial trivial hc

theorem hexBytes_sep {a b : Bytes} (hc : isHexX c = false) :
    hexBytes a ++ ((c :: l) ++ s) = hexBytes b ++ ((c :: l) ++ t) ↔ a = b ∧ s = t :=
  sep_of (P := fun _ => True) hexBytes_all (fun _ _ _ _ => hexBytes_inj) trivial trivial hc

theorem macStr_sep {a b : Bytes} (hc : isAddr c = false) :
    macStr a ++ ((c :: l) ++ s) = macStr b ++ ((c :: l) ++ t) ↔ a = b ∧ s = t :=
  sep_of (P := fun _ => True) macStr_all (fun _ _ _ _ => macStr_inj) trivial trivial hc

theorem ipStr_sep {a b : Bytes} (hc : isAddr c = false) (ha : a.length ≠ 4) (hb : b.length ≠ 4) :
    ipStr a ++ ((c :: l) ++ s) = ipStr b ++ ((c :: l) ++ t) ↔ a = b ∧ s = t :=
  sep_of (P := fun a : Bytes => a.length ≠ 4) ipStr_all (fun _ _ ha hb => ipStr_inj ha hb) ha hb hc

/-- addresses of the same kind -/
theorem ip4_inj {a b : Bytes} (ha : a.length = 4) (hb : b.length = 4) (h : ipStr a = ipStr b) : a = b := by
  have f : ∀ a : Bytes, a.length = 4 → ipStr a = ip4Str a := by
    intro a ha
    match a, ha with
    | [_, _, _, _], _ => rfl
  rw [f a ha, f b hb] at h
  exact ip4Str_inj (by rw [ha, hb]) h

theorem ip4_sep {a b : Bytes} (hc : isAddr c = false) (ha : a.length = 4) (hb : b.length = 4) :
    ipStr a ++ ((c :: l) ++ s) = ipStr b ++ ((c :: l) ++ t) ↔ a = b ∧ s = t :=
  sep_of (P := fun a : Bytes => a.length = 4) ipStr_all (fun _ _ ha hb => ip4_inj ha hb) ha hb hc

/-- a text without the separator -/
theorem str_sep {x y : Bytes} (hx : c ∉ x) (hy : c ∉ y) :
    x ++ ((c :: l) ++ s) = y ++ ((c :: l) ++ t) ↔ x = y ∧ s = t := by
  simp only [List.cons_append]
  rw [append_sep hx hy, List.append_cancel_left_eq]

end

/-- turns an equation between formatted texts into equations between their arguments -/
syntax "fields" "[" Lean.Parser.Tactic.simpLemma,* "]" " at " ident : tactic
macro_rules
  | `(tactic| fields [$ls,*] at $h) => `(tactic| (
    unfmt [$ls,*] at $h
    simp (disch := first | decide | assumption) only [List.append_cancel_left_eq, dec_sep, hexInt_sep, binInt_sep,
      boolStr_sep, hexBytes_sep, macStr_sep, ipStr_sep, $ls,*] at $h:ident))

/-- test -/
example (a b c d : Nat)
    (h : sprintf (go! "Hello %d, World %#x\n") [.num a, .num b] = sprintf (go! "Hello %d, World %#x\n") [.num c, .num d]) :
    a = c ∧ b = d := by
  fields [] at h
  exact ⟨h.1, h.2.1⟩

end SMC
