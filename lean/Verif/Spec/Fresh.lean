import Verif.Spec.HttpServer
/-!
# Operations one after the other
-/

namespace SMC.Http

/-- An event of the buffer that goroutine `t` sees. -/
def SysEvent.of (t : Nat) : SysEvent → Bool
  | .buf (.call u _) => u = t
  | .buf (.ret u _) => u = t
  | .response .. => false

/-- Operation `op` of goroutine `t`, from its call to its return of `v`, with events of others in between. -/
def Whole (t : Nat) (op : Op) (v : Val) (es : List SysEvent) : Prop :=
  ∃ k, es = .buf (.call t op) :: (k ++ [.buf (.ret t v)]) ∧ ∀ e ∈ k, ¬ e.of t

/-- An operation was called and has not returned, behind `es`. -/
def Running (op : Op) (es : List SysEvent) : Prop :=
  ∃ t a b, es = a ++ .buf (.call t op) :: b ∧ ∀ e ∈ b, ¬ e.of t

/-- No `Reset` runs at any time in `b`, which comes behind `a`. -/
def Unreset (a b : List SysEvent) : Prop := ¬ Running .reset a ∧ ∀ t, .buf (.call t .reset) ∉ b

/-- No `Write` of any byte runs at any time in `b`, which comes behind `a`. -/
def Unwritten (a b : List SysEvent) : Prop :=
  ∀ p, p ≠ [] → ¬ Running (.write p) a ∧ ∀ t, .buf (.call t (.write p)) ∉ b

/-- How often `Write(p)` was called. -/
def callsOf (p : Bytes) (es : List SysEvent) : Nat :=
  es.countP fun
    | .buf (.call _ op) => op = .write p
    | _ => false

end SMC.Http
