import Verif.Spec.HttpServer
/-!
# A client that collects the page by flushing it
-/

namespace SMC.Http

/-- Where a client is that asks for the page again and again: it waits, goroutine `t` is copying the page for it, has copied it,
has sent it. -/
inductive Poll where
  | rest
  | asked (t : Nat)
  | copied (t : Nat) (page : Bytes)
  | sent (t : Nat)
deriving DecidableEq, Repr

/-- Requests are answered one at a time, every response is as long as the page, and is followed by a reset. Nobody else copies
or resets the buffer. Everything else may happen at any time. -/
def Poll.next : Poll → SysEvent → Option Poll
  | .rest, .buf (.call t .copy) => some (.asked t)
  | .sent t, .buf (.call u .reset) => if u = t then some (.sent t) else none
  | _, .buf (.call _ .copy) | _, .buf (.call _ .reset) => none
  | .asked t, .buf (.ret u (.copied x)) => some (if u = t then .copied t x else .asked t)
  | .sent t, .buf (.ret u .wasReset) => some (if u = t then .rest else .sent t)
  | .copied t x, .response u w => if u = t ∧ w.length = x.length then some (.sent t) else none
  | _, .response .. => none
  | s, _ => some s

/-- Where the client is behind these events, if it is one that polls. -/
def polled (es : List SysEvent) : Option Poll := es.foldlM Poll.next .rest

/-- The bodies of all responses, one after the other. -/
def collected (es : List SysEvent) : Bytes :=
  es.flatMap fun
    | .response _ w => w
    | .buf _ => []

/-- The bytes written, without those written from a copy to the next reset; `o` says that there was a copy before. -/
def outside (o : Bool) : List SysPoint → Bytes
  | [] => []
  | .pt (.effect _ (.write p) _) :: h => if o then outside o h else p ++ outside o h
  | .pt (.effect _ .copy _) :: h => outside true h
  | .pt (.effect _ .reset _) :: h => outside false h
  | _ :: h => outside o h

/-- The bytes written from a copy to the next reset. -/
def inside (o : Bool) : List SysPoint → Bytes
  | [] => []
  | .pt (.effect _ (.write p) _) :: h => if o then p ++ inside o h else inside o h
  | .pt (.effect _ .copy _) :: h => inside true h
  | .pt (.effect _ .reset _) :: h => inside false h
  | _ :: h => inside o h

/-- The bytes written. -/
def written (h : List SysPoint) : Bytes := (opsIn h).flatMap Op.payload

/-- The same with a single writer, goroutine `w`, that does not write while a request is answered; the second component says
that it is in `Write`. -/
def Poll.calm (w : Nat) : Poll × Bool → SysEvent → Option (Poll × Bool)
  | (s, _), .buf (.call u (.write _)) | (s, _), .buf (.call u (.fail _)) => if u = w ∧ s = .rest then some (s, true) else none
  | (s, b), .buf (.ret u (.wrote _)) | (s, b), .buf (.ret u .failed) => some (s, b && u != w)
  | (s, b), .buf (.call t .copy) => if b then none else (s.next (.buf (.call t .copy))).map (·, b)
  | (s, b), e => (s.next e).map (·, b)

/-- Where the client and the writer are behind these events. -/
def calm (w : Nat) (es : List SysEvent) : Option (Poll × Bool) := es.foldlM (Poll.calm w) (.rest, false)

/-- The bytes given to `Write`, without those of calls that panicked. -/
def given (es : List SysEvent) : Bytes :=
  es.flatMap fun
    | .buf (.call _ op) => op.payload
    | _ => []

end SMC.Http
