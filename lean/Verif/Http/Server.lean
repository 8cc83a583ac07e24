import Verif.Fmt
import Verif.Http.Buffer
/-!
# Model of pkg/http/http.go

`net/url` query parsing, the request handler on top of the buffer machine, and `StartServer`.
The HTTP server of the standard library itself is not modelled: a request is a goroutine that
runs `handleRequest` with the query of its URL.
-/

namespace SMC.Http

/-! ## Queries -/

/-- `strings.Cut(s, sep)` for a one-byte separator. -/
def cut (sep : UInt8) (s : Bytes) : Bytes × Bytes :=
  (s.takeWhile (· ≠ sep), (s.dropWhile (· ≠ sep)).drop 1)

/-- The parts of `s` between separators, as produced by cutting again and again. -/
def pieces (sep : UInt8) : Bytes → List Bytes
  | [] => [[]]
  | b :: s =>
    if b = sep then [] :: pieces sep s
    else match pieces sep s with
      | [] => [[b]]
      | p :: ps => (b :: p) :: ps

/-- `net/url.unhex`, `none` for bytes that are not hexadecimal digits (`ishex`) -/
def unhex (c : UInt8) : Option UInt8 :=
  if 0x30 ≤ c ∧ c ≤ 0x39 then some (c - 0x30)
  else if 0x61 ≤ c ∧ c ≤ 0x66 then some (c - 0x61 + 10)
  else if 0x41 ≤ c ∧ c ≤ 0x46 then some (c - 0x41 + 10)
  else none

/-- `net/url.QueryUnescape`, `none` for an error: `%` not followed by two hexadecimal
digits. -/
def unescape : Bytes → Option Bytes
  | [] => some []
  | c :: s =>
    if c = 0x25 then
      match s with
      | a :: b :: r => do
        let x ← unhex a
        let y ← unhex b
        let r ← unescape r
        return (x <<< 4 ||| y) :: r
      | _ => none
    else if c = 0x2b then (unescape s).map (0x20 :: ·)
    else (unescape s).map (c :: ·)

/-- One part of a query in `net/url.parseQuery`: key and value, `none` if the part is skipped
because it is empty, contains a semicolon or a bad escape. -/
def parsePair (part : Bytes) : Option (Bytes × Bytes) :=
  if (0x3b : UInt8) ∈ part then none
  else if part = [] then none
  else do
    let k ← unescape (cut 0x3d part).1
    let v ← unescape (cut 0x3d part).2
    return (k, v)

/-- `net/url.ParseQuery` as used by `r.URL.Query()`, which ignores its error: the pairs in
their order. -/
def parseQuery (query : Bytes) : List (Bytes × Bytes) := (pieces 0x26 query).filterMap parsePair

/-- `net/url.Values.Get`: the first value of a key, or the empty string. -/
def queryGet (query key : Bytes) : Bytes :=
  match (parseQuery query).find? (·.1 = key) with
  | some (_, v) => v
  | none => []

/-- pkg/http/http.go:29-30, the condition for the reset -/
def flushes (query : Bytes) : Bool := queryGet query (go! "flush") = go! "true"

/-! ## Requests -/

/-- What a goroutine does besides calling the buffer. -/
inductive Handler where
  /-- no request: it calls the methods of the buffer as it likes -/
  | free
  /-- pkg/http/http.go:25, in `CopyBuffer` -/
  | copying (query : Bytes)
  /-- pkg/http/http.go:26, about to send the copy, the first `n` bytes of array `d` -/
  | serving (query : Bytes) (d n : Nat)
  /-- pkg/http/http.go:29-30 -/
  | checking (query : Bytes)
  /-- pkg/http/http.go:31, in `Reset` -/
  | resetting
deriving DecidableEq, Repr

/-- The server's buffer and all goroutines. -/
structure Sys where
  buf : State
  hs : List Handler
deriving DecidableEq, Repr

/-- No request yet, empty buffer. -/
def Sys.init (n : Nat) : Sys := ⟨.init n, List.replicate n .free⟩

/-- What the scheduler and the environment decide. -/
inductive SysAct where
  /-- goroutine `t`, which does not handle a request, calls a method of the buffer -/
  | call (t : Nat) (op : Op)
  /-- goroutine `t` takes a step inside a method -/
  | run (t spare : Nat)
  /-- goroutine `t` starts to handle a request -/
  | request (t : Nat) (query : Bytes)
  /-- goroutine `t` sends; the connection takes the first `k` bytes -/
  | serve (t k : Nat)
  /-- goroutine `t` looks at the flush parameter -/
  | check (t : Nat)
deriving DecidableEq, Repr

/-- What can be observed: events of the buffer and the bodies of responses. -/
inductive SysEvent where
  | buf (e : Event)
  | response (t : Nat) (body : Bytes)
deriving DecidableEq, Repr

/-- Where a handler goes when the method it called returns. -/
def Handler.returned : Handler → Res → Handler
  | .copying q, .copy d n => .serving q d n
  | .resetting, _ => .free
  | h, _ => h

/-- Where a handler is after a step at `pc`. -/
def Handler.after (h : Handler) : PC → Handler
  | .out r => h.returned r
  | _ => h

/-- pkg/http/http.go:24-33 `handleRequest`, and calls by others. An error of `io.Copy` (fewer
than all bytes taken) is only printed to stderr. -/
def Sys.step (y : Sys) : SysAct → Option (Sys × List SysEvent)
  | .call t op =>
    match y.hs[t]? with
    | some .free => do
      let (s, es) ← Http.step y.buf (.call t op)
      return ({ y with buf := s }, es.map .buf)
    | _ => none
  | .run t spare => do
    let h ← y.hs[t]?
    let pc ← y.buf.pcs[t]?
    let (s, es) ← Http.step y.buf (.run t spare)
    return (⟨s, y.hs.set t (h.after pc)⟩, es.map .buf)
  | .request t q =>
    match y.hs[t]? with
    | some .free => do
      let (s, es) ← Http.step y.buf (.call t .copy)
      return (⟨s, y.hs.set t (.copying q)⟩, es.map .buf)
    | _ => none
  | .serve t k =>
    match y.hs[t]? with
    | some (.serving q d n) =>
      if k ≤ n then
        some ({ y with hs := y.hs.set t (.checking q) },
          [.response t (((y.buf.array d).take n).take k)])
      else none
    | _ => none
  | .check t =>
    match y.hs[t]? with
    | some (.checking q) =>
      if flushes q then do
        let (s, es) ← Http.step y.buf (.call t .reset)
        return (⟨s, y.hs.set t .resetting⟩, es.map .buf)
      else some ({ y with hs := y.hs.set t .free }, [])
    | _ => none

/-- Steps one after the other. -/
def Sys.run (y : Sys) : List SysAct → Option (Sys × List SysEvent)
  | [] => some (y, [])
  | a :: as => do
    let (y', e) ← y.step a
    let (y'', es) ← y'.run as
    return (y'', e ++ es)

/-! ## StartServer -/

/-- What `StartServer` works on: pkg/http/http.go:12-14 `server` (its listener), the patterns
registered with http.DefaultServeMux, the listeners that are being served. -/
structure World where
  listener : Option Nat := none
  patterns : List Bytes := []
  served : List Nat := []
deriving DecidableEq, Repr

/-- How a call ends. A returned value is the address of the package's only server. -/
inductive Outcome where
  | returned (w : World)
  | exited (w : World)
  | panicked (w : World)
deriving DecidableEq, Repr

/-- pkg/http/http.go:37-50 `StartServer`; `listen` is the outcome of `net.Listen`. Registering
a pattern twice panics (`http.HandleFunc`). Simplification: other patterns never conflict with
"/". -/
def startServer (w : World) (listen : Option Nat) : Outcome :=
  match listen with
  | none => .exited w
  | some l =>
    let w := { w with listener := some l }
    if go! "/" ∈ w.patterns then .panicked w
    else .returned { w with patterns := (go! "/") :: w.patterns, served := l :: w.served }

end SMC.Http
