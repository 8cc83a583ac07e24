import Verif.Http.Server
/-!
# Model of the way of a request to the handler

`StartServer` registers `handleRequest` for the pattern "/" of http.DefaultServeMux
(pkg/http/http.go:46) and serves with it (pkg/http/http.go:47). This is what the mux of Go 1.23 does
with a request if that is its only pattern: paths that are not clean are redirected.

Simplifications. CONNECT requests and OPTIONS requests for `*`, which the server answers without the mux, are not
modelled. `r.URL.EscapedPath()` is the path as it is in the request. The escaping of the path in the redirect is a
parameter; `pathEsc` is the one of Go 1.23.
-/

namespace SMC.Http

/-- Taking back `out.w` in `path.Clean`, called for pkg/http/http.go:46-47: the last element and the slash before it are
removed from what was written; the first slash stays. `out` is reversed. -/
def unwind : Bytes → Bytes
  | c :: d :: out => if c = 0x2f then d :: out else unwind (d :: out)
  | out => out

/-- The loop of `path.Clean` for paths that begin with a slash, called for pkg/http/http.go:46-47: `out` is what was
written, reversed; the rest of the path is next. The number bounds the iterations. -/
def cleanLoop : Nat → Bytes → Bytes → Bytes
  | 0, out, _ => out
  | _, out, [] => out
  | n + 1, out, c :: s =>
    if c = 0x2f then cleanLoop n out s
    else if c = 0x2e ∧ (s = [] ∨ s.head? = some 0x2f) then cleanLoop n out s
    else if c = 0x2e ∧ s.head? = some 0x2e ∧ (s.tail = [] ∨ s.tail.head? = some 0x2f) then cleanLoop n (unwind out) s.tail
    else cleanLoop n (((c :: s).takeWhile (· ≠ 0x2f)).reverse ++ if out.length ≠ 1 then 0x2f :: out else out)
      ((c :: s).dropWhile (· ≠ 0x2f))

/-- `path.Clean` for paths that begin with a slash, called for pkg/http/http.go:46-47 -/
def pathClean (p : Bytes) : Bytes := (cleanLoop p.length [0x2f] p.tail).reverse

/-- `http.cleanPath`, called for pkg/http/http.go:46-47. Its two ways to put a slash back are one
here. -/
def cleanPath (p : Bytes) : Bytes :=
  if p = [] then [0x2f]
  else
    let p := if p.head? = some 0x2f then p else 0x2f :: p
    let np := pathClean p
    if p.getLast? = some 0x2f ∧ np ≠ [0x2f] then np ++ [0x2f] else np

/-- A request that is not CONNECT, as it comes from the listener of pkg/http/http.go:47: `*`, or a path
and a query. -/
inductive Request where
  | star
  | get (path query : Bytes)
deriving DecidableEq, Repr

/-- What the mux of pkg/http/http.go:47 does with a request. -/
inductive Routed where
  /-- pkg/http/http.go:24 `handleRequest` is called -/
  | handler (query : Bytes)
  /-- 301 with this Location -/
  | redirect (location : Bytes)
  /-- 400 -/
  | bad
deriving DecidableEq, Repr

/-- `http.hexEscapeNonASCII`, called for pkg/http/http.go:46-47 -/
def hexEscape (s : Bytes) : Bytes := s.flatMap fun b => if b ≥ 0x80 then 0x25 :: digits 16 b.toNat else [b]

/-- `url.escape` with `encodePath`, for one character, called for pkg/http/http.go:46-47 -/
def pathEsc (c : UInt8) : Bytes :=
  if (0x61 ≤ c ∧ c ≤ 0x7a) ∨ (0x41 ≤ c ∧ c ≤ 0x5a) ∨ (0x30 ≤ c ∧ c ≤ 0x39) ∨ c ∈ go! "-_.~$&+,/:;=@" then [c]
  else [0x25, (go! "0123456789ABCDEF").getD (c.toNat / 16) 0, (go! "0123456789ABCDEF").getD (c.toNat % 16) 0]

/-- `url.URL.String` of a path and a query, called for pkg/http/http.go:46-47 -/
def urlStr (esc : UInt8 → Bytes) (path query : Bytes) : Bytes :=
  path.flatMap esc ++ if query ≠ [] then 0x3f :: query else []

/-- `http.Redirect`, called for pkg/http/http.go:46-47: the Location for a URL that begins with a slash.
It is cleaned once more. -/
def redirectTo (url : Bytes) : Bytes :=
  let query := url.dropWhile (· ≠ 0x3f)
  let url := url.takeWhile (· ≠ 0x3f)
  let np := pathClean url
  hexEscape ((if url.getLast? = some 0x2f ∧ np.getLast? ≠ some 0x2f then np ++ [0x2f] else np) ++ query)

/-- `ServeMux.ServeHTTP` and `findHandler`, called for pkg/http/http.go:46-47 -/
def route (esc : UInt8 → Bytes) : Request → Routed
  | .star => .bad
  | .get path query =>
    if cleanPath path ≠ path then .redirect (redirectTo (urlStr esc (cleanPath path) query))
    else .handler query

end SMC.Http
