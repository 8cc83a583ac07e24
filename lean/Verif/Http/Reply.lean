import Verif.Http.Server
/-!
# Model of how net/http sends what the handler writes

`handleRequest` hands its copy of the buffer to the response writer of net/http (pkg/http/http.go:26). This is a
`bufio.Writer` of 2048 bytes in front of a `chunkWriter`, which writes to the connection. Modelled of it: when the header is
written and what it says about the length of the body, and the bytes behind the header. Not modelled: the text of the
header, the buffer of the connection, errors (see `Verif/Http/Server.lean` for connections that do not take all).
-/

namespace SMC.Http

/-- What matters about a request: whether its method is HEAD, and whether its version is at least 1.1. -/
structure Client where
  head : Bool
  http11 : Bool
deriving DecidableEq, Repr

/-- `net/http.chunkWriter` with what it has written: Content-Length and Transfer-Encoding of the header, whether the
connection is closed at the end, and the bytes behind the header -/
structure Reply where
  wroteHeader : Bool := false
  length : Option Nat := none
  chunking : Bool := false
  close : Bool := false
  out : Bytes := []
deriving DecidableEq, Repr

/-- the end of a line -/
def crlf : Bytes := [0x0d, 0x0a]

/-- `net/http.chunkWriter.writeHeader`; `p` is what is about to be written, `done` says that the handler has returned. The
handler sets no header fields, the status is 200. -/
def Reply.header (c : Client) (done : Bool) (p : Bytes) (r : Reply) : Reply :=
  let length := if done ∧ (¬ c.head ∨ 0 < p.length) then some p.length else none
  if c.head ∨ length ≠ none then { r with wroteHeader := true, length }
  else if c.http11 then { r with wroteHeader := true, chunking := true }
  else { r with wroteHeader := true, close := true }

/-- `net/http.chunkWriter.Write` -/
def Reply.write (c : Client) (done : Bool) (r : Reply) (p : Bytes) : Reply :=
  let r := if r.wroteHeader then r else r.header c done p
  if c.head then r
  else if r.chunking then { r with out := r.out ++ (digits 16 p.length ++ crlf) ++ p ++ crlf }
  else { r with out := r.out ++ p }

/-- `net/http.chunkWriter.close`; there are no trailers -/
def Reply.finish (c : Client) (r : Reply) : Reply :=
  let r := if r.wroteHeader then r else r.header c true []
  if r.chunking then { r with out := r.out ++ go! "0" ++ crlf ++ crlf } else r

/-- `net/http.bufferBeforeChunkingSize` -/
def bufSize : Nat := 2048

/-- `bufio.Writer.Write` with `buf` in the buffer: what is written on, and what is in the buffer then -/
def bufWrite (buf p : Bytes) : List Bytes × Bytes :=
  if p.length ≤ bufSize - buf.length then ([], buf ++ p)
  else if buf = [] then ([p], [])
  else
    let full := buf ++ p.take (bufSize - buf.length)
    let rest := p.drop (bufSize - buf.length)
    if rest.length ≤ bufSize then ([full], rest) else ([full, rest], [])

/-- `net/http.response.Write`: empty writes do nothing -/
def responseWrite (c : Client) (st : Bytes × Reply) (p : Bytes) : Bytes × Reply :=
  if p = [] then st
  else
    let (ps, buf) := bufWrite st.1 p
    (buf, ps.foldl (Reply.write c false) st.2)

/-- A handler that writes `ws`, and `net/http.response.finishRequest` -/
def respond (c : Client) (ws : List Bytes) : Reply :=
  let (buf, r) := ws.foldl (responseWrite c) ([], {})
  let r := if buf = [] then r else r.write c true buf
  r.finish c

/-- pkg/http/http.go:26 `io.Copy(w, b)`, which calls `bytes.Buffer.WriteTo`: one write of everything, none if there is
nothing -/
def copyWrites (page : Bytes) : List Bytes := if page = [] then [] else [page]

end SMC.Http
