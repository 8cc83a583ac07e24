import Verif.Http.Server
/-!
# Unit tests of pkg/http run through the model

TestBuffer and TestPrintHTTP of /repo/pkg/http. These are tests of the model, not proofs.
-/

namespace SMC.Tests
open SMC.Http

/-- one call of goroutine 0, with enough steps to return -/
def callAll (s : State) (op : Op) : Option (State × List Event) := do
  let (s, es) ← step s (.call 0 op)
  finish 100 s es
where
  finish : Nat → State → List Event → Option (State × List Event)
    | 0, s, es => some (s, es)
    | n + 1, s, es =>
      if s.pcs = [.idle] then some (s, es)
      else do
        let (s, e) ← step s (.run 0 0)
        finish n s (es ++ e)

/-- the values returned by calls one after the other -/
def calls (s : State) : List Op → List Val
  | [] => []
  | op :: ops =>
    match callAll s op with
    | some (s, [_, .ret _ v]) => v :: calls s ops
    | _ => []

/-- "hello world" -/
def hello : Bytes := go! "hello world"

-- TestBuffer
example : calls (.init 1) [.copy, .write hello, .copy, .write hello, .copy, .reset, .copy] =
    [.copied [], .wrote 11, .copied hello, .wrote 11, .copied (go! "hello worldhello world"),
     .wasReset, .copied []] := by decide +kernel

/-- one request handled by goroutine 0 and its body -/
def get (y : Sys) (q : Bytes) : Option (Sys × Bytes) := do
  let (y, _) ← y.step (.request 0 q)
  let (y, _) ← runs 100 y
  let n := match y.hs with
    | [.serving _ _ n] => n
    | _ => 0
  let (y, e) ← y.step (.serve 0 n)
  let (y, _) ← y.step (.check 0)
  let (y, _) ← runs 100 y
  match e with
  | [.response _ b] => some (y, b)
  | _ => none
where
  runs : Nat → Sys → Option (Sys × Unit)
    | 0, y => some (y, ())
    | n + 1, y =>
      if y.buf.pcs = [.idle] then some (y, ())
      else do
        let (y, _) ← y.step (.run 0 0)
        runs n y

/-- TestPrintHTTP: the bodies the test gets -/
def bodies : Option (List Bytes) := do
  let y := Sys.init 1
  let (y, a) ← get y []
  let (y, _) ← y.step (.call 0 (.write hello))
  let (y, _) ← get.runs 100 y
  let (y, b) ← get y []
  let (y, c) ← get y (go! "flush=wrong")
  let (y, d) ← get y (go! "flush=wrong")
  let (y, e) ← get y (go! "flush=true")
  let (_, f) ← get y []
  return [a, b, c, d, e, f]

example : bodies = some [[], hello, hello, hello, hello, []] := by decide +kernel

end SMC.Tests
