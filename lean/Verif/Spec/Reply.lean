import Verif.Spec.Dump
/-!
# How clients read the body of a response (RFC 9112, sections 6 and 7.1)
-/

namespace SMC.Spec

/-- the value of hexadecimal digits -/
def hexNumber (ds : Bytes) : Nat := ds.foldl (fun n c => 16 * n + hexVal c) 0

/-- the chunks of a body up to the empty one, and what follows; the first argument bounds their number -/
def readChunks : Nat → Bytes → Option (Bytes × Bytes)
  | 0, _ => none
  | fuel + 1, s =>
    match s.dropWhile (· ≠ 0x0d) with
    | 0x0d :: 0x0a :: r =>
      let n := hexNumber (s.takeWhile (· ≠ 0x0d))
      match n, r.drop n with
      | 0, 0x0d :: 0x0a :: rest => some ([], rest)
      | _ + 1, 0x0d :: 0x0a :: s' => (readChunks fuel s').map fun (b, rest) => (r.take n ++ b, rest)
      | _, _ => none
    | _ => none

/-- what a client takes for the body, and what it takes for the next response, depending on whether it asked for the header
only and on what the header says. Without a length, the body ends with the connection. -/
def readBody (head chunked : Bool) (length : Option Nat) (s : Bytes) : Option (Bytes × Bytes) :=
  if head then some ([], s)
  else if chunked then readChunks (s.length + 1) s
  else match length with
    | some n => if n ≤ s.length then some (s.take n, s.drop n) else none
    | none => some (s, [])

end SMC.Spec
