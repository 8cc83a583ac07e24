import Verif.Spec.Stream
import Verif.Spec.Crash
import Verif.Spec.Hopeless
/-!
# Reading CLC messages from segments

How the functions of the package are meant to be used on a TCP connection whose bytes arrive in segments: they are appended
to the bytes not used yet, and messages are parsed as soon as they are complete.
-/

namespace SMC.Spec

open CLC

/-- Parses the complete messages at the beginning of `buf`, at most `n`; `e` is what the array holds behind `buf`. The
result are the messages and the bytes left, none if `NewMessage` found no message and the reader gave up.

```
for len(buf) >= clc.HeaderLen {
	m, l := clc.NewMessage(buf)
	if m == nil { return }
	if len(buf) < int(l) { break }
	m.Parse(buf[:l]) // or buf[:l:l]
	buf = buf[l:]
}
```
With `clip` the buffer given to `Parse` has no spare capacity. -/
def drain (clip : Bool) (e : Bytes) : Nat → Bytes → Go (List Message × Option Bytes)
  | 0, buf => pure ([], some buf)
  | n + 1, buf =>
    if buf.length < 8 then pure ([], some buf)
    else do
      let (m, l) ← newMessage ⟨buf, e⟩
      match m with
      | none => pure ([], none)
      | some m =>
        if buf.length < l.toNat then pure ([], some buf)
        else do
          let m' ← m.parse ⟨buf.take l.toNat, if clip then [] else buf.drop l.toNat ++ e⟩
          let r ← drain clip e n (buf.drop l.toNat)
          pure (m' :: r.1, r.2)

/-- Reads segments one after the other; each comes with what the array holds behind it. `p` are the bytes not used yet. -/
def feed (clip : Bool) : List (Bytes × Bytes) → Option Bytes → Go (List Message × Option Bytes)
  | [], p => pure ([], p)
  | _ :: _, none => pure ([], none)
  | (s, e) :: segs, some p => do
    let r ← drain clip e (p ++ s).length (p ++ s)
    let r' ← feed clip segs r.2
    pure (r.1 ++ r'.1, r'.2)

/-- the bytes of all segments -/
def joined (segs : List (Bytes × Bytes)) : Bytes := segs.flatMap (·.1)

/-- a message without what is in the array behind its bytes -/
def clipped (m : Message) : Message := withRawHdr m ⟨m.raw.vis, []⟩ m.hdr

/-- A stream of messages that can be parsed without any spare capacity, up to one that panics whatever is behind it, bytes
that are no message, or an incomplete message. -/
inductive PlainStream : Bytes → Prop where
  | ends {buf} : buf.length < 8 ∨ classify buf = none ∨ buf.length < declared buf → PlainStream buf
  | message {buf k} : classify buf = some k → declared buf ≤ buf.length →
      ¬ ParseCrashes k ⟨buf.take (declared buf), []⟩ → PlainStream (buf.drop (declared buf)) → PlainStream buf
  | panics {buf k} : classify buf = some k → declared buf ≤ buf.length →
      Hopeless k (buf.take (declared buf)) → PlainStream buf

/-- Two runs of a reader that nobody can tell apart: both panic, or they log the same, have the same messages and leave
the same bytes. -/
def SameReading (x y : Go (List Message × Option Bytes)) : Prop :=
  (x.Panics ∧ y.Panics) ∨
    ∃ l r r', x = .ret l r ∧ y = .ret l r' ∧ r.1.map clipped = r'.1.map clipped ∧ r.2 = r'.2

end SMC.Spec
