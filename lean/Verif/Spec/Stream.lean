import Verif.Spec.CLCBits
import Verif.Spec.Report
/-!
# Streams of CLC messages

How the functions of the package are meant to be used on data of a TCP connection: `NewMessage`
tells the length, `Parse` gets the bytes up to it, and the rest is read in the same way.
-/

namespace SMC.Spec

open CLC

/-- The header is one that `NewMessage` takes for a message of this kind. -/
def Known (m : Message) : Prop :=
  IsEye m.hdr.Eyecatcher ∧ m.hdr.Length.toNat ≤ 1024 ∧
    select m.hdr.Typ.toNat m.hdr.Version.toNat m.hdr.Path.toNat = some (clcKind m)

/-- the bytes of messages sent one after another -/
def stream (ms : List Message) : Bytes := ms.flatMap fun m => pack (bitsCLC m)

/-- Reads at most `n` messages: `for len(buf) > 0 { m, l := NewMessage(buf); m.Parse(buf[:l]); buf = buf[l:] }`,
ending at bytes that are no message. -/
def readStream : Nat → Slice → Go (List Message)
  | 0, _ => pure []
  | n + 1, buf =>
    if buf.len = 0 then pure []
    else do
      let (m, l) ← newMessage buf
      match m with
      | none => pure []
      | some m => do
        let m' ← m.parse (← buf.sto l.toNat)
        let ms ← readStream n (← buf.sfrom l.toNat)
        pure (m' :: ms)

/-- what is reported about the trailer of a message -/
def trailerLines (m : Message) : List Bytes :=
  if IsEye m.trailer then [] else report (go! "Error parsing CLC message: invalid trailer") m.trailer

end SMC.Spec
