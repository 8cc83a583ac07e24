import Verif.Dumper
/-!
# What a parser may log about a buffer
-/

namespace SMC.Spec

/-- a short line, or the dump of a part of the buffer, spare capacity included -/
def ShortOrDump (s : Slice) (t : Bytes) : Prop :=
  t.length ≤ 100 ∨ ∃ bs, bs <:+: s.vis ++ s.extra ∧ t = go! "Message Buffer Hex Dump:\n" ++ hexDump bs

end SMC.Spec
