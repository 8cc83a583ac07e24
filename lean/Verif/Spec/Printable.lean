import Verif.CLC.Message
/-!
# Texts that can be written to a terminal or a log

A text of visible ASCII characters and blanks cannot end a line of a log, move the cursor of a
terminal or start an escape sequence.
-/

namespace SMC.Spec

open SMC.CLC

/-- visible ASCII characters and blanks only -/
def Printable (t : Bytes) : Prop := ∀ c ∈ t, 0x20 ≤ c ∧ c ≤ 0x7e

instance (t : Bytes) : Decidable (Printable t) := inferInstanceAs (Decidable (∀ c ∈ t, 0x20 ≤ c ∧ c ≤ 0x7e))

/-- a single line: printable characters, and one line feed at the end -/
def OneLine (t : Bytes) : Prop := ∃ p, t = p ++ [0x0a] ∧ Printable p

/-- lines of printable characters -/
def Lines (t : Bytes) : Prop := ∀ c ∈ t, c = 0x0a ∨ 0x20 ≤ c ∧ c ≤ 0x7e

/-- the characters of a name in an array: those before the first NUL -/
def name (a : Bytes) : Bytes := a.takeWhile (· ≠ 0)

/-- The names a peer chooses freely and that are shown in the texts of its message: the EIDs,
unless there is no SMCv2 extension, as many as announced; the SEID, if there is an SMC-D v2
extension; the EID and, with a first contact extension, the host name. -/
def shownNames : Message → List Bytes
  | .proposalV2 p =>
    (if p.hdr.Pathv2 = 2 then [] else p.EIDArea.take p.EIDNumber.toNat) ++
    (if p.hdr.Pathv2 = 1 ∨ p.hdr.Pathv2 = 3 then [p.SEID] else [])
  | .acceptSMCDv2 m => m.EID :: if 114 ≤ m.hdr.Length.toNat then [m.Hostname] else []
  | .confirmSMCDv2 m => m.EID :: if 114 ≤ m.hdr.Length.toNat then [m.Hostname] else []
  | _ => []

end SMC.Spec
