import Verif.Spec.HttpServer
import Verif.Spec.Dump
import Verif.Spec.Printable
/-!
# The page of the server, line by line
-/

namespace SMC.Http

/-- the texts written since the last reset, in their order -/
def textsSince (ops : List Op) : List Bytes :=
  (ops.reverse.takeWhile (· ≠ .reset)).reverse.filterMap fun
    | .write p => some p
    | _ => none

/-- A page `w` that shows the first of the texts `ts`, one per line, and perhaps the beginning of one
more: its lines, as a reader finds them by looking for line feeds. -/
structure ShowsTexts (w : Bytes) (ts : List Bytes) : Prop where
  cut : ∃ qs r rest, ts = qs ++ rest ∧ Spec.lines w = qs.map List.dropLast ++ (if r = [] then [] else [r]) ∧
    (r = [] ∨ ∃ q rest', rest = q :: rest' ∧ r <+: q.dropLast) ∧ (w = ts.flatten → rest = [] ∧ r = [])

end SMC.Http
