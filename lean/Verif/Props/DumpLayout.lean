import Verif.Lemmas.DumpLayout
import Verif.Lemmas.Text
import Verif.LLC
import Verif.RoCE
import Verif.CLC.Message
/-!
# C84: layout of hex dumps
-/

namespace SMC.Props

open SMC Spec

/-- C84 for the library: the dumper, byte by byte, writes the rows; `hexDump` of the model is
what it writes. -/
theorem C84_library (bs : Bytes) : libDump bs = dumpRows bs ∧ hexDump bs = libDump bs :=
  ⟨(libDump_eq bs).trans (hexDump_rows bs), (libDump_eq bs).symm⟩

/-- C84 for LLC and CDC messages -/
theorem C84_llc (m : LLC.Msg) : m.hex = dumpRows m.base.Raw := by
  cases m <;> exact hexDump_rows _

/-- C84 for BTH and GRH -/
theorem C84_roce (b : RoCE.BTH) (g : RoCE.GRH) : b.hex = dumpRows b.Raw ∧ g.hex = dumpRows g.Contents :=
  ⟨hexDump_rows _, hexDump_rows _⟩

/-- C84 for CLC messages and the reports of faulty ones -/
theorem C84_clc (m : CLC.Message) (s : Slice) :
    m.dump = dumpRows m.raw.vis ∧
      CLC.errDump s = .ret [go! "Message Buffer Hex Dump:\n" ++ dumpRows s.vis] () := by
  refine ⟨hexDump_rows _, ?_⟩
  rw [← hexDump_rows]
  unfold CLC.errDump Go.log
  congr 2
  unfmt []
  simp

theorem dumpRow_length (bs : Bytes) (i : Nat) : (dumpRow bs i).length = 63 + (rowBytes bs i).length := by
  simp [dumpRow]; omega

/-- C84, length: 79 characters for each full row, 63 more than bytes for another one -/
theorem C84_length (bs : Bytes) :
    (hexDump bs).length = 79 * (bs.length / 16) + if bs.length % 16 = 0 then 0 else 63 + bs.length % 16 := by
  rw [hexDump_rows, dumpRows]
  have full : ∀ k, 16 * k ≤ bs.length → ((List.range k).flatMap (dumpRow bs)).length = 79 * k := by
    intro k hk
    induction k with
    | zero => rfl
    | succ k ih =>
      rw [List.range_succ, List.flatMap_append, List.length_append, ih (by omega)]
      simp only [List.flatMap_cons, List.flatMap_nil, List.append_nil, dumpRow_length, rowBytes, List.length_take,
        List.length_drop]
      omega
  split
  · rw [show (bs.length + 15) / 16 = bs.length / 16 by omega, full _ (by omega)]; rfl
  · rw [show (bs.length + 15) / 16 = bs.length / 16 + 1 by omega, List.range_succ, List.flatMap_append,
      List.length_append, full _ (by omega)]
    simp only [List.flatMap_cons, List.flatMap_nil, List.append_nil, dumpRow_length, rowBytes, List.length_take,
      List.length_drop]
    omega

/-- two rows, the second with three bytes -/
example : libDump (go! "0123456789abcdef|x\n") =
      go! "00000000  30 31 32 33 34 35 36 37  38 39 61 62 63 64 65 66  |0123456789abcdef|\n" ++
      go! "00000010  7c 78 0a                                          ||x.|\n" ∧
    dumpAt (go! "0123456789abcdef|x\n") 1 13 = 55 ∧ dumpAt (go! "0123456789abcdef|x\n") 1 14 = 56 ∧
    (hexDump (go! "0123456789abcdef|x\n")).length = 79 + 66 := by decide +kernel

end SMC.Props
