import Verif.Heap
/-!
# How much memory there is
-/

namespace SMC

/-- the number of bytes of all arrays -/
def Heap.size (h : Heap) : Nat := (h.map List.length).sum

/-- the bytes of all slices of an LLC message -/
def LLC.Refs.total (s : LLC.Refs) : Nat := s.raw.len + s.mac.len + s.gid.len

/-- the bytes of all slices of the parts of a packet; source and destination of a GRH are parts of
`Contents`, and the ICRC is a part of the packet -/
def RoCE.HRoCE.total (m : RoCE.HRoCE) : Nat :=
  (match m.GRH with
   | none => 0
   | some g => g.contents.len) + m.BTH.raw.len + m.LLC.s.total

/-- the bytes of all slices of a CLC message but `Raw`, which is the buffer -/
def CLC.Refs.total (s : CLC.Refs) : Nat :=
  s.ibgid.len + s.ibmac.len + s.pfx.len + (s.prefixes.map (·.1.len)).sum

end SMC
