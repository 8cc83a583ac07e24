import Verif.RoCE
/-!
# Unit tests of pkg/roce run through the model

The vectors of /repo/pkg/roce/*_test.go. These are tests of the model, not proofs.
-/

namespace SMC.Tests
open SMC RoCE

/-! /repo/pkg/roce/bth_test.go -/

def bthVec : Bytes := hex! "04 c0 ff ff 00 00 01 07  80 7b 28 94"

#guard match parseBTH ⟨bthVec, []⟩ with
  | .ret [] b =>
    b.string = .ret [] (go! "BTH: OpCode: 0b100 (RC SEND Only), SE: true, M: true, Pad: 0, TVer: 0, PKey: 65535, FECN: false, BECN: false, DestQP: 263, A: true, PSN: 8071316\n") ∧
    b.reserved = .ret [] (go! "BTH: OpCode: 0b100 (RC SEND Only), SE: true, M: true, Pad: 0, TVer: 0, PKey: 65535, FECN: false, BECN: false, Res: 0x0, DestQP: 263, A: true, Res: 0x0, PSN: 8071316\n") ∧
    b.hex = go! "00000000  04 c0 ff ff 00 00 01 07  80 7b 28 94              |.........{(.|\n" ∧
    b.getType = typeBTH
  | _ => False

/-! /repo/pkg/roce/grh_test.go -/

def grhVec : Bytes := hex! "60 20 00 00 00 3c 1b 01  fe 80 00 00 00 00 00 00 9a 03 9b ff fe ab cd ef  fe 80 00 00 00 00 00 00 9a 03 9b ff fe ab cd ef"

#guard match parseGRH ⟨grhVec, []⟩ with
  | .ret [] g =>
    g.string (fun _ => []) = go! "GRH: Version: 6, Traffic Class: 2, Flow Label: 0, Length: 60, Next Header: BTH, Hop Limit: 1, Source: fe80::9a03:9bff:feab:cdef, Destination: fe80::9a03:9bff:feab:cdef\n" ∧
    g.reserved (fun _ => []) = go! "GRH: Version: 6, Traffic Class: 2, Flow Label: 0, Length: 60, Next Header: BTH, Hop Limit: 1, Source: fe80::9a03:9bff:feab:cdef, Destination: fe80::9a03:9bff:feab:cdef\n" ∧
    g.hex = go! "00000000  60 20 00 00 00 3c 1b 01  fe 80 00 00 00 00 00 00  |` ...<..........|\n00000010  9a 03 9b ff fe ab cd ef  fe 80 00 00 00 00 00 00  |................|\n00000020  9a 03 9b ff fe ab cd ef                           |........|\n" ∧
    g.getType = typeGRH
  | _ => False

/-- a whole RoCEv2 packet: BTH, test link message, ICRC -/
def pktVec : Bytes := bthVec ++ (7 :: 44 :: zeros 42) ++ [1, 2, 3, 4]

#guard match parseRoCEv2 ⟨pktVec, []⟩ with
  | .ret [] r => r.ICRC.vis = [1, 2, 3, 4] ∧ r.LLC.getType = 7
  | _ => False

end SMC.Tests
