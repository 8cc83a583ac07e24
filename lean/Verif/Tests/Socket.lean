import Verif.Netip
/-!
# Tests of the model of pkg/socket

The addresses of /repo/pkg/socket/*_test.go. These are tests of the model, not proofs. The kernel
is left out: a listener shows the address that it was bound to, without a zone for the loopback
address, as the tests expect.
-/

namespace SMC.Tests.Socket
open SMC.Socket

/-- what the tests need to know about the system -/
def system : System where
  service s := if s = go! "inspider" then some 49150 else none
  host h := if h = go! "localhost" then some [⟨[127, 0, 0, 1], []⟩] else none
  interface z := if z = go! "lo" then some 1 else none

/-- the address that `Listen` binds to or `Dial` connects to, as a text -/
def shown (address : Bytes) : Option Bytes :=
  match createSockaddr system.lib address with
  | .ok (some (.inet4 port ip)) => some (tcpAddrStr ip port [])
  | .ok (some (.inet6 port _ ip)) => some (tcpAddrStr ip port [])
  | _ => none

/-! /repo/pkg/socket/listen_test.go -/

example : shown (go! "127.0.0.1:50001") = some (go! "127.0.0.1:50001") := by decide +kernel
example : shown (go! "0.0.0.0:50002") = some (go! "0.0.0.0:50002") := by decide +kernel
example : shown (go! "[::1]:50003") = some (go! "[::1]:50003") := by decide +kernel
example : shown (go! "[::]:50004") = some (go! "[::]:50004") := by decide +kernel
example : shown (go! "localhost:50005") = some (go! "127.0.0.1:50005") := by decide +kernel
example : shown (go! "[::1%lo]:50006") = some (go! "[::1]:50006") := by decide +kernel
example : shown (go! ":50007") = some (go! "0.0.0.0:50007") := by decide +kernel
example : shown (go! "127.0.0.1:") = some (go! "127.0.0.1:0") := by decide +kernel
example : shown (go! ":") = some (go! "0.0.0.0:0") := by decide +kernel
example : shown (go! "127.0.0.1:inspider") = some (go! "127.0.0.1:49150") := by decide +kernel
example : shown (go! "[::1]:inspider") = some (go! "[::1]:49150") := by decide +kernel
example : shown (go! "127.0.0.1:0") = some (go! "127.0.0.1:0") := by decide +kernel
example : shown (go! "[::1]:0") = some (go! "[::1]:0") := by decide +kernel

/-! /repo/pkg/socket/dial_test.go -/

example : shown (go! "localhost:50101") = some (go! "127.0.0.1:50101") := by decide +kernel
example : shown (go! "[::1%lo]:50102") = some (go! "[::1]:50102") := by decide +kernel
example : createSockaddr system.lib (go! "[::1%lo]:50102") =
    .ok (some (.inet6 50102 1 [0, 0, 0, 0, 0, 0, 0, 0, 0, 0, 0, 0, 0, 0, 0, 1])) := by decide +kernel

/-! Addresses that netip.ParseAddr accepts or not, after its documentation -/

example : parseAddr (go! "1:2:3:4:5:6:1.2.3.4") = some ⟨[0, 1, 0, 2, 0, 3, 0, 4, 0, 5, 0, 6, 1, 2, 3, 4], []⟩ := by decide +kernel
example : parseAddr (go! "1:2:3:4:5:6:7::") = some ⟨[0, 1, 0, 2, 0, 3, 0, 4, 0, 5, 0, 6, 0, 7, 0, 0], []⟩ := by decide +kernel
example : parseAddr (go! "FE80::A%eth0") = some ⟨[0xfe, 0x80, 0, 0, 0, 0, 0, 0, 0, 0, 0, 0, 0, 0, 0, 0xa], go! "eth0"⟩ := by
  decide +kernel
example : parseAddr (go! "1:2:3:4:5:6:7:1.2.3.4") = none ∧ parseAddr (go! "1::2::3") = none ∧ parseAddr (go! "12345::") = none ∧
    parseAddr (go! "1:2:3:4:5:6:7:8::") = none ∧ parseAddr (go! "fe80::1%") = none ∧ parseAddr (go! "1.2.3") = none ∧
    parseAddr (go! "1.2.3.04") = none ∧ parseAddr (go! "1.2.3.256") = none ∧ parseAddr (go! "1.2.3.4%lo") = none ∧
    parseAddr (go! "localhost") = none := by decide +kernel

end SMC.Tests.Socket
