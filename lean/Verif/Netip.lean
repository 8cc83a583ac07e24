import Verif.Socket
/-!
# Model of what package net does without asking the system

`parseAddress` and `parseIP` of pkg/socket/socket.go call `net.LookupPort` (socket.go:33) and
`LookupIPAddr` (socket.go:43). Numbers and literal addresses are handled by these functions
themselves, everything else is looked up. This is the first part, as in Go 1.23; the second part is
a parameter (`System`).
-/

namespace SMC.Socket

/-! ## netip.ParseAddr -/

/-- `netip.parseIPv4Fields`, called in pkg/socket/socket.go:43-44: `fields` are the octets stored so
far, `val` and `digLen` the current one; `none` for an error. At a dot, `digLen` is zero exactly if
it is the first character or follows a dot. -/
def ip4Fields (fields : Bytes) (val digLen : Nat) : Bytes → Option Bytes
  | [] => if fields.length < 3 then none else some (fields ++ [UInt8.ofNat val])
  | c :: s =>
    if 0x30 ≤ c ∧ c ≤ 0x39 then
      if digLen = 1 ∧ val = 0 then none
      else if val * 10 + (c.toNat - 0x30) > 255 then none
      else ip4Fields fields (val * 10 + (c.toNat - 0x30)) (digLen + 1) s
    else if c = 0x2e then
      if digLen = 0 ∨ s = [] then none
      else if fields.length = 3 then none
      else ip4Fields (fields ++ [UInt8.ofNat val]) 0 0 s
    else none

/-- The value of a hexadecimal digit in `netip.parseIPv6`, called in pkg/socket/socket.go:43-44. -/
def hexDigit (c : UInt8) : Option Nat :=
  if 0x30 ≤ c ∧ c ≤ 0x39 then some (c.toNat - 0x30)
  else if 0x61 ≤ c ∧ c ≤ 0x66 then some (c.toNat - 0x61 + 10)
  else if 0x41 ≤ c ∧ c ≤ 0x46 then some (c.toNat - 0x41 + 10)
  else none

/-- The inner loop of `netip.parseIPv6`, called in pkg/socket/socket.go:43-44: number of digits,
value and the rest. -/
def hexField (off acc : Nat) : Bytes → Option (Nat × Nat × Bytes)
  | [] => some (off, acc, [])
  | c :: s =>
    match hexDigit c with
    | none => some (off, acc, c :: s)
    | some d =>
      if off > 3 then none
      else if acc * 16 + d > 65535 then none
      else hexField (off + 1) (acc * 16 + d) s

/-- The outer loop of `netip.parseIPv6`, called in pkg/socket/socket.go:43-44, with room for `n` more
groups: `ip` are the bytes stored so far, `e` is the position of the ellipsis. The results are the
bytes, the ellipsis and what is left of the text. -/
def ip6Loop : Nat → Bytes → Option Nat → Bytes → Option (Bytes × Option Nat × Bytes)
  | 0, ip, e, s => some (ip, e, s)
  | n + 1, ip, e, s =>
    match hexField 0 0 s with
    | none => none
    | some (off, acc, rest) =>
      if off = 0 then none
      else if rest.head? = some 0x2e then
        if e = none ∧ ip.length ≠ 12 then none
        else if ip.length + 4 > 16 then none
        else match ip4Fields [] 0 0 s with
          | none => none
          | some f => some (ip ++ f, e, [])
      else
        let ip := ip ++ [UInt8.ofNat (acc / 256), UInt8.ofNat (acc % 256)]
        match rest with
        | [] => some (ip, e, [])
        | c :: t =>
          if c ≠ 0x3a then none
          else match t with
            | [] => none
            | d :: u =>
              if d = 0x3a then
                if e.isSome then none
                else if u = [] then some (ip, some ip.length, [])
                else ip6Loop n ip (some ip.length) u
              else ip6Loop n ip e (d :: u)

/-- The end of `netip.parseIPv6`, called in pkg/socket/socket.go:43-44: the ellipsis is expanded. -/
def ip6Expand : Bytes × Option Nat × Bytes → Option Bytes
  | (ip, e, s) =>
    if s ≠ [] then none
    else if ip.length < 16 then
      match e with
      | none => none
      | some k => some (ip.take k ++ zeros (16 - ip.length) ++ ip.drop k)
    else if e.isSome then none
    else some ip

/-- `netip.parseIPv6` without zone, called in pkg/socket/socket.go:43-44. -/
def ip6Parse : Bytes → Option Bytes
  | 0x3a :: 0x3a :: s =>
    if s = [] then some (zeros 16) else (ip6Loop 8 [] (some 0) s).bind ip6Expand
  | s => (ip6Loop 8 [] none s).bind ip6Expand

/-- `netip.ParseAddr`, called in pkg/socket/socket.go:43-44 by `LookupIPAddr`: the bytes of the address
(four or sixteen) and the zone. -/
def parseAddr (s : Bytes) : Option IPAddr :=
  match s.find? (fun c => c = 0x2e ∨ c = 0x3a ∨ c = 0x25) with
  | none => none
  | some c =>
    if c = 0x2e then (ip4Fields [] 0 0 s).map fun ip => ⟨ip, []⟩
    else if c = 0x3a then
      match firstCut 0x25 s with
      | none => (ip6Parse s).map fun ip => ⟨ip, []⟩
      | some (a, zone) => if zone = [] then none else (ip6Parse a).map fun ip => ⟨ip, zone⟩
    else none

/-! ## Ports -/

/-- The value of a decimal number, `none` if there are other characters. -/
def decimal (n : Nat) : Bytes → Option Nat
  | [] => some n
  | c :: s => if 0x30 ≤ c ∧ c ≤ 0x39 then decimal (n * 10 + (c.toNat - 0x30)) s else none

/-- `net.parsePort`, called in pkg/socket/socket.go:33: `none` if the service has to be looked up.
Simplification: numbers are not limited to 32 bits. -/
def parsePort (service : Bytes) : Option Int :=
  match service with
  | [] => some 0
  | 0x2b :: s => (decimal 0 s).map fun (n : Nat) => (n : Int)
  | 0x2d :: s => (decimal 0 s).map fun (n : Nat) => -(n : Int)
  | s => (decimal 0 s).map fun (n : Nat) => (n : Int)

/-! ## The library -/

/-- What the system is asked for: services, names of hosts and interfaces. `none` stands for an
error. -/
structure System where
  service : Bytes → Option Nat
  host : Bytes → Option (List IPAddr)
  interface : Bytes → Option Nat

/-- `net.LookupPort`, called in pkg/socket/socket.go:33 -/
def System.lookupPort (sys : System) (service : Bytes) : Option Nat :=
  match parsePort service with
  | some p => if 0 > p ∨ p > 65535 then none else some p.toNat
  | none =>
    match sys.service service with
    | some p => if p > 65535 then none else some p
    | none => none

/-- `net.Resolver.LookupIPAddr`, called in pkg/socket/socket.go:43-44 -/
def System.lookupIPAddr (sys : System) (host : Bytes) : Option (List IPAddr) :=
  if host = [] then none
  else match parseAddr host with
    | some a => some [⟨(to16 a.ip).getD [], a.zone⟩]
    | none => sys.host host

/-- The functions that pkg/socket/socket.go:33, :43 and :68 calls. -/
def System.lib (sys : System) : Lib := ⟨sys.lookupPort, sys.lookupIPAddr, sys.interface⟩

/-! ## Texts of addresses -/

/-- `net.JoinHostPort` -/
def joinHostPort (host port : Bytes) : Bytes :=
  if 0x3a ∈ host then (0x5b :: host) ++ (0x5d :: 0x3a :: port) else host ++ 0x3a :: port

/-- `net.TCPAddr.String`, what `Addr` of a listener and `RemoteAddr` of a connection show (used in
pkg/socket/dial_test.go:28-29, :136). The zone is the name of an interface. -/
def tcpAddrStr (ip : Bytes) (port : Nat) (zone : Bytes) : Bytes :=
  if zone ≠ [] then joinHostPort (ipStr ip ++ 0x25 :: zone) (dec port) else joinHostPort (ipStr ip) (dec port)

end SMC.Socket
