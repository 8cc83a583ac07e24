import Verif.Netip
import Verif.Spec.Socket
/-!
# Addresses written as numbers
-/

namespace SMC.Spec
open SMC.Socket

/-- A name of an interface that can stand in an address. -/
def ZoneName (zone : Bytes) : Prop := zone ≠ [] ∧ 0x5b ∉ zone ∧ 0x5d ∉ zone

/-- `s` is the text of the address: what a listener or a connection with this address shows. IPv6
addresses are not IPv4 addresses in disguise. -/
def Written (sys : System) : Sockaddr → Bytes → Prop
  | .inet4 port ip, s => ip.length = 4 ∧ port ≤ 65535 ∧ s = tcpAddrStr ip port []
  | .inet6 port scope ip, s => ip.length = 16 ∧ (∀ v4, ¬ IsIPv4 ip v4) ∧ port ≤ 65535 ∧
      (scope = 0 ∧ s = tcpAddrStr ip port [] ∨
        ∃ zone i, ZoneName zone ∧ sys.interface zone = some i ∧ scope = UInt32.ofNat i ∧ s = tcpAddrStr ip port zone)

/-- What names stand for: IPv4 or IPv6 addresses, with zones that can be written. -/
def Sensible (sys : System) : Prop :=
  ∀ host as, sys.host host = some as → ∀ a ∈ as, (a.ip.length = 4 ∨ a.ip.length = 16) ∧ (a.zone = [] ∨ ZoneName a.zone)

/-! ## Texts of IPv6 addresses (RFC 4291, section 2.2) -/

/-- A hexadecimal digit, in lower or upper case, and its value. -/
def HexDigit (c : UInt8) (d : Nat) : Prop :=
  d < 10 ∧ c.toNat = 48 + d ∨ (10 ≤ d ∧ d < 16) ∧ (c.toNat = 97 + (d - 10) ∨ c.toNat = 65 + (d - 10))

/-- One to four digits and their value. -/
inductive GroupText : Bytes → Nat → Prop
  | one {c : UInt8} {d : Nat} : HexDigit c d → GroupText [c] d
  | more {t : Bytes} {g : Nat} {c : UInt8} {d : Nat} : GroupText t g → t.length < 4 → HexDigit c d → GroupText (t ++ [c]) (16 * g + d)

/-- The two bytes of a group. -/
def groupBytes (g : Nat) : Bytes := [UInt8.ofNat (g / 256), UInt8.ofNat (g % 256)]

/-- Groups with colons between them, and their bytes. -/
inductive GroupsText : Bytes → Bytes → Prop
  | one {t : Bytes} {g : Nat} : GroupText t g → GroupsText t (groupBytes g)
  | more {t s b : Bytes} {g : Nat} : GroupText t g → GroupsText s b → GroupsText (t ++ 0x3a :: s) (groupBytes g ++ b)

/-- The same, but the last one may be an IPv4 address. -/
inductive EndText : Bytes → Bytes → Prop
  | one {t : Bytes} {g : Nat} : GroupText t g → EndText t (groupBytes g)
  | ip4 {a : Bytes} : a.length = 4 → EndText (ipStr a) a
  | more {t s b : Bytes} {g : Nat} : GroupText t g → EndText s b → EndText (t ++ 0x3a :: s) (groupBytes g ++ b)

/-- A text of an IPv6 address: sixteen bytes, or fewer and two colons that stand for the missing
zeros. -/
def IP6Text (s a : Bytes) : Prop :=
  (EndText s a ∧ a.length = 16) ∨
  ∃ front back x y, s = front ++ 0x3a :: 0x3a :: back ∧ (front = [] ∧ x = [] ∨ GroupsText front x) ∧
    (back = [] ∧ y = [] ∨ EndText back y) ∧ x.length + y.length < 16 ∧
    a = x ++ List.replicate (16 - (x.length + y.length)) 0 ++ y

/-- Digits (none is zero) and their value. -/
inductive DigitsText : Bytes → Nat → Prop
  | nil : DigitsText [] 0
  | more {t : Bytes} {n d : Nat} {c : UInt8} : DigitsText t n → d < 10 → c.toNat = 48 + d → DigitsText (t ++ [c]) (10 * n + d)

/-- A port as a number: digits, perhaps with a sign. -/
def PortText (s : Bytes) (p : Int) : Prop :=
  ∃ t n, DigitsText t n ∧ ((s = t ∨ s = 0x2b :: t) ∧ p = n ∨ s = 0x2d :: t ∧ p = -(n : Int))

end SMC.Spec
