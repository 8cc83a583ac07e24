import Verif.Socket
/-!
# Specification of addresses and of system calls
-/

namespace SMC.Socket

/-- `address` is "host:port" or "[host]:port" (brackets are needed if the host contains a
colon). -/
def HostPort (address host port : Bytes) : Prop :=
  ((address = host ++ 0x3a :: port ∧ 0x3a ∉ host) ∨
    address = 0x5b :: (host ++ 0x5d :: 0x3a :: port)) ∧
  0x5b ∉ host ∧ 0x5d ∉ host ∧ 0x3a ∉ port ∧ 0x5b ∉ port ∧ 0x5d ∉ port

/-- The bytes of an IPv4 address, of its 4-byte or of its IPv4-mapped IPv6 form (RFC 4291,
section 2.5.5.2). -/
def IsIPv4 (ip v4 : Bytes) : Prop :=
  v4.length = 4 ∧ (ip = v4 ∨ ip = [0, 0, 0, 0, 0, 0, 0, 0, 0, 0, 0xff, 0xff] ++ v4)

/-- The answers a call can get: `os.NewFile` does not fail for descriptors. -/
def Possible : Call → Answer → Prop
  | .newFile _, .error _ => False
  | _, _ => True

/-- An execution of a program by itself: its calls with their answers, and how it ends. -/
inductive Runs : Prog → List (Call × Answer) → Prog → Prop where
  | ret (r : Result) : Runs (.ret r) [] (.ret r)
  | fatal : Runs .fatal [] .fatal
  | panic : Runs .panic [] .panic
  | call {c : Call} {k : Answer → Prog} {a : Answer} {tr : List (Call × Answer)} {e : Prog} :
      Possible c a → Runs (k a) tr e → Runs (.call c k) ((c, a) :: tr) e

/-- The calls of a trace are the first ones of `plan`, all but the last one were successful, and
the last one failed unless it is the last one of the plan. -/
def FollowsPlan (plan : List Call) (tr : List (Call × Answer)) : Prop :=
  tr ≠ [] ∧ tr.map (·.1) <+: plan ∧ (∀ x ∈ tr.dropLast, ∃ n, x.2 = .ok n) ∧
    ((∃ x e, tr.getLast? = some x ∧ x.2 = .error e) ∨ tr.map (·.1) = plan)

/-- The last answer is what is returned. -/
def LastAnswer (tr : List (Call × Answer)) (r : Result) : Prop :=
  ∃ x, tr.getLast? = some x ∧ ((∃ n, x.2 = .ok n ∧ r = .conn n) ∨ ∃ e, x.2 = .error e ∧ r = .error e)

/-- The process has just started: every goroutine is about to call `Dial` or `Listen`. The open
descriptors belong to others. -/
def Initial (lib : Lib) (s : Proc) : Prop :=
  s.files = [] ∧ (∀ fd, s.table fd = none ∨ s.table fd = some .other) ∧
    ∀ p ∈ s.progs, ∃ address, p = dial lib address ∨ p = listen lib address

/-- The states of the process. -/
def Reachable (lib : Lib) (s : Proc) : Prop :=
  ∃ s0 as es, Initial lib s0 ∧ s0.run as = some (s, es)

end SMC.Socket
