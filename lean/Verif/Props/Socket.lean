import Verif.Lemmas.SocketFd
/-!
# Properties of pkg/socket: C67 to C72
-/

namespace SMC.Props
open SMC.Socket

/-- A resolver for examples: it knows the port "80", the host "four" with an IPv4-mapped address, the host
"six" with an IPv6 address, the host "zone" with an IPv6 address and a zone, and the interface "lo". -/
def exampleLib : Lib where
  lookupPort p := if p = go! "80" then some 80 else if p = go! "0" then some 0 else none
  lookupIPAddr h :=
    if h = go! "four" then some [⟨hex! "00000000000000000000ffff 7f000001", []⟩]
    else if h = go! "0.0.0.0" then some [⟨[0, 0, 0, 0], []⟩]
    else if h = go! "six" then some [⟨hex! "00000000000000000000000000000001", []⟩, ⟨[1, 2, 3, 4], []⟩]
    else if h = go! "::1%lo" then some [⟨hex! "00000000000000000000000000000001", go! "lo"⟩]
    else if h = go! "::1%no" then some [⟨hex! "00000000000000000000000000000001", go! "no"⟩]
    else none
  interfaceIndex z := if z = go! "lo" then some 1 else none

/-! ## C68 -/

/-- **C68** `net.SplitHostPort` as modelled accepts exactly the addresses "host:port" and "[host]:port". -/
theorem C68_split (a h p : Bytes) : splitHostPort a = some (h, p) ↔ HostPort a h p :=
  splitHostPort_iff

/-- **C68** A missing host is 0.0.0.0, a missing port is looked up as "0", and everything else is used as given. -/
theorem C68_defaults (lib : Lib) (a h p : Bytes) (e : HostPort a h p) :
    parseAddress lib a =
      match lib.lookupPort (if p = [] then go! "0" else p) with
      | none => .fatal
      | some port => .ok (if h = [] then go! "0.0.0.0" else h, port) := by
  unfold parseAddress
  rw [splitHostPort_iff.2 e]
  rfl

/-- **C68** ":port", "host:" and "host:port" without brackets or further colons, spelt out. -/
theorem C68_forms (lib : Lib) (h p : Bytes) (n : Nat) (hh : ∀ b ∈ h, b ≠ 0x3a ∧ b ≠ 0x5b ∧ b ≠ 0x5d)
    (hp : ∀ b ∈ p, b ≠ 0x3a ∧ b ≠ 0x5b ∧ b ≠ 0x5d) (h0 : lib.lookupPort (go! "0") = some 0) :
    (p ≠ [] → lib.lookupPort p = some n → parseAddress lib (0x3a :: p) = .ok (go! "0.0.0.0", n)) ∧
    (h ≠ [] → parseAddress lib (h ++ [0x3a]) = .ok (h, 0)) ∧
    (h ≠ [] → p ≠ [] → lib.lookupPort p = some n → parseAddress lib (h ++ 0x3a :: p) = .ok (h, n)) := by
  have nh : 0x3a ∉ h ∧ 0x5b ∉ h ∧ 0x5d ∉ h :=
    ⟨fun m => (hh _ m).1 rfl, fun m => (hh _ m).2.1 rfl, fun m => (hh _ m).2.2 rfl⟩
  have np : 0x3a ∉ p ∧ 0x5b ∉ p ∧ 0x5d ∉ p :=
    ⟨fun m => (hp _ m).1 rfl, fun m => (hp _ m).2.1 rfl, fun m => (hp _ m).2.2 rfl⟩
  have key : ∀ h p : Bytes, 0x3a ∉ h ∧ 0x5b ∉ h ∧ 0x5d ∉ h → 0x3a ∉ p ∧ 0x5b ∉ p ∧ 0x5d ∉ p →
      HostPort (h ++ 0x3a :: p) h p :=
    fun h p a b => ⟨Or.inl ⟨rfl, a.1⟩, a.2.1, a.2.2, b.1, b.2.1, b.2.2⟩
  refine ⟨fun h1 h2 => ?_, fun h1 => ?_, fun h1 h2 h3 => ?_⟩
  · have := C68_defaults lib _ _ _ (key [] p (by simp) np)
    rw [if_neg h1, h2] at this
    exact this
  · have := C68_defaults lib _ _ _ (key h [] nh (by simp))
    rw [if_pos rfl, h0, if_neg h1] at this
    exact this
  · have := C68_defaults lib _ _ _ (key h p nh np)
    rw [if_neg h2, h3, if_neg h1] at this
    exact this

example : parseAddress exampleLib (go! ":80") = .ok (go! "0.0.0.0", 80) ∧
    parseAddress exampleLib (go! "four:") = .ok (go! "four", 0) ∧
    parseAddress exampleLib (go! "[::1%lo]:80") = .ok (go! "::1%lo", 80) ∧
    parseAddress exampleLib (go! "::1:80") = .fatal ∧ parseAddress exampleLib (go! "four") = .fatal ∧
    parseAddress exampleLib (go! "[four:80") = .fatal ∧ parseAddress exampleLib (go! "four:http") = .fatal := by
  decide +kernel

/-! ## C67 -/

/-- **C67** The socket address made of the first resolved address: of the IPv4 family with its four bytes exactly if it is an
IPv4 or IPv4-mapped address, otherwise of the IPv6 family with its sixteen bytes, and with the index of
the interface if it has a zone. -/
theorem C67_family (lib : Lib) (a host : Bytes) (port : Nat) (ip : IPAddr) (rest : List IPAddr)
    (hp : parseAddress lib a = .ok (host, port)) (hr : lib.lookupIPAddr host = some (ip :: rest)) :
    (∀ v4, IsIPv4 ip.ip v4 → createSockaddr lib a = .ok (some (.inet4 port v4))) ∧
    ((∀ v4, ¬ IsIPv4 ip.ip v4) → ip.ip.length = 16 →
      (ip.zone = [] → createSockaddr lib a = .ok (some (.inet6 port 0 ip.ip))) ∧
      (ip.zone ≠ [] → ∀ i, lib.interfaceIndex ip.zone = some i →
        createSockaddr lib a = .ok (some (.inet6 port (UInt32.ofNat i) ip.ip))) ∧
      (ip.zone ≠ [] → lib.interfaceIndex ip.zone = none → createSockaddr lib a = .ok none)) ∧
    ((∀ v4, ¬ IsIPv4 ip.ip v4) → ip.ip.length ≠ 16 → createSockaddr lib a = .ok none) := by
  have no4 : (∀ v4, ¬ IsIPv4 ip.ip v4) → to4 ip.ip = none := by
    intro h
    cases e : to4 ip.ip with
    | none => rfl
    | some v => exact absurd (to4_iff.1 e) (h v)
  have pip : parseIP lib host = .ok (some ip) := by
    unfold parseIP
    rw [hr]
  unfold createSockaddr
  rw [hp]
  dsimp only
  rw [pip]
  dsimp only
  refine ⟨fun v4 h => ?_, fun h hl => ⟨fun hz => ?_, fun hz i hi => ?_, fun hz hi => ?_⟩, fun h hl => ?_⟩
  · rw [to4_iff.2 h]
    dsimp only
    rw [List.take_of_length_le (by rw [h.1]; exact Nat.le_refl 4)]
  · rw [no4 h, to16_some hl]
    dsimp only
    rw [if_pos hz, List.take_of_length_le (by omega)]
  · rw [no4 h, to16_some hl]
    dsimp only
    rw [if_neg hz, hi]
    dsimp only
    rw [List.take_of_length_le (by omega)]
  · rw [no4 h, to16_some hl]
    dsimp only
    rw [if_neg hz, hi]
  · have h4 : ip.ip.length ≠ 4 := fun e => h ip.ip ⟨e, Or.inl rfl⟩
    rw [no4 h, to16_none h4 hl]

/-- **C67** `Dial` and `Listen` use the protocol of the family of the address. -/
theorem C67_protocol (lib : Lib) (a : Bytes) (sa : Sockaddr) (h : createSockaddr lib a = .ok (some sa)) :
    (∃ k, dial lib a = .call (.socket (match sa with | .inet4 .. => 0 | .inet6 .. => 1)) k) ∧
    (∃ k, listen lib a = .call (.socket (match sa with | .inet4 .. => 0 | .inet6 .. => 1)) k) := by
  unfold dial listen
  rw [h]
  cases sa <;> exact ⟨⟨_, rfl⟩, ⟨_, rfl⟩⟩

example : createSockaddr exampleLib (go! "four:80") = .ok (some (.inet4 80 [127, 0, 0, 1])) ∧
    createSockaddr exampleLib (go! "six:80") =
      .ok (some (.inet6 80 0 [0, 0, 0, 0, 0, 0, 0, 0, 0, 0, 0, 0, 0, 0, 0, 1])) ∧
    createSockaddr exampleLib (go! "[::1%lo]:80") =
      .ok (some (.inet6 80 1 [0, 0, 0, 0, 0, 0, 0, 0, 0, 0, 0, 0, 0, 0, 0, 1])) ∧
    createSockaddr exampleLib (go! "[::1%no]:80") = .ok none ∧
    createSockaddr exampleLib (go! ":") = .ok (some (.inet4 0 [0, 0, 0, 0])) := by decide +kernel

/-! ## C69 -/

/-- The full statement of **C69** as a proposition: whatever the address and the resolver, `Dial` and `Listen` do not
terminate the process. -/
def NeverExits : Prop :=
  ∀ lib a tr e, Runs (dial lib a) tr e ∨ Runs (listen lib a) tr e → e ≠ .fatal

/-- **C69** is false: a malformed address and an unknown port terminate the process. -/
theorem C69_false : ¬ NeverExits := by
  intro h
  refine h exampleLib (go! "four") [] .fatal (Or.inl ?_) rfl
  have : createSockaddr exampleLib (go! "four") = .fatal := by decide +kernel
  unfold dial
  rw [this]
  exact .fatal

/-- **C69** Exactly when the process is terminated: the address has no port or is malformed, or the port is unknown. -/
theorem C69_exits_iff (lib : Lib) (a : Bytes) :
    createSockaddr lib a = .fatal ↔ (∀ h p, ¬ HostPort a h p) ∨
      ∃ h p, HostPort a h p ∧ lib.lookupPort (if p = [] then go! "0" else p) = none := by
  have noFatal : ∀ host port, parseAddress lib a = .ok (host, port) → createSockaddr lib a ≠ .fatal := by
    intro host port e h
    unfold createSockaddr at h
    rw [e] at h
    dsimp only at h
    have : parseIP lib host ≠ .fatal := by
      unfold parseIP
      split <;> intro h <;> cases h
    split at h
    · rename_i e'; exact this e'
    · cases h
    · cases h
    · repeat' split at h
      all_goals cases h
  constructor
  · intro h
    cases e : splitHostPort a with
    | none => exact Or.inl (splitHostPort_none.1 e)
    | some x =>
      right
      have hx := (splitHostPort_iff (h := x.1) (p := x.2)).1 e
      refine ⟨x.1, x.2, hx, ?_⟩
      cases e2 : lib.lookupPort (if x.2 = [] then go! "0" else x.2) with
      | none => rfl
      | some n =>
        have := C68_defaults lib a _ _ hx
        rw [e2] at this
        exact absurd h (noFatal _ _ this)
  · rintro (h | ⟨h, p, hp, e⟩)
    · have : parseAddress lib a = .fatal := by
        unfold parseAddress
        rw [splitHostPort_none.2 h]
      unfold createSockaddr
      rw [this]
    · have := C68_defaults lib a h p hp
      rw [e] at this
      unfold createSockaddr
      rw [this]

/-- **C69**, what holds of it: for an unresolvable host, an unknown zone or an address that is neither IPv4 nor
IPv6, `Dial` and `Listen` return the error "Error parsing IP" without any system call. -/
theorem C69_partial (lib : Lib) (a host : Bytes) (port : Nat) (hp : parseAddress lib a = .ok (host, port))
    (h : lib.lookupIPAddr host = none ∨ ∃ ip rest, lib.lookupIPAddr host = some (ip :: rest) ∧
      (∀ v4, ¬ IsIPv4 ip.ip v4) ∧
      (ip.ip.length ≠ 16 ∨ (ip.zone ≠ [] ∧ lib.interfaceIndex ip.zone = none))) :
    dial lib a = .ret .badIP ∧ listen lib a = .ret .badIP := by
  have : createSockaddr lib a = .ok none := by
    rcases h with h | ⟨ip, rest, hr, h4, h⟩
    · unfold createSockaddr parseIP
      rw [hp]
      dsimp only
      rw [h]
    · by_cases hl : ip.ip.length = 16
      · obtain ⟨hz, hi⟩ := h.resolve_left (fun n => n hl)
        exact ((C67_family lib a host port ip rest hp hr).2.1 h4 hl).2.2 hz hi
      · exact (C67_family lib a host port ip rest hp hr).2.2 h4 hl
  unfold dial listen
  rw [this]
  exact ⟨rfl, rfl⟩

example : createSockaddr exampleLib (go! "four") = .fatal ∧
    createSockaddr exampleLib (go! "four:ssh") = .fatal ∧
    parseAddress exampleLib (go! "five:80") = .ok (go! "five", 80) ∧
    exampleLib.lookupIPAddr (go! "five") = none ∧
    parseAddress exampleLib (go! "[::1%no]:80") = .ok (go! "::1%no", 80) := by decide +kernel

/-- **C69** The only panic: the resolver returns no address and no error. -/
theorem C69_panics_iff (lib : Lib) (a : Bytes) :
    createSockaddr lib a = .panic ↔
      ∃ host port, parseAddress lib a = .ok (host, port) ∧ lib.lookupIPAddr host = some [] := by
  unfold createSockaddr
  constructor
  · intro h
    split at h
    · cases h
    · rename_i e
      unfold parseAddress at e
      split at e
      · cases e
      · dsimp only at e
        split at e <;> cases e
    · rename_i host port e
      refine ⟨host, port, e, ?_⟩
      split at h
      · cases h
      · rename_i e'
        unfold parseIP at e'
        split at e'
        · cases e'
        · assumption
        · cases e'
      · cases h
      · repeat' split at h
        all_goals cases h
  · rintro ⟨host, port, e, h⟩
    rw [e]
    dsimp only
    unfold parseIP
    rw [h]

/-! ## C72 -/

/-- The protocol number for the family of an address. -/
def protocolNumber : Sockaddr → Nat
  | .inet4 .. => 0
  | .inet6 .. => 1

/-- An execution of `closing` -/
theorem runs_closing {fd : Nat} {r : Result} {tr : List (Call × Answer)} {e : Prog}
    (h : Runs (closing fd r) tr e) : e = .ret r ∧ ∃ x, tr = [(.close fd, x)] := by
  cases h with
  | call _ h =>
    cases h
    exact ⟨rfl, _, rfl⟩

/-- How an execution of `Dial` or `Listen` with a socket address proceeds: it follows the plan `plan fd`, stops at the first
failure, closes the socket if there is one, and returns the last answer. -/
def InOrder (plan : Nat → List Call) (tr : List (Call × Answer)) (e : Prog) : Prop :=
  ∃ fd r main, e = .ret r ∧ FollowsPlan (plan fd) main ∧ LastAnswer main r ∧
    ((tr = main ∧ ∃ c err, main = [(c, .error err)]) ∨
      ∃ c x rest, main = (c, .ok fd) :: rest ∧ tr = main ++ [(.close fd, x)])

/-- **C72** `Dial`: socket, connect, os.NewFile and net.FileConn, then close. -/
theorem C72_dial (lib : Lib) (a : Bytes) (sa : Sockaddr) (tr : List (Call × Answer)) (e : Prog)
    (h : createSockaddr lib a = .ok (some sa)) (hr : Runs (dial lib a) tr e) :
    InOrder (fun fd => [.socket (protocolNumber sa), .connect fd sa, .newFile fd, .fileConn fd]) tr e := by
  have hd : dial lib a = dialSocket sa := by unfold dial; rw [h]; rfl
  rw [hd] at hr
  have hp : protoOf sa = protocolNumber sa := by cases sa <;> rfl
  unfold dialSocket at hr
  rw [hp] at hr
  cases hr with
  | @call _ _ ans tr _ _ hr =>
  cases ans with
  | error err =>
    cases hr
    exact ⟨0, .error err, [(.socket (protocolNumber sa), .error err)], rfl,
      ⟨by simp, by simp, by simp, Or.inl ⟨_, err, rfl, rfl⟩⟩, ⟨_, rfl, Or.inr ⟨err, rfl, rfl⟩⟩,
      Or.inl ⟨rfl, _, _, rfl⟩⟩
  | ok fd =>
  unfold dialConnect at hr
  cases hr with
  | @call _ _ ans tr _ _ hr =>
  cases ans with
  | error err =>
    obtain ⟨rfl, x, rfl⟩ := runs_closing hr
    exact ⟨fd, .error err, [(.socket (protocolNumber sa), .ok fd), (.connect fd sa, .error err)], rfl,
      ⟨by simp, by simp, by simp, Or.inl ⟨_, err, rfl, rfl⟩⟩, ⟨_, rfl, Or.inr ⟨err, rfl, rfl⟩⟩,
      Or.inr ⟨_, x, _, rfl, rfl⟩⟩
  | ok n1 =>
  unfold dialFile at hr
  cases hr with
  | @call _ _ ans tr _ possible hr =>
  cases ans with
  | error err => exact possible.elim
  | ok n2 =>
  cases hr with
  | @call _ _ ans tr _ _ hr =>
  obtain ⟨rfl, x, rfl⟩ := runs_closing hr
  refine ⟨fd, ofAnswer ans, [(.socket (protocolNumber sa), .ok fd), (.connect fd sa, .ok n1),
    (.newFile fd, .ok n2), (.fileConn fd, ans)], rfl,
    ⟨by simp, by simp, by simp, Or.inr rfl⟩, ⟨_, rfl, ?_⟩, Or.inr ⟨_, x, _, rfl, rfl⟩⟩
  cases ans with
  | error err => exact Or.inr ⟨err, rfl, rfl⟩
  | ok n => exact Or.inl ⟨n, rfl, rfl⟩

/-- **C72** `Listen`: socket, bind, listen, os.NewFile and net.FileListener, then close. -/
theorem C72_listen (lib : Lib) (a : Bytes) (sa : Sockaddr) (tr : List (Call × Answer)) (e : Prog)
    (h : createSockaddr lib a = .ok (some sa)) (hr : Runs (listen lib a) tr e) :
    InOrder (fun fd => [.socket (protocolNumber sa), .bind fd sa, .listen fd 1, .newFile fd,
      .fileListener fd]) tr e := by
  have hd : listen lib a = listenSocket sa := by unfold listen; rw [h]; rfl
  rw [hd] at hr
  have hp : protoOf sa = protocolNumber sa := by cases sa <;> rfl
  unfold listenSocket at hr
  rw [hp] at hr
  cases hr with
  | @call _ _ ans tr _ _ hr =>
  cases ans with
  | error err =>
    cases hr
    exact ⟨0, .error err, [(.socket (protocolNumber sa), .error err)], rfl,
      ⟨by simp, by simp, by simp, Or.inl ⟨_, err, rfl, rfl⟩⟩, ⟨_, rfl, Or.inr ⟨err, rfl, rfl⟩⟩,
      Or.inl ⟨rfl, _, _, rfl⟩⟩
  | ok fd =>
  unfold listenBind at hr
  cases hr with
  | @call _ _ ans tr _ _ hr =>
  cases ans with
  | error err =>
    obtain ⟨rfl, x, rfl⟩ := runs_closing hr
    exact ⟨fd, .error err, [(.socket (protocolNumber sa), .ok fd), (.bind fd sa, .error err)], rfl,
      ⟨by simp, by simp, by simp, Or.inl ⟨_, err, rfl, rfl⟩⟩, ⟨_, rfl, Or.inr ⟨err, rfl, rfl⟩⟩,
      Or.inr ⟨_, x, _, rfl, rfl⟩⟩
  | ok n1 =>
  unfold listenListen at hr
  cases hr with
  | @call _ _ ans tr _ _ hr =>
  cases ans with
  | error err =>
    obtain ⟨rfl, x, rfl⟩ := runs_closing hr
    exact ⟨fd, .error err, [(.socket (protocolNumber sa), .ok fd), (.bind fd sa, .ok n1),
      (.listen fd 1, .error err)], rfl,
      ⟨by simp, by simp, by simp, Or.inl ⟨_, err, rfl, rfl⟩⟩, ⟨_, rfl, Or.inr ⟨err, rfl, rfl⟩⟩,
      Or.inr ⟨_, x, _, rfl, rfl⟩⟩
  | ok n2 =>
  unfold listenFile at hr
  cases hr with
  | @call _ _ ans tr _ possible hr =>
  cases ans with
  | error err => exact possible.elim
  | ok n3 =>
  cases hr with
  | @call _ _ ans tr _ _ hr =>
  obtain ⟨rfl, x, rfl⟩ := runs_closing hr
  refine ⟨fd, ofAnswer ans, [(.socket (protocolNumber sa), .ok fd), (.bind fd sa, .ok n1),
    (.listen fd 1, .ok n2), (.newFile fd, .ok n3), (.fileListener fd, ans)], rfl,
    ⟨by simp, by simp, by simp, Or.inr rfl⟩, ⟨_, rfl, ?_⟩, Or.inr ⟨_, x, _, rfl, rfl⟩⟩
  cases ans with
  | error err => exact Or.inr ⟨err, rfl, rfl⟩
  | ok n => exact Or.inl ⟨n, rfl, rfl⟩

/-- **C69** An execution of `Dial` or `Listen` terminates the process or panics exactly if `createSockaddr` does. -/
theorem C69_executions (lib : Lib) (a : Bytes) :
    ((∃ tr, Runs (dial lib a) tr .fatal) ↔ createSockaddr lib a = .fatal) ∧
    ((∃ tr, Runs (listen lib a) tr .fatal) ↔ createSockaddr lib a = .fatal) ∧
    ((∃ tr, Runs (dial lib a) tr .panic) ↔ createSockaddr lib a = .panic) ∧
    ((∃ tr, Runs (listen lib a) tr .panic) ↔ createSockaddr lib a = .panic) := by
  have d := C72_dial lib a
  have l := C72_listen lib a
  cases h : createSockaddr lib a with
  | ok r =>
    cases r with
    | none =>
      unfold dial listen
      rw [h]
      refine ⟨⟨?_, by simp⟩, ⟨?_, by simp⟩, ⟨?_, by simp⟩, ⟨?_, by simp⟩⟩ <;>
        exact fun ⟨_, hr⟩ => by cases hr
    | some sa =>
      refine ⟨⟨?_, by simp⟩, ⟨?_, by simp⟩, ⟨?_, by simp⟩, ⟨?_, by simp⟩⟩
      · rintro ⟨tr, hr⟩; obtain ⟨_, _, _, e, _⟩ := d sa tr _ h hr; cases e
      · rintro ⟨tr, hr⟩; obtain ⟨_, _, _, e, _⟩ := l sa tr _ h hr; cases e
      · rintro ⟨tr, hr⟩; obtain ⟨_, _, _, e, _⟩ := d sa tr _ h hr; cases e
      · rintro ⟨tr, hr⟩; obtain ⟨_, _, _, e, _⟩ := l sa tr _ h hr; cases e
  | fatal =>
    unfold dial listen
    rw [h]
    refine ⟨⟨fun _ => rfl, fun _ => ⟨[], .fatal⟩⟩, ⟨fun _ => rfl, fun _ => ⟨[], .fatal⟩⟩,
      ⟨?_, by simp⟩, ⟨?_, by simp⟩⟩ <;> exact fun ⟨_, hr⟩ => by cases hr
  | panic =>
    unfold dial listen
    rw [h]
    refine ⟨⟨?_, by simp⟩, ⟨?_, by simp⟩, ⟨fun _ => rfl, fun _ => ⟨[], .panic⟩⟩,
      ⟨fun _ => rfl, fun _ => ⟨[], .panic⟩⟩⟩ <;> exact fun ⟨_, hr⟩ => by cases hr

/-- The hypotheses hold: an execution in which connect fails with error 111. -/
example : createSockaddr exampleLib (go! "four:80") = .ok (some (.inet4 80 [127, 0, 0, 1])) ∧
    Runs (dial exampleLib (go! "four:80")) [(.socket 0, .ok 3),
      (.connect 3 (.inet4 80 [127, 0, 0, 1]), .error 111), (.close 3, .ok 0)] (.ret (.error 111)) := by
  have h : createSockaddr exampleLib (go! "four:80") = .ok (some (.inet4 80 [127, 0, 0, 1])) := by
    decide +kernel
  refine ⟨h, ?_⟩
  unfold dial
  rw [h]
  exact .call trivial (.call trivial (.call trivial (.ret _)))

/-! ## C70 -/

/-- **C70** When `Dial` or `Listen` has returned, its socket is not open any more, and if it returned an error, no
descriptor created by the call is open; in every interleaving of any number of calls with others who open and
close descriptors and with the garbage collector. -/
theorem C70_no_leak (lib : Lib) (s : Proc) (h : Reachable lib s) (t : Nat) (r : Result)
    (ht : s.progs[t]? = some (.ret r)) :
    (∀ fd, s.table fd ≠ some (.sock t)) ∧
    ((∀ n, r ≠ .conn n) → ∀ fd, s.table fd ≠ some (.conn t)) := by
  obtain ⟨s0, as, es, h0, hs⟩ := h
  obtain ⟨h, b, f, a1, a2⟩ := ((FdInv.init h0).run hs).held t _ ht
  constructor
  · intro fd e
    have := a1 fd e
    subst this
    cases f
  · intro hr
    apply a2
    cases f with
    | badIP => rfl
    | error e => rfl
    | conn n => exact absurd rfl (hr n)

/-- A process with one goroutine that calls `Dial`; descriptors 0 to 2 are in use. -/
def oneDial : Proc :=
  ⟨[dial exampleLib (go! "four:80")], fun fd => if fd < 3 then some .other else none, []⟩

theorem oneDial_initial : Initial exampleLib oneDial := by
  refine ⟨rfl, ?_, ?_⟩
  · intro fd
    unfold oneDial
    dsimp only
    split
    · exact Or.inr rfl
    · exact Or.inl rfl
  · intro p hp
    refine ⟨go! "four:80", Or.inl ?_⟩
    simpa [oneDial] using hp

/-- The executions of `oneDial` are those of `dialSocket`. -/
theorem oneDial_eq : oneDial = ⟨[dialSocket (.inet4 80 [127, 0, 0, 1])],
    fun fd => if fd < 3 then some .other else none, []⟩ := by
  have h : createSockaddr exampleLib (go! "four:80") = .ok (some (.inet4 80 [127, 0, 0, 1])) := by
    decide +kernel
  unfold oneDial dial
  rw [h]
  rfl

/-- A call that returns a connection with descriptor 4. -/
def success : List Act :=
  [.answer 0 (.ok 3), .answer 0 (.ok 0), .answer 0 (.ok 0), .answer 0 (.ok 4), .answer 0 (.ok 0)]

/-- The hypotheses hold: the call returned, the socket is closed and the connection is open. -/
example : (oneDial.run success).map (fun x => (x.1.table 3, x.1.table 4, x.1.files, x.2,
    match x.1.progs with | [.ret r] => some r | _ => none)) =
    some (none, some (.conn 0), [3], [⟨3, some (.sock 0)⟩], some (.conn 4)) := by
  rw [oneDial_eq]
  rfl

/-! ## C71 -/

/-- The full statement of **C71** as a proposition: the package closes only descriptors that are its own sockets. -/
def ClosesOwn : Prop :=
  ∀ lib s0 as s es, Initial lib s0 → s0.run as = some (s, es) →
    ∀ c ∈ es, ∃ t, c.owner = some (.sock t)

/-- **C71** is false: after a successful `Dial`, somebody else gets the number of the closed socket, and the finalizer
of the file closes it. -/
theorem C71_false : ¬ ClosesOwn := by
  intro h
  have e : (oneDial.run (success ++ [.opens 3, .finalize 0])).map (·.2) =
      some [⟨3, some (.sock 0)⟩, ⟨3, some .other⟩] := by
    rw [oneDial_eq]
    decide +kernel
  simp only [Option.map_eq_some_iff, Prod.exists] at e
  obtain ⟨s, es, hs, rfl⟩ := e
  obtain ⟨t, ht⟩ := h _ _ _ _ _ oneDial_initial hs ⟨3, some .other⟩ (by simp)
  cases ht

/-- **C71** Every finalizer that runs after the calls have returned closes a descriptor number that the package has closed
before. -/
theorem C71_finalizers_close_again (lib : Lib) (s0 s s' : Proc) (as : List Act) (es e1 : List Closed)
    (i : Nat) (h : Initial lib s0) (hs : s0.run as = some (s, es))
    (hr : ∀ p ∈ s.progs, ∃ r, p = .ret r) (hf : s.step (.finalize i) = some (s', e1)) :
    ∃ c d, e1 = [c] ∧ d ∈ es ∧ d.fd = c.fd := by
  simp only [Proc.step] at hf
  split at hf
  · rename_i fd hfd
    cases hf
    rcases ((FdInv.init h).run hs).files fd (List.mem_of_getElem? hfd) with ⟨d, hd, e⟩ | ⟨t, p, b, ht, f⟩
    · exact ⟨_, d, rfl, by simpa using hd, e⟩
    · obtain ⟨r, rfl⟩ := hr p (List.mem_of_getElem? ht)
      cases f
  · cases hf

/-- **C71**, what holds of it: as long as no finalizer of a file runs, the package closes only its own
sockets. -/
theorem C71_partial (lib : Lib) (s0 s : Proc) (as : List Act) (es : List Closed) (h : Initial lib s0)
    (hs : s0.run as = some (s, es)) (hn : ∀ n, .finalize n ∉ as) :
    ∀ c ∈ es, ∃ t, c.owner = some (.sock t) :=
  Owned.run (FdInv.init h) (Owned.init h) hn hs

/-- The hypotheses hold of the successful call: it closes its socket, and its file has a finalizer that can run. -/
example : Initial exampleLib oneDial ∧ (∀ n, .finalize n ∉ success) ∧
    (oneDial.run success).map (·.2) = some [⟨3, some (.sock 0)⟩] ∧
    (oneDial.run (success ++ [.finalize 0])).map (·.2) = some [⟨3, some (.sock 0)⟩, ⟨3, none⟩] := by
  refine ⟨oneDial_initial, by simp [success], ?_, ?_⟩ <;> rw [oneDial_eq] <;> decide +kernel

end SMC.Props
