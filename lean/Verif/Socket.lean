import Verif.Fmt
/-!
# Model of pkg/socket

The package consists of address handling, which asks the resolver of package `net`, and of a
sequence of system calls. The resolver is a parameter (`Lib`), so everything proved holds
whatever it answers. System calls are requests to the environment (`Prog`), which may answer them
as it likes.
-/

namespace SMC.Socket

/-! ## net.SplitHostPort -/

/-- The part behind the last `c`, with what is before it; `none` if there is no `c`. -/
def lastCut (c : UInt8) : Bytes → Option (Bytes × Bytes)
  | [] => none
  | b :: s =>
    match lastCut c s with
    | some (x, y) => some (b :: x, y)
    | none => if b = c then some ([], s) else none

/-- The part behind the first `c`, with what is before it; `none` if there is no `c`. -/
def firstCut (c : UInt8) : Bytes → Option (Bytes × Bytes)
  | [] => none
  | b :: s =>
    if b = c then some ([], s)
    else match firstCut c s with
      | some (x, y) => some (b :: x, y)
      | none => none

/-- `net.SplitHostPort`, `none` for an error. `0x3a` is the colon, `0x5b` and `0x5d` are the
brackets. -/
def splitHostPort (a : Bytes) : Option (Bytes × Bytes) :=
  match lastCut 0x3a a with
  | none => none
  | some (before, port) =>
    match a with
    | 0x5b :: rest =>
      match firstCut 0x5d rest with
      | none => none
      | some (host, behind) =>
        -- the first ']' is directly before the last ':'
        if 0x5b :: (host ++ [0x5d]) ≠ before then none
        -- no '[' behind the first byte, no ']' behind the first one
        else if 0x5b ∈ rest then none
        else if 0x5d ∈ behind then none
        else some (host, port)
    | _ =>
      if 0x3a ∈ before then none
      else if 0x5b ∈ a then none
      else if 0x5d ∈ a then none
      else some (before, port)

/-! ## Addresses -/

/-- `net.IPAddr` -/
structure IPAddr where
  ip : Bytes
  zone : Bytes
deriving DecidableEq, Repr

/-- The functions of package `net` that ask the system. `none` stands for an error. -/
structure Lib where
  /-- `net.LookupPort("tcp", service)` -/
  lookupPort : Bytes → Option Nat
  /-- `net.DefaultResolver.LookupIPAddr(context.Background(), host)` -/
  lookupIPAddr : Bytes → Option (List IPAddr)
  /-- `net.InterfaceByName(name)`, the index of the interface -/
  interfaceIndex : Bytes → Option Nat

/-- How a function that does not do system calls ends. -/
inductive Res (α : Type) where
  | ok (a : α)
  /-- `log.Fatal`: the process exits -/
  | fatal
  | panic
deriving DecidableEq, Repr

/-- pkg/socket/socket.go:19-38 `parseAddress` -/
def parseAddress (lib : Lib) (address : Bytes) : Res (Bytes × Nat) :=
  match splitHostPort address with
  | none => .fatal
  | some (host, p) =>
    let host := if host = [] then go! "0.0.0.0" else host
    let p := if p = [] then go! "0" else p
    match lib.lookupPort p with
    | none => .fatal
    | some port => .ok (host, port)

/-- pkg/socket/socket.go:42-49 `parseIP`; `ok none` is the nil pointer -/
def parseIP (lib : Lib) (address : Bytes) : Res (Option IPAddr) :=
  match lib.lookupIPAddr address with
  | none => .ok none
  | some [] => .panic
  | some (a :: _) => .ok (some a)

/-- `unix.Sockaddr` -/
inductive Sockaddr where
  /-- `unix.SockaddrInet4` -/
  | inet4 (port : Nat) (addr : Bytes)
  /-- `unix.SockaddrInet6` -/
  | inet6 (port : Nat) (zone : UInt32) (addr : Bytes)
deriving DecidableEq, Repr

/-- pkg/socket/socket.go:52-82 `createSockaddr`; `ok none` stands for the type "err", the types
"ipv4" and "ipv6" are those of the address -/
def createSockaddr (lib : Lib) (address : Bytes) : Res (Option Sockaddr) :=
  match parseAddress lib address with
  | .fatal => .fatal
  | .panic => .panic
  | .ok (host, port) =>
    match parseIP lib host with
    | .fatal => .fatal
    | .panic => .panic
    | .ok none => .ok none
    | .ok (some ipaddr) =>
      match to4 ipaddr.ip with
      | some ipv4 => .ok (some (.inet4 port (ipv4.take 4)))
      | none =>
        match to16 ipaddr.ip with
        | some ipv6 =>
          if ipaddr.zone = [] then .ok (some (.inet6 port 0 (ipv6.take 16)))
          else match lib.interfaceIndex ipaddr.zone with
            | none => .ok none
            | some i => .ok (some (.inet6 port (UInt32.ofNat i) (ipv6.take 16)))
        | none => .ok none

/-! ## System calls -/

/-- A request to the environment. -/
inductive Call where
  /-- `unix.Socket(unix.AF_SMC, unix.SOCK_STREAM, proto)` -/
  | socket (proto : Nat)
  /-- `unix.Connect(fd, sockaddr)` -/
  | connect (fd : Nat) (sa : Sockaddr)
  /-- `unix.Bind(fd, sockaddr)` -/
  | bind (fd : Nat) (sa : Sockaddr)
  /-- `unix.Listen(fd, backlog)` -/
  | listen (fd backlog : Nat)
  /-- `os.NewFile(fd, "")`: creates a file whose finalizer closes the descriptor. It does not fail,
  since `fd` is not negative. -/
  | newFile (fd : Nat)
  /-- `net.FileConn(file)` for a file with descriptor `fd`: duplicates the descriptor -/
  | fileConn (fd : Nat)
  /-- `net.FileListener(file)` for a file with descriptor `fd`: duplicates the descriptor -/
  | fileListener (fd : Nat)
  /-- `unix.Close(fd)` -/
  | close (fd : Nat)
deriving DecidableEq, Repr

/-- The answer: an error number or a value (a descriptor, or nothing of interest). -/
abbrev Answer := Except Nat Nat

/-- What `Dial` and `Listen` return. -/
inductive Result where
  /-- a connection or listener with its own descriptor, no error -/
  | conn (fd : Nat)
  /-- "Error parsing IP" -/
  | badIP
  /-- the error of a call -/
  | error (e : Nat)
deriving DecidableEq, Repr

/-- What a goroutine is still going to do. -/
inductive Prog where
  | ret (r : Result)
  | fatal
  | panic
  | call (c : Call) (k : Answer → Prog)

/-- pkg/socket/socket.go:13-14 `protoIPv4`, `protoIPv6`, chosen in dial.go:24-30 and
listen.go:24-30 -/
def protoOf : Sockaddr → Nat
  | .inet4 .. => 0
  | .inet6 .. => 1

/-- The deferred `unix.Close(fd)` (pkg/socket/dial.go:35, listen.go:34) and the return. -/
def closing (fd : Nat) (r : Result) : Prog := .call (.close fd) fun _ => .ret r

/-- The value and the error returned by `net.FileConn` or `net.FileListener`. -/
def ofAnswer : Answer → Result
  | .ok n => .conn n
  | .error e => .error e

/-- pkg/socket/dial.go:43-46 -/
def dialFile (fd : Nat) : Prog :=
  .call (.newFile fd) fun _ => .call (.fileConn fd) fun a => closing fd (ofAnswer a)

/-- pkg/socket/dial.go:37-46 -/
def dialConnect (fd : Nat) (sa : Sockaddr) : Prog :=
  .call (.connect fd sa) fun
    | .error e => closing fd (.error e)
    | .ok _ => dialFile fd

/-- pkg/socket/dial.go:23-46 -/
def dialSocket (sa : Sockaddr) : Prog :=
  .call (.socket (protoOf sa)) fun
    | .error e => .ret (.error e)
    | .ok fd => dialConnect fd sa

/-- What is done with the result of `createSockaddr`. -/
def withSockaddr (k : Sockaddr → Prog) : Res (Option Sockaddr) → Prog
  | .fatal => .fatal
  | .panic => .panic
  | .ok none => .ret .badIP
  | .ok (some sa) => k sa

/-- pkg/socket/dial.go:12-47 `Dial` -/
def dial (lib : Lib) (address : Bytes) : Prog :=
  withSockaddr dialSocket (createSockaddr lib address)

/-- pkg/socket/listen.go:48-51 -/
def listenFile (fd : Nat) : Prog :=
  .call (.newFile fd) fun _ => .call (.fileListener fd) fun a => closing fd (ofAnswer a)

/-- pkg/socket/listen.go:42-51 -/
def listenListen (fd : Nat) : Prog :=
  .call (.listen fd 1) fun
    | .error e => closing fd (.error e)
    | .ok _ => listenFile fd

/-- pkg/socket/listen.go:36-51 -/
def listenBind (fd : Nat) (sa : Sockaddr) : Prog :=
  .call (.bind fd sa) fun
    | .error e => closing fd (.error e)
    | .ok _ => listenListen fd

/-- pkg/socket/listen.go:23-51 -/
def listenSocket (sa : Sockaddr) : Prog :=
  .call (.socket (protoOf sa)) fun
    | .error e => .ret (.error e)
    | .ok fd => listenBind fd sa

/-- pkg/socket/listen.go:12-52 `Listen` -/
def listen (lib : Lib) (address : Bytes) : Prog :=
  withSockaddr listenSocket (createSockaddr lib address)

/-! ## Descriptors

The process with all its goroutines. Each goroutine makes one call of `Dial` or `Listen`. The
descriptor table says who owns a descriptor. Everybody else opens and closes descriptors
of their own at any time. The garbage collector runs the finalizers of files. Simplification: a
file counts as garbage from `os.NewFile` on, although `net.FileConn` still uses it; this only adds
executions. -/

/-- Who a descriptor belongs to. -/
inductive Owner where
  /-- the socket created by goroutine `t` -/
  | sock (t : Nat)
  /-- the connection or listener returned to goroutine `t` -/
  | conn (t : Nat)
  | other
deriving DecidableEq, Repr

/-- The process. -/
structure Proc where
  progs : List Prog
  table : Nat → Option Owner
  /-- descriptors of files whose finalizer has not run -/
  files : List Nat

/-- What happens next. -/
inductive Act where
  /-- the call of goroutine `t` is answered -/
  | answer (t : Nat) (a : Answer)
  /-- somebody else opens a descriptor -/
  | opens (fd : Nat)
  /-- somebody closes a descriptor that does not belong to the package -/
  | closes (fd : Nat)
  /-- the garbage collector runs the finalizer of a file -/
  | finalize (i : Nat)

/-- The package closes the descriptor number `fd`, which belonged to `owner`. -/
structure Closed where
  fd : Nat
  owner : Option Owner
deriving DecidableEq, Repr

/-- A changed descriptor table. -/
def update (f : Nat → Option Owner) (fd : Nat) (o : Option Owner) : Nat → Option Owner :=
  fun x => if x = fd then o else f x

/-- What a call does to the process if it is answered with `a`; `none` if the kernel does not answer
like that: new descriptors are numbers not in use. -/
def Proc.effect (s : Proc) (t : Nat) (a : Answer) : Call → Option (Proc × List Closed)
  | .socket _ =>
    match a with
    | .error _ => some (s, [])
    | .ok fd => if s.table fd = none then some ({ s with table := update s.table fd (some (.sock t)) }, []) else none
  | .connect .. | .bind .. | .listen .. => some (s, [])
  | .newFile fd => some ({ s with files := s.files ++ [fd] }, [])
  | .fileConn _ | .fileListener _ =>
    match a with
    | .error _ => some (s, [])
    | .ok fd => if s.table fd = none then some ({ s with table := update s.table fd (some (.conn t)) }, []) else none
  | .close fd => some ({ s with table := update s.table fd none }, [⟨fd, s.table fd⟩])

/-- One step of the process. -/
def Proc.step (s : Proc) : Act → Option (Proc × List Closed)
  | .answer t a =>
    match s.progs[t]? with
    | some (.call c k) => do
      let (s, es) ← s.effect t a c
      return ({ s with progs := s.progs.set t (k a) }, es)
    | _ => none
  | .opens fd =>
    if s.table fd = none then some ({ s with table := update s.table fd (some .other) }, []) else none
  | .closes fd =>
    match s.table fd with
    | some .other | some (.conn _) => some ({ s with table := update s.table fd none }, [])
    | _ => none
  | .finalize i =>
    match s.files[i]? with
    | some fd => some ({ s with table := update s.table fd none, files := s.files.eraseIdx i }, [⟨fd, s.table fd⟩])
    | none => none

/-- Steps one after the other. -/
def Proc.run (s : Proc) : List Act → Option (Proc × List Closed)
  | [] => some (s, [])
  | a :: as => do
    let (s, e) ← s.step a
    let (s, es) ← s.run as
    return (s, e ++ es)

end SMC.Socket
