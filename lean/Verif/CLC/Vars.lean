import Verif.CLC.Message
/-!
# Model of the exported variables of pkg/clc

`SMCREyecatcher`, `SMCDEyecatcher` (pkg/clc/eyecatcher.go:6-9) and `SMCOption`
(pkg/clc/tcp_option.go:9-12) are variables that hold slices. Everybody can write to their bytes or
assign other slices. The rest of the model takes them as constants; here they are state, and the
functions that read them take their current contents as arguments.
-/

namespace SMC.CLC

/-- pkg/clc/eyecatcher.go:7, :8 and pkg/clc/tcp_option.go:11 -/
inductive Var where
  | smcr
  | smcd
  | option
deriving DecidableEq, Repr

/-- A slice: `len` bytes from `off` on in the array number `arr`, with capacity `cap`. -/
structure Ref where
  arr : Nat
  off : Nat
  len : Nat
  cap : Nat
deriving DecidableEq, Repr

/-- The memory and the three variables. -/
structure Vars where
  arrays : List Bytes
  smcr : Ref
  smcd : Ref
  option : Ref
deriving DecidableEq, Repr

/-- The state after the initialisation of the package, pkg/clc/eyecatcher.go:6-9 and
pkg/clc/tcp_option.go:9-12: `SMCOption` is the same slice as `SMCREyecatcher`. -/
def Vars.init : Vars := ⟨[SMCREyecatcher, SMCDEyecatcher], ⟨0, 0, 4, 4⟩, ⟨1, 0, 4, 4⟩, ⟨0, 0, 4, 4⟩⟩

/-- The slice in a variable (pkg/clc/eyecatcher.go:7, :8, pkg/clc/tcp_option.go:11). -/
def Vars.get (s : Vars) : Var → Ref
  | .smcr => s.smcr
  | .smcd => s.smcd
  | .option => s.option

/-- The variable `v` (pkg/clc/eyecatcher.go:7, :8, pkg/clc/tcp_option.go:11) gets another slice. -/
def Vars.set (s : Vars) (v : Var) (r : Ref) : Vars :=
  match v with
  | .smcr => { s with smcr := r }
  | .smcd => { s with smcd := r }
  | .option => { s with option := r }

/-- What a reader of the variable (pkg/clc/eyecatcher.go:20, :23, :32, :35,
pkg/clc/tcp_option.go:19) finds. -/
def Vars.bytes (s : Vars) (v : Var) : Bytes := (((s.arrays[(s.get v).arr]?).getD []).drop (s.get v).off).take (s.get v).len

/-- Overwriting the bytes of an array from `i` on. -/
def Vars.store (s : Vars) (a i : Nat) (bs : Bytes) : Vars :=
  { s with arrays := s.arrays.modify a fun x => x.take i ++ bs ++ x.drop (i + bs.length) }

/-- What a program that imports pkg/clc can do to the variables (pkg/clc/eyecatcher.go:6-9,
pkg/clc/tcp_option.go:9-12). -/
inductive VarAct where
  /-- `v[i] = b` -/
  | poke (v : Var) (i : Nat) (b : UInt8)
  /-- `v = []byte{...}` -/
  | fresh (v : Var) (bs : Bytes)
  /-- `v = w[lo:hi]` -/
  | slice (v w : Var) (lo hi : Nat)
  /-- `v = append(v, ...)`; `spare` is the spare capacity of an array allocated by it -/
  | append (v : Var) (bs : Bytes) (spare : Nat)
deriving DecidableEq, Repr

/-- One statement on the variables (pkg/clc/eyecatcher.go:6-9, pkg/clc/tcp_option.go:9-12); `none`
if it panics. -/
def Vars.step (s : Vars) : VarAct → Option Vars
  | .poke v i b => if i < (s.get v).len then some (s.store (s.get v).arr ((s.get v).off + i) [b]) else none
  | .fresh v bs => some ({ s with arrays := s.arrays ++ [bs] }.set v ⟨s.arrays.length, 0, bs.length, bs.length⟩)
  | .slice v w lo hi =>
    if lo ≤ hi ∧ hi ≤ (s.get w).cap then
      some (s.set v ⟨(s.get w).arr, (s.get w).off + lo, hi - lo, (s.get w).cap - lo⟩)
    else none
  | .append v bs spare =>
    let r := s.get v
    if r.len + bs.length ≤ r.cap then
      some ((s.store r.arr (r.off + r.len) bs).set v { r with len := r.len + bs.length })
    else
      some ({ s with arrays := s.arrays ++ [s.bytes v ++ bs ++ zeros spare] }.set v
        ⟨s.arrays.length, 0, r.len + bs.length, r.len + bs.length + spare⟩)

/-- Statements one after the other. -/
def Vars.run (s : Vars) : List VarAct → Option Vars
  | [] => some s
  | a :: as => (s.step a).bind fun s => s.run as

/-! ## The functions that read the variables -/

/-- pkg/clc/eyecatcher.go:19-28 `Eyecatcher.String` -/
def Vars.eyecatcherStr (s : Vars) (e : Bytes) : Bytes :=
  if e = s.bytes .smcr then go! "SMC-R"
  else if e = s.bytes .smcd then go! "SMC-D"
  else go! "Unknown"

/-- pkg/clc/eyecatcher.go:30-39 `HasEyecatcher` -/
def Vars.hasEyecatcher (s : Vars) (buf : Slice) : Go Bool := do
  if (← buf.sto EyecatcherLen).vis = s.bytes .smcr then
    pure true
  else if (← buf.sto EyecatcherLen).vis = s.bytes .smcd then
    pure true
  else
    pure false

/-- pkg/clc/trailer.go:13-21 `Trailer.Parse` -/
def Vars.trailerParse (s : Vars) (t : Bytes) (buf : Slice) : Go Bytes := do
  let t := copyInto t (← lastBytes buf).vis
  if (← s.hasEyecatcher ⟨t, []⟩) = false then
    Go.log (go! "Error parsing CLC message: invalid trailer")
    errDump (← lastBytes buf)
    pure t
  else
    pure t

/-- pkg/clc/tcp_option.go:14-25 `CheckSMCOption` -/
def Vars.checkSMCOption (s : Vars) : List TCPOption → Bool
  | [] => false
  | opt :: opts =>
    if opt.OptionType = 254 ∧ opt.OptionLength = 6 ∧ opt.OptionData = s.bytes .option then true
    else s.checkSMCOption opts

/-- pkg/clc/message.go:22-79 `NewMessage` -/
def Vars.newMessage (s : Vars) (buf : Slice) : Go (Option Message × UInt16) := do
  if (← s.hasEyecatcher buf) = false then
    pure (none, 0)
  else
    let length ← be16 (← buf.sub 5 7)
    if length.toNat > MaxMessageSize then
      Go.log (go! "Error parsing CLC header: message too big")
      errDump (← buf.sto HeaderLen)
      pure (none, 0)
    else
      let typ ← buf.idx 4
      let ver := (← buf.idx 7) >>> 4
      let path := (← buf.idx 7) &&& 0b00000011
      if typ = TypeProposal then
        if ver = SMCv2 then pure (some (.proposalV2 {}), length)
        else pure (some (.proposal {}), length)
      else if typ = TypeAccept then
        if path = SMCTypeR then pure (some (.acceptSMCR {}), length)
        else if path = SMCTypeD then
          if ver = SMCv2 then pure (some (.acceptSMCDv2 {}), length)
          else pure (some (.acceptSMCD {}), length)
        else pure (none, 0)
      else if typ = TypeConfirm then
        if path = SMCTypeR then pure (some (.confirmSMCR {}), length)
        else if path = SMCTypeD then
          if ver = SMCv2 then pure (some (.confirmSMCDv2 {}), length)
          else pure (some (.confirmSMCD {}), length)
        else pure (none, 0)
      else if typ = TypeDecline then
        if ver = SMCv2 then pure (some (.declineV2 {}), length)
        else pure (some (.decline {}), length)
      else pure (none, 0)

end SMC.CLC
