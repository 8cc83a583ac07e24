import Verif.Lemmas.Poll
import Verif.Props.HttpServer
/-!
# C114: a client that collects the page by flushing it
-/

namespace SMC.Props
open SMC.Http

/-- **C114** What a client has that asks with flush=true again and again, one request at a time and every response sent in full:
the responses one after the other, followed by the buffer, are the bytes that were written outside of the times between a copy
and its reset, every one once and in the order of the writes. -/
theorem C114_collected (n : Nat) (as : List SysAct) (y : Sys) (es : List SysEvent)
    (hs : (Sys.init n).run as = some (y, es)) (hr : OnlyRequestsReset as) (hp : polled es = some .rest) :
    ∃ H, observed H = es ∧ SysLinearizable H ∧ collected es ++ contentsAfter H = outside false H ∧
      ((∀ p ∈ y.buf.pcs, p = .idle) → collected es ++ y.buf.contents = outside false H) := by
  obtain ⟨H, i, rfl⟩ := (SysInv.init n).runs hr hs
  rw [List.nil_append] at i
  have hl : SysLinearizable H := ⟨fun t => by rw [i.inv.phases t]; rfl, i.inv.legal⟩
  have k := PollOK.all hl.1 hl.2 i.resp H [] .rest (by simp) hp
  refine ⟨H, rfl, hl, k.2.2, fun hi => ?_⟩
  rw [i.contents hi]
  exact k.2.2

/-- **C114** The client has all output, in its order, exactly if nothing was written between a copy and its reset; otherwise
exactly these bytes are missing. -/
theorem C114_exact (n : Nat) (as : List SysAct) (y : Sys) (es : List SysEvent)
    (hs : (Sys.init n).run as = some (y, es)) (hr : OnlyRequestsReset as) (hp : polled es = some .rest)
    (hi : ∀ p ∈ y.buf.pcs, p = .idle) :
    ∃ H, observed H = es ∧ SysLinearizable H ∧ (collected es ++ y.buf.contents = written H ↔ inside false H = []) ∧
      (collected es ++ y.buf.contents).length + (inside false H).length = (written H).length := by
  obtain ⟨H, h1, h2, _, h4⟩ := C114_collected n as y es hs hr hp
  rw [h4 hi]
  have k := outside_inside false H
  refine ⟨H, h1, h2, ⟨fun e => ?_, k.2⟩, k.1⟩
  rw [e] at k
  exact List.eq_nil_of_length_eq_zero (by omega)

/-- **C114** A single writer that does not write while a request is answered: the responses one after the other, followed by
the buffer, are what it gave to `Write`, in the order of its calls. This speaks of nothing but what can be observed. -/
theorem C114_calm (n w : Nat) (as : List SysAct) (y : Sys) (es : List SysEvent)
    (hs : (Sys.init n).run as = some (y, es)) (hr : OnlyRequestsReset as) (b : Bool) (hc : calm w es = some (.rest, b))
    (hi : ∀ p ∈ y.buf.pcs, p = .idle) : collected es ++ y.buf.contents = given es := by
  obtain ⟨H, i, rfl⟩ := (SysInv.init n).runs hr hs
  rw [List.nil_append] at i
  have hl : SysLinearizable H := ⟨fun t => by rw [i.inv.phases t]; rfl, i.inv.legal⟩
  have k := PollOK.all hl.1 hl.2 i.resp H [] .rest (by simp) (polled_of_calm hc)
  have c := CalmOK.all (w := w) hl.1 hl.2 i.resp H [] .rest b (by simp) hc
  rw [i.contents hi, c.bytes _ (i.inv.allIdle hi w), k.2.2, (outside_inside false H).2 c.none]
  exact (List.append_nil _).symm

/-- Goroutine 0 writes "ab", goroutine 1 answers a request with flush=true, goroutine 0 writes "c" behind it, goroutine 2
answers another one, goroutine 0 writes "d". With `m`, goroutine 0 also writes "x" behind the first copy. -/
def polls (m : Bool) : List SysAct :=
  let wr : UInt8 → List SysAct := fun c => [.call 0 (.write [c])] ++ List.replicate 6 (.run 0 0)
  [.call 0 (.write [0x61, 0x62])] ++ List.replicate 7 (.run 0 0) ++
  [.request 1 flushTrue] ++ List.replicate 8 (.run 1 0) ++ (if m then wr 0x78 else []) ++
  [.serve 1 2, .check 1] ++ List.replicate 4 (.run 1 0) ++ wr 0x63 ++
  [.request 2 flushTrue] ++ List.replicate 7 (.run 2 0) ++ [.serve 2 1, .check 2] ++ List.replicate 4 (.run 2 0) ++ wr 0x64

/-- The hypotheses of all three theorems hold, and the client gets everything. -/
example : OnlyRequestsReset (polls false) ∧
    ((Sys.init 3).run (polls false)).map (fun x => (polled x.2, calm 0 x.2, x.1.buf.pcs)) =
      some (some .rest, some (.rest, false), [.idle, .idle, .idle]) ∧
    ((Sys.init 3).run (polls false)).map (fun x => (collected x.2, x.1.buf.contents, given x.2)) =
      some (go! "abc", go! "d", go! "abcd") := by
  refine ⟨by intro t; simp [polls], by decide +kernel, by decide +kernel⟩

/-- The hypotheses of the first two hold, and the client misses the "x". -/
example : OnlyRequestsReset (polls true) ∧
    ((Sys.init 3).run (polls true)).map (fun x => (polled x.2, calm 0 x.2, x.1.buf.pcs)) =
      some (some .rest, none, [.idle, .idle, .idle]) ∧
    ((Sys.init 3).run (polls true)).map (fun x => (collected x.2, x.1.buf.contents, given x.2)) =
      some (go! "abc", go! "d", go! "abxcd") := by
  refine ⟨by intro t; simp [polls], by decide +kernel, by decide +kernel⟩

/-- A response that was not sent in full, and a request that does not flush, are not those of such a client. -/
example : polled [.buf (.call 1 .copy), .buf (.ret 1 (.copied [1, 2])), .response 1 [1]] = none ∧
    polled [.buf (.call 1 .copy), .buf (.ret 1 (.copied [1, 2])), .response 1 [1, 2], .buf (.call 1 .copy)] = none ∧
    polled [.buf (.call 1 .copy), .buf (.call 2 .copy)] = none := by decide +kernel

end SMC.Props
