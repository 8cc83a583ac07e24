import Verif.RoCE
import Verif.CLC.Message
/-!
# What a panic leaves behind

In the other files a method that panics has no result. Here the methods `Parse` are modelled a
second time, statement by statement, as code that changes its receiver, so that it is visible
what the receiver is when a panic ends the method. A program that recovers from the
panic can go on using the message.

An assignment changes the receiver after its right hand side has been computed. `make` and `copy` are
separate statements: when computing the second argument of `copy` panics, the new slice is still
all zero.
-/

namespace SMC

/-- Code that changes a value of type `σ`: how it ends and what the value is then. -/
def SGo (σ α : Type) : Type := σ → Go α × σ

namespace SGo

variable {σ τ α : Type}

instance : Monad (SGo σ) where
  pure a := fun s => (.ret [] a, s)
  bind x f := fun s =>
    match x s with
    | (.panic l, s) => (.panic l, s)
    | (.ret l a, s) =>
      match f a s with
      | (.panic l', s) => (.panic (l ++ l'), s)
      | (.ret l' b, s) => (.ret (l ++ l') b, s)

/-- Code that changes nothing. -/
def lift (x : Go α) : SGo σ α := fun s => (x, s)

instance : MonadLift Go (SGo σ) := ⟨lift⟩

/-- An assignment. -/
def assign (f : σ → σ) : SGo σ Unit := fun s => (.ret [] (), f s)

/-- Reading a field. -/
def gets (f : σ → α) : SGo σ α := fun s => (.ret [] (f s), s)

/-- A method of a part of the value. -/
def within (part : σ → τ) (put : τ → σ → σ) (x : SGo τ α) : SGo σ α := fun s =>
  ((x (part s)).1, put (x (part s)).2 s)

/-- The value after code that returns. -/
def final (x : SGo σ α) (s : σ) : Go σ :=
  match x s with
  | (.ret l _, s) => .ret l s
  | (.panic l, _) => .panic l

end SGo

end SMC
