/-!
# Shared base types

Outcome of a modelled Rust or Go function. A Rust function returning
`Result<α, ε>` can produce a value, an error value, or panic; the panic is kept
as a separate outcome so that theorems can speak about it.
-/

namespace Verif

/-- Outcome of running a piece of code: a value, an error value or a panic. -/
inductive Outcome (ε α : Type) where
  | ok (a : α)
  | err (e : ε)
  | panic
  deriving Repr, DecidableEq

namespace Outcome

/-- Sequencing: errors (`?`) and panics stop the computation. -/
def bind {ε α β : Type} (x : Outcome ε α) (f : α → Outcome ε β) : Outcome ε β :=
  match x with
  | ok a => f a
  | err e => err e
  | panic => panic

instance {ε : Type} : Monad (Outcome ε) where
  pure := ok
  bind := bind

@[simp] theorem pure_eq {ε α : Type} (a : α) : (pure a : Outcome ε α) = ok a := rfl
@[simp] theorem bind_ok {ε α β : Type} (a : α) (f : α → Outcome ε β) :
    (Bind.bind (ok a) f : Outcome ε β) = f a := rfl
@[simp] theorem bind_err {ε α β : Type} (e : ε) (f : α → Outcome ε β) :
    (Bind.bind (err e : Outcome ε α) f) = err e := rfl
@[simp] theorem bind_panic {ε α β : Type} (f : α → Outcome ε β) :
    (Bind.bind (panic : Outcome ε α) f) = panic := rfl

/-- The computation produced a value. -/
def isOk {ε α : Type} : Outcome ε α → Bool
  | ok _ => true
  | _ => false

end Outcome

end Verif
