import Verif.Sdk.Model

/-!
# Model of the life of a response of the FFI

The response is a local variable of the closure (`bindgen-ffi/src/application.rs` 112-143), and the
handler is given its address. It is gone when the closure returns, or when its future is dropped:
this is done by the HTTP server when the client closes the connection. The handler may keep the
address and use it from other threads.
-/

namespace Verif.Sdk

/-- A request that is served. -/
structure Life where
  response : FfiResponse := ffiInitial
  /-- Whether the callback has not yet returned (`application.rs` 125). -/
  inCallback : Bool := true
  /-- Milliseconds since the callback has returned. -/
  clock : Nat := 0
  /-- Whether the response is still there. -/
  alive : Bool := true
  /-- Operations on a response that is gone: what they do is undefined. -/
  wild : List FfiOp := []
  /-- What the closure has returned. -/
  result : Option (Except String Response) := none
  deriving Repr

/-- What can happen. -/
inductive LifeEvent
  /-- The handler calls a function of the response, in the callback or from any other thread. -/
  | op (o : FfiOp)
  /-- The callback returns. -/
  | ret
  | pass (ms : Nat)
  /-- The closure is polled. -/
  | poll
  /-- The client closes the connection. -/
  | disconnect
  deriving DecidableEq, Repr

/-- What the closure returns when it is polled (`application.rs` 126-142): `timeout` looks at the channel
first. -/
def Life.polled (l : Life) : Option (Except String Response) :=
  match l.response.sent with
  | some r => some (.ok r)
  | none => if timeout ≤ l.clock then some (.error "Handler timed out") else none

/-- One event (`application.rs` 112-143, `response.rs` 63-67, 71-75, 79-84). A closure that is
executing cannot be dropped. -/
def Life.step (l : Life) : LifeEvent → Life
  | .op o =>
    if l.alive then { l with response := ffiStep l.response o } else { l with wild := l.wild ++ [o] }
  | .ret => { l with inCallback := false }
  | .pass ms => if l.inCallback then l else { l with clock := l.clock + ms }
  | .poll =>
    if l.inCallback then l
    else if l.alive then
      match l.polled with
      | some r => { l with alive := false, result := some r }
      | none => l
    else l
  | .disconnect => if l.inCallback then l else { l with alive := false }

/-- A run. -/
def Life.run (l : Life) (es : List LifeEvent) : Life := es.foldl Life.step l

end Verif.Sdk
