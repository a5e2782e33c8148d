import Verif.Base

/-!
# Model of the socket lock

`handle_socket` (`libs/runtime/core/src/websocket.rs` 133-152) keeps the lock of the socket while it
waits for the next message and while it processes the message; the guard is dropped at the end of
each round of the loop. `send_message` (`libs/runtime/ws-registry/src/registry.rs` 353-361), `listen`
(185-193) and the lost message notice (143-157) take the same lock to write. `tokio::sync::Mutex`
grants the lock in the order of the requests.

One open connection; each transition is one scheduling step. Clocks, failing writes and closing are
left out.
-/

namespace Verif.WebSocket.Lock

/-- Who holds or requests the lock: the receive loop or the writer of message `k`. -/
inductive Who where
  | loop
  | writer (k : Nat)
  deriving Repr, DecidableEq

/-- Where the receive loop is: sleeping 10 ms (136), waiting for the lock (137), waiting for a
message with the lock held (139), running the handler of a message (140), or running a handler that
itself waits for message `k` to be written to this connection. -/
inductive Phase where
  | sleeping
  | queued
  | receiving
  | handling
  | handlerWaits (k : Nat)
  deriving Repr, DecidableEq

/-- State of one connection. -/
structure St where
  phase : Phase
  holder : Option Who
  queue : List Who
  written : List Nat
  deriving Repr, DecidableEq

/-- After the connection has been accepted. -/
def init : St := ⟨.sleeping, none, [], []⟩

/-- Scheduling steps. -/
inductive Step where
  /-- The sleep ends and the loop requests the lock. -/
  | timer
  /-- The lock is free and goes to the first in the queue. -/
  | grant
  /-- The client sends a message. -/
  | frame
  /-- The handler returns and the loop releases the lock. -/
  | handlerDone
  /-- Some task sends message `k` to the connection. -/
  | send (k : Nat)
  /-- The handler of the message being processed sends message `k` to the same connection. -/
  | handlerSend (k : Nat)
  /-- The writer holding the lock writes and releases. -/
  | write
  deriving Repr, DecidableEq

/-- The step relation as a partial function: `none` when the step is not possible. -/
def step (st : St) : Step → Option St
  | .timer =>
    match st.phase with
    | .sleeping => some { st with phase := .queued, queue := st.queue ++ [.loop] }
    | _ => none
  | .grant =>
    match st.holder, st.queue with
    | none, .loop :: q => some { st with phase := .receiving, holder := some .loop, queue := q }
    | none, .writer k :: q => some { st with holder := some (.writer k), queue := q }
    | _, _ => none
  | .frame =>
    match st.phase with
    | .receiving => some { st with phase := .handling }
    | _ => none
  | .handlerDone =>
    match st.phase with
    | .handling => some { st with phase := .sleeping, holder := none }
    | .handlerWaits k =>
      if k ∈ st.written then some { st with phase := .sleeping, holder := none } else none
    | _ => none
  | .send k => some { st with queue := st.queue ++ [.writer k] }
  | .handlerSend k =>
    match st.phase with
    | .handling => some { st with phase := .handlerWaits k, queue := st.queue ++ [.writer k] }
    | _ => none
  | .write =>
    match st.holder with
    | some (.writer k) => some { st with holder := none, written := st.written ++ [k] }
    | _ => none

/-- An execution; `none` when some step was not possible. -/
def run (st : St) : List Step → Option St
  | [] => some st
  | s :: ss => (step st s).bind (fun st' => run st' ss)

end Verif.WebSocket.Lock
