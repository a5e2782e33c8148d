import Verif.Base

/-!
# Model of the acknowledgement worker

`libs/runtime/ws-registry/src/acks.rs` 24-270 and the loop of the registry that reacts to its
actions, `registry.rs` 120-162.

Instants are natural numbers of milliseconds; `duration_since` saturates at zero like natural
subtraction. Channels are not bounded and do not close.
-/

namespace Verif.Acks

/-- `AckStatus`, acks.rs 27-36. -/
inductive Status where
  | pending (message : String) (informClients : List String)
  | received
  | lost
  deriving Repr, DecidableEq

/-- `DetailedAckStatus`, acks.rs 62-67. -/
structure Entry where
  status : Status
  attempts : Nat
  last : Option Nat
  deriving Repr, DecidableEq

/-- `MessageAction` and `ResendMessageInfo`, acks.rs 38-54. -/
inductive Action where
  | resend (clientId messageId message : String) (informClients : List String)
  | lost (messageId : String) (informClients : List String)
  deriving Repr, DecidableEq

/-- The message an action is about, acks.rs 247-255. -/
def Action.messageId : Action → String
  | .resend _ m _ _ => m
  | .lost m _ => m

/-- `Worker`, acks.rs 71-82, after defaults have been applied. -/
structure Config where
  timeoutMs : Nat
  maxAttempts : Nat
  deriving Repr, DecidableEq

/-- The map of statuses, the actions computed by the periodic check and not sent yet, and the
actions sent. -/
structure State where
  acks : List (String × Entry)
  todo : List Action
  emitted : List Action
  deriving Repr, DecidableEq

/-- Nothing sent yet. -/
def State.init : State := ⟨[], [], []⟩

/-- `HashMap::insert`. -/
def mapInsert (k : String) (v : Entry) (m : List (String × Entry)) : List (String × Entry) :=
  (k, v) :: m.filter (fun kv => kv.1 != k)

/-- `HashMap::remove`. -/
def mapRemove (k : String) (m : List (String × Entry)) : List (String × Entry) :=
  m.filter (fun kv => kv.1 != k)

/-- `record_ack`, acks.rs 185-207. -/
def recordAck (acks : List (String × Entry)) (id : String) (status : Status) (now : Nat) :
    List (String × Entry) :=
  let existing := acks.lookup id
  let entry :=
    match status with
    | .pending _ _ =>
      { status := status
        attempts := (match existing with | some e => e.attempts | none => 0) + 1
        last := some now : Entry }
    | _ =>
      { status := status
        attempts := match existing with | some e => e.attempts | none => 0
        last := existing.bind (·.last) : Entry }
  mapInsert id entry acks

/-- The action due for one entry of the map, acks.rs 221-242. -/
def actionFor (cfg : Config) (now : Nat) (id : String) (e : Entry) : Option Action :=
  match e.status with
  | .pending message clients =>
    match e.last with
    | some last =>
      if now - last > cfg.timeoutMs then
        if e.attempts ≥ cfg.maxAttempts then some (.lost id clients)
        else some (.resend id id message clients)
      else none
    | none => none
  | _ => none

/-- The steps of the worker: a status message is recorded (147-149), the periodic check computes the
actions with the lock held (216-242), one action is sent and, if it is a loss, the entry removed
(246-269). The check does not start again before all its actions have been sent. -/
inductive Op where
  | status (id : String) (s : Status) (now : Nat)
  | check (now : Nat)
  | emit
  deriving Repr, DecidableEq

/-- One step. -/
def step (cfg : Config) (st : State) : Op → State
  | .status id s now => { st with acks := recordAck st.acks id s now }
  | .check now =>
    match st.todo with
    | [] => { st with todo := st.acks.filterMap (fun kv => actionFor cfg now kv.1 kv.2) }
    | _ :: _ => st
  | .emit =>
    match st.todo with
    | [] => st
    | a :: rest =>
      { acks := match a with
          | .lost id _ => mapRemove id st.acks
          | .resend _ _ _ _ => st.acks
        todo := rest
        emitted := st.emitted ++ [a] }

/-- A history of the worker. -/
def run (cfg : Config) (ops : List Op) : State := ops.foldl (step cfg) .init

/-! ## The worker together with the registry, nothing interleaving

A message is sent once with `send_message`, which records it as pending (registry.rs 362-370). On a
tick the worker computes and sends its actions, and the registry answers each resend by calling
`send_message` again (registry.rs 122-139), which records it as pending again. It is assumed that
the address of the resend is not a connection of this node (see C20) and that the registry has
reacted to all actions before the next event. -/

/-- Events of the closed loop. -/
inductive Event where
  | send (id message : String) (informClients : List String) (now : Nat)
  | ack (id : String) (now : Nat)
  | tick (now : Nat)
  deriving Repr, DecidableEq

/-- Sending all computed actions; every resend is recorded as pending. -/
def drain (cfg : Config) (now : Nat) : Nat → State → State
  | 0, st => st
  | n + 1, st =>
    match st.todo with
    | [] => st
    | a :: _ =>
      let st := step cfg st .emit
      let st := match a with
        | .resend _ m text clients => step cfg st (.status m (.pending text clients) now)
        | .lost _ _ => st
      drain cfg now n st

/-- One event. -/
def event (cfg : Config) (st : State) : Event → State
  | .send id message clients now => step cfg st (.status id (.pending message clients) now)
  | .ack id now => step cfg st (.status id .received now)
  | .tick now =>
    let st := step cfg st (.check now)
    drain cfg now st.todo.length st

/-- A history of the closed loop. -/
def loop (cfg : Config) (es : List Event) : State := es.foldl (event cfg) .init

end Verif.Acks
