import Verif.Base

/-!
# Model of message passing between nodes

`libs/runtime/ws-registry/src/registry.rs` (`send_message` 346-387, `listen` 172-225,
`has_received_ack` 256-270, `record_received_ack` 272-279) together with the Redis channel of
`libs/runtime/ws-redis/src/pubsub.rs` 86-165.

Nodes are numbered. Each node has an outgoing channel, from which a task publishes to the Redis
channel, and an incoming one. Publishing puts the message in the incoming channel of every
subscribed node, the publisher included, in the same order; nothing is lost. Filtering
(pubsub.rs 115-130) and handling (registry.rs 176-222) of an incoming message are one step, because
nothing observes a message between the two. The set of connections of each node is fixed.
Re-sending by the acknowledgement worker (modelled in `Verif.Acks`) appears here as a further send
with the same message id.
-/

namespace Verif.Cluster

/-- `Message`, `WebSocketMessage` and `AckMessage`, ws-registry `types.rs` 9-34; the list of clients
to inform is left out. -/
inductive Body where
  | webSocket (connection messageId sourceNode message : String)
  | ack (messageId messageNode : String)
  deriving Repr, DecidableEq

/-- `MessageWithSourceNode`, pubsub.rs 168-171. -/
structure Wire where
  sourceNode : String
  message : Body
  deriving Repr, DecidableEq

/-- A write to a socket, and whether it succeeded. -/
structure Write where
  node : Nat
  connection : String
  messageId : String
  message : String
  ok : Bool
  deriving Repr, DecidableEq

/-- The nodes of the cluster: how many, their names, the connections open on each. -/
structure Setup where
  n : Nat
  name : Nat → String
  conns : Nat → List String

/-- Channels, recorded acknowledgements (a log for each node) and writes to sockets. -/
structure State where
  outgoing : Nat → List Body
  incoming : Nat → List Wire
  received : Nat → List String
  writes : List Write

/-- Nothing sent. -/
def State.init : State := ⟨fun _ => [], fun _ => [], fun _ => [], []⟩

/-- Function update. -/
def upd {α : Type} (f : Nat → α) (i : Nat) (v : α) : Nat → α := fun k => if k = i then v else f k

/-- Steps: a node is asked to send a message; a node's task publishes its next outgoing message; a
node handles its next incoming message. `ok` is the result of a socket write, if there is one. -/
inductive Op where
  | send (node : Nat) (connection messageId message : String) (ok : Bool)
  | publish (node : Nat)
  | deliver (node : Nat) (ok : Bool)
  deriving Repr, DecidableEq

/-- `send_message`, registry.rs 346-387, with a broadcaster. The result of the call and waiting for
the acknowledgement are not modelled. -/
def send (su : Setup) (st : State) (i : Nat) (c id m : String) (ok : Bool) : State :=
  if (su.conns i).contains c then { st with writes := st.writes ++ [⟨i, c, id, m, ok⟩] }
  else { st with outgoing := upd st.outgoing i (st.outgoing i ++ [.webSocket c id (su.name i) m]) }

/-- The forwarding branch of the task, pubsub.rs 138-156. -/
def publish (su : Setup) (st : State) (i : Nat) : State :=
  match st.outgoing i with
  | [] => st
  | b :: rest =>
    { st with
      outgoing := upd st.outgoing i rest
      incoming := fun k => if k < su.n then st.incoming k ++ [⟨su.name i, b⟩] else st.incoming k }

/-- `should_send`, pubsub.rs 115-124. -/
def accepts (name : String) (w : Wire) : Bool :=
  w.sourceNode != name &&
    (match w.message with
      | .ack _ node => node == name
      | .webSocket _ _ _ _ => true)

/-- One message in `listen`, registry.rs 176-222. -/
def handle (su : Setup) (st : State) (i : Nat) (ok : Bool) : Body → State
  | .webSocket c id source m =>
    if (st.received i).contains id then st
    else if (su.conns i).contains c then
      { st with
        writes := st.writes ++ [⟨i, c, id, m, ok⟩]
        outgoing := upd st.outgoing i (st.outgoing i ++ [.ack id source]) }
    else st
  | .ack id _ => { st with received := upd st.received i (st.received i ++ [id]) }

/-- The receiving branch of the task (pubsub.rs 103-137) followed by `listen`. -/
def deliver (su : Setup) (st : State) (i : Nat) (ok : Bool) : State :=
  match st.incoming i with
  | [] => st
  | w :: rest =>
    let st := { st with incoming := upd st.incoming i rest }
    if accepts (su.name i) w then handle su st i ok w.message else st

/-- One step; nodes that do not exist do nothing. -/
def step (su : Setup) (st : State) : Op → State
  | .send i c id m ok => if i < su.n then send su st i c id m ok else st
  | .publish i => if i < su.n then publish su st i else st
  | .deliver i ok => if i < su.n then deliver su st i ok else st

/-- A history of the cluster. -/
def run (su : Setup) (ops : List Op) : State := ops.foldl (step su) .init

end Verif.Cluster
