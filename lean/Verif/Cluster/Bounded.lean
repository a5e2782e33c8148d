import Verif.Cluster.Model

/-!
# Model of one node with its bounded channels

`libs/runtime/ws-redis/src/pubsub.rs` 86-165 and `libs/runtime/ws-registry/src/registry.rs` 172-225 and
360-382: the task that talks to Redis, the task of `listen` and the calls of `send_message`, with the
channels between them, which have room for 1024 messages. Sending to a full channel waits. The rest of
the cluster may publish whatever it likes. Left out: locks of connections (`Verif.WebSocket.Lock`),
failures of Redis and of sockets, messages to connections of the same node.
-/

namespace Verif.Cluster.Bounded

open Verif.Cluster

/-- What is fixed: the room in the channels (pubsub.rs 96 and 98), the name of the node, its
connections. -/
structure Cfg where
  cap : Nat
  name : String
  conns : List String

/-- A node. `redis` is the unbounded channel of pubsub.rs 89; `task` is a message that the task has
taken from Redis and hands over (pubsub.rs 125-126); `incoming` and `outgoing` are the bounded channels;
`listener` is an acknowledgement that `listen` sends (registry.rs 202-209); `waiting` are the calls of
`send_message` before their message is in the channel (registry.rs 371-379). -/
structure Node where
  redis : List Wire
  task : Option Body
  incoming : List Body
  listener : Option Body
  outgoing : List Body
  waiting : List Body
  received : List String
  writes : List (String × String × String)
  published : List Body

/-- Nothing happened. -/
def Node.init : Node := ⟨[], none, [], none, [], [], [], [], []⟩

/-- What happens: a message of some node arrives; `send_message` is called; a call of it finds room; the
task takes a message from Redis, hands it over, or publishes one; `listen` takes a message or has sent
its acknowledgement. -/
inductive Act where
  | arrive (w : Wire)
  | call (connection messageId message : String)
  | enter
  | take
  | handOver
  | publish
  | listen
  | ack
  deriving Repr, DecidableEq

/-- What the node does by itself. -/
def Act.own : Act → Bool
  | .arrive _ => false
  | .call _ _ _ => false
  | _ => true

/-- One message in `listen`, registry.rs 176-222. -/
def listen (cfg : Cfg) (n : Node) : Body → Node
  | .webSocket c id source m =>
    if n.received.contains id then n
    else if cfg.conns.contains c then
      { n with writes := n.writes ++ [(c, id, m)], listener := some (.ack id source) }
    else n
  | .ack id _ => { n with received := n.received ++ [id] }

/-- One step; `none` if it cannot happen now. The task waits while it hands a message over, `listen`
waits while it sends an acknowledgement. -/
def step (cfg : Cfg) (n : Node) : Act → Option Node
  | .arrive w => some { n with redis := n.redis ++ [w] }
  | .call c id m => some { n with waiting := n.waiting ++ [.webSocket c id cfg.name m] }
  | .enter =>
    match n.waiting with
    | b :: rest =>
      if n.outgoing.length < cfg.cap then
        some { n with waiting := rest, outgoing := n.outgoing ++ [b] }
      else none
    | [] => none
  | .take =>
    match n.task, n.redis with
    | none, w :: rest =>
      if accepts cfg.name w then some { n with redis := rest, task := some w.message }
      else some { n with redis := rest }
    | _, _ => none
  | .handOver =>
    match n.task with
    | some b =>
      if n.incoming.length < cfg.cap then
        some { n with task := none, incoming := n.incoming ++ [b] }
      else none
    | none => none
  | .publish =>
    match n.task, n.outgoing with
    | none, b :: rest => some { n with outgoing := rest, published := n.published ++ [b] }
    | _, _ => none
  | .listen =>
    match n.listener, n.incoming with
    | none, b :: rest => some (listen cfg { n with incoming := rest } b)
    | _, _ => none
  | .ack =>
    match n.listener with
    | some b =>
      if n.outgoing.length < cfg.cap then
        some { n with listener := none, outgoing := n.outgoing ++ [b] }
      else none
    | none => none

/-- A history, if it can happen. -/
def run (cfg : Cfg) : List Act → Node → Option Node
  | [], n => some n
  | a :: as, n => (step cfg n a).bind (run cfg as)

end Verif.Cluster.Bounded
