import Verif.Base

/-!
# Model of the WebSocket endpoint

`libs/runtime/core/src/websocket.rs` 94-368, `libs/runtime/core/src/request.rs` 11-23,
`libs/runtime/ws-registry/src/registry.rs` 227-243 (connections) and 346-387 (`send_message` without
cluster), `libs/runtime/core/src/runtime_local_api.rs` 81-102.

Parameters: the JSON parser (`serde_json::from_str`), UTF-8 decoding (`std::str::from_utf8`), the
random id generator. Message ids, logging and tracing spans are left out.
-/

namespace Verif.WebSocket

/-- `serde_json::Value`. The contents of a number do not matter here. An object is an association
list without repeated keys. -/
inductive Json where
  | null
  | bool (b : Bool)
  | num (text : String)
  | str (s : String)
  | arr (items : List Json)
  | obj (fields : List (String × Json))

/-- `std::ops::ControlFlow`. -/
inductive Flow (α : Type) where
  | cont (a : α)
  | brk
  deriving Repr, DecidableEq

/-- Bytes of a frame. -/
abbrev Bytes := List UInt8

/-- `axum::extract::ws::Message`. -/
inductive Message where
  | text (t : String)
  | binary (b : Bytes)
  | close
  | ping
  | pong
  deriving Repr, DecidableEq

/-- `WebSocketAppState`, websocket.rs 29-34 (without the connections), with the external
parsers. -/
structure Endpoint (H : Type) where
  parse : String → Option Json
  utf8 : Bytes → Option String
  routes : String → Option H
  routeKey : String

/-- Body handed to a handler: `JsonMessageInfo::body` or `BinaryMessageInfo::body`. -/
inductive Body where
  | json (v : Json)
  | binary (b : Bytes)

/-- A call of a message handler. -/
structure Dispatch (H : Type) where
  handler : H
  connectionId : String
  body : Body

variable {H : Type}

/-- `resolve_route`, websocket.rs 295-338. -/
def resolveRoute (e : Endpoint H) (text : String) : Flow (Option (String × Json)) :=
  match e.parse text with
  | none => .cont none
  | some data =>
    match data with
    | .obj fields =>
      match fields.lookup e.routeKey with
      | some (.str route) => .cont (some (route, data))
      | some _ => .cont none
      | none => .cont none
    | _ => .cont none

/-- Indexing a slice panics out of bounds. -/
def byteAt (b : Bytes) (i : Nat) : Outcome Empty UInt8 :=
  match b[i]? with
  | some x => .ok x
  | none => .panic

/-- `b[lo..hi]` panics unless `lo ≤ hi ≤ len`. -/
def slice (b : Bytes) (lo hi : Nat) : Outcome Empty Bytes :=
  if lo ≤ hi ∧ hi ≤ b.length then .ok ((b.take hi).drop lo) else .panic

/-- `resolve_binary_route`, websocket.rs 340-368. The inclusive range `1..=n` is `1..n+1`. -/
def resolveBinaryRoute (e : Endpoint H) (b : Bytes) :
    Outcome Empty (Flow (Option (String × Bytes))) := do
  let routeLength ← byteAt b 0
  if routeLength.toNat > b.length - 1 then
    return .cont none
  else
    let routeBytes ← slice b 1 (routeLength.toNat + 1)
    match e.utf8 routeBytes with
    | none => return .cont none
    | some route =>
      let rest ← slice b (routeLength.toNat + 1) b.length
      return .cont (some (route, rest))

/-- `process_message`, websocket.rs 158-221, with the handler calls it makes. The outcome of a
handler is only logged (`handle_json_message` 223-257, `handle_binary_message` 259-293). -/
def processMessage (e : Endpoint H) (connectionId : String) :
    Message → Outcome Empty (Flow Unit × List (Dispatch H))
  | .text t =>
    match resolveRoute e t with
    | .brk => .ok (.brk, [])
    | .cont (some (route, data)) =>
      match e.routes route with
      | some h => .ok (.cont (), [⟨h, connectionId, .json data⟩])
      | none => .ok (.cont (), [])
    | .cont none => .ok (.cont (), [])
  | .binary b => do
    match ← resolveBinaryRoute e b with
    | .brk => return (.brk, [])
    | .cont (some (route, rest)) =>
      match e.routes route with
      | some h => return (.cont (), [⟨h, connectionId, .binary rest⟩])
      | none => return (.cont (), [])
    | .cont none => return (.cont (), [])
  | .close => .ok (.brk, [])
  | .ping => .ok (.cont (), [])
  | .pong => .ok (.cont (), [])

/-- `request_id`, request.rs 11-23: the client's header if there is one, else a generated id. It
becomes the connection id (`handler`, websocket.rs 94-110). -/
def requestId (header : Option String) (generated : String) : String :=
  match header with
  | some v => v
  | none => generated

/-- A socket. -/
abbrev Sock := Nat

/-- `HashMap::insert`. -/
def mapInsert {V : Type} (k : String) (v : V) (m : List (String × V)) : List (String × V) :=
  (k, v) :: m.filter (fun kv => kv.1 != k)

/-- `HashMap::remove`. -/
def mapRemove {V : Type} (k : String) (m : List (String × V)) : List (String × V) :=
  m.filter (fun kv => kv.1 != k)

/-- The connections map of the registry (registry.rs 66), the connection tasks that are running
`handle_socket`, and the handler calls made so far. -/
structure Server (H : Type) where
  registry : List (String × Sock)
  tasks : List (Sock × String)
  dispatched : List (Dispatch H)

/-- No connections. -/
def Server.init : Server H := ⟨[], [], []⟩

/-- What `acquired_socket.recv().await` returns: `Some(Ok(msg))`, `Some(Err(..))` or `None`. -/
inductive Input where
  | msg (m : Message)
  | failed
  | ended
  deriving Repr, DecidableEq

/-- A socket is accepted, or something is received on a socket. -/
inductive Op where
  | connect (s : Sock) (header : Option String) (generated : String)
  | recv (s : Sock) (i : Input)
  deriving Repr, DecidableEq

/-- `handle_socket`, websocket.rs 112-156: `add_connection` when accepted; each received message is
processed; `remove_connection` and the end of the loop on break, error or end of stream. A panic in
`process_message` ends the task at once: the lines after it do not run. -/
def step (e : Endpoint H) (st : Server H) : Op → Server H
  | .connect s header generated =>
    let id := requestId header generated
    { st with registry := mapInsert id s st.registry, tasks := (s, id) :: st.tasks }
  | .recv s i =>
    match st.tasks.lookup s with
    | none => st
    | some id =>
      let tasks' := st.tasks.filter (fun t => t.1 != s)
      match i with
      | .msg m =>
        match processMessage e id m with
        | .ok (.cont _, ds) => { st with dispatched := st.dispatched ++ ds }
        | .ok (.brk, ds) =>
          { registry := mapRemove id st.registry, tasks := tasks'
            dispatched := st.dispatched ++ ds }
        | .err _ => { st with tasks := tasks' }
        | .panic => { st with tasks := tasks' }
      | .failed => { st with registry := mapRemove id st.registry, tasks := tasks' }
      | .ended => { st with registry := mapRemove id st.registry, tasks := tasks' }

/-- A history of the server. -/
def run (e : Endpoint H) (ops : List Op) : Server H := ops.foldl (step e) .init

/-- The endpoint set up by `setup_http_server_app`, application.rs 185-208: the route table is
`HashMap::new()`, whatever handlers (`configured`) the blueprint has, and nothing adds to it
later. -/
def serverEndpoint (parse : String → Option Json) (utf8 : Bytes → Option String)
    (routeKey : String) (_configured : List (String × H)) : Endpoint H :=
  ⟨parse, utf8, fun _ => none, routeKey⟩

/-! ## Sending, single node -/

/-- A message of the batch endpoint. -/
structure OutMsg where
  connectionId : String
  message : String
  deriving Repr, DecidableEq

/-- `send_message` without broadcaster, registry.rs 346-387: the writes performed and whether it
returned `Ok`. `writable` says whether writing to a socket succeeds. -/
def sendMessage (registry : List (String × Sock)) (writable : Sock → Bool) (m : OutMsg) :
    List (Sock × String) × Bool :=
  match registry.lookup m.connectionId with
  | some s => if writable s then ([(s, m.message)], true) else ([], false)
  | none => ([], true)

/-- `websockets_messages_handler`, runtime_local_api.rs 81-102, with a registry: stops at the first
failure. -/
def sendBatch (registry : List (String × Sock)) (writable : Sock → Bool) :
    List OutMsg → List (Sock × String) × Bool
  | [] => ([], true)
  | m :: ms =>
    let r := sendMessage registry writable m
    if r.2 then
      let rest := sendBatch registry writable ms
      (r.1 ++ rest.1, rest.2)
    else (r.1, false)

end Verif.WebSocket
