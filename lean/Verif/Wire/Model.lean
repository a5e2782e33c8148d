import Verif.Json
import Verif.Blueprint.Types
import Verif.Transform.Model

/-!
# Model of what goes over the wire between the runtime and the handlers executable

`libs/runtime/core/src/types.rs` (events and results), `libs/runtime/ws-registry/src/types.rs` and
`libs/runtime/ws-redis/src/pubsub.rs` (messages between nodes), and the configuration served by the
local API, `libs/runtime/core/src/runtime_local_api.rs`,
`libs/runtime/workflow/src/workflow_runtime_local_api.rs` and
`libs/runtime/workflow/src/transform_config.rs`.

The types derive `Serialize` and `Deserialize`; derived code is not in the repository. What is
modelled is the documented behaviour of serde's derive macro, from and to JSON trees: unknown
fields are ignored, an `Option` field may be missing or null, any other field must be present, a
field given twice is an error, and a sequence with one element for each field in the order of
declaration is accepted in place of an object. Not modelled: JSON as text, the nesting limit, and
the treatment of repeated keys inside a `serde_json::Value`, which is taken over as it is. A
`HashMap` is an association list with distinct keys.
-/

namespace Verif.Wire

open Verif

/-- Texts. -/
abbrev Str := List Char

variable {F : Type}

/-! ## Derived code -/

/-- The fields of a struct as given: those of an object in which none of the names occurs twice, or
the elements of a sequence of the right length. -/
def entries (names : List Str) : Json F → Option (List (Str × Json F))
  | .obj m =>
    if names.all fun k => decide ((m.filter fun e => decide (e.1 = k)).length ≤ 1) then some m
    else none
  | .arr l => if l.length = names.length then some (names.zip l) else none
  | _ => none

/-- A field that must be present. -/
def req {A : Type} (m : List (Str × Json F)) (k : String) (d : Json F → Option A) : Option A :=
  match m.lookup k.toList with
  | some v => d v
  | none => none

/-- `Option<T>`: null is `None`. -/
def nullable {A : Type} (d : Json F → Option A) : Json F → Option (Option A)
  | .null => some none
  | v => (d v).map some

/-- A field of type `Option<T>`, which may be missing. -/
def opt {A : Type} (m : List (Str × Json F)) (k : String) (d : Json F → Option A) :
    Option (Option A) :=
  match m.lookup k.toList with
  | none => some none
  | some v => nullable d v

/-- `String`. -/
def str : Json F → Option Str
  | .str s => some s
  | _ => none

/-- `bool`. -/
def bool : Json F → Option Bool
  | .bool b => some b
  | _ => none

/-- An unsigned integer of `n` bits. -/
def uint (n : Nat) : Json F → Option Nat
  | .int i => if 0 ≤ i ∧ i < 2 ^ n then some i.toNat else none
  | _ => none

/-- `serde_json::Value`. -/
def any (v : Json F) : Option (Json F) := some v

/-- All elements, or nothing. -/
def all {A : Type} (d : Json F → Option A) : List (Json F) → Option (List A)
  | [] => some []
  | v :: rest =>
    match d v, all d rest with
    | some a, some as => some (a :: as)
    | _, _ => none

/-- `Vec<T>`. -/
def list {A : Type} (d : Json F → Option A) : Json F → Option (List A)
  | .arr l => all d l
  | _ => none

/-- `HashMap::insert`. -/
def insert {A : Type} (m : List (Str × A)) (k : Str) (a : A) : List (Str × A) :=
  m.filter (fun e => decide (e.1 ≠ k)) ++ [(k, a)]

/-- The loop that fills a `HashMap`. -/
def fill {A : Type} (d : Json F → Option A) :
    List (Str × Json F) → List (Str × A) → Option (List (Str × A))
  | [], acc => some acc
  | (k, v) :: rest, acc =>
    match d v with
    | some a => fill d rest (insert acc k a)
    | none => none

/-- `HashMap<String, T>`. -/
def map {A : Type} (d : Json F → Option A) : Json F → Option (List (Str × A))
  | .obj m => fill d m []
  | _ => none

/-- A fieldless variant of an enum: its name, or an object with its name and null. -/
def variant : Json F → Option Str
  | .str s => some s
  | .obj [(k, .null)] => some k
  | _ => none

/-- A field that is left out when it is `None`, `skip_serializing_if = "Option::is_none"`. -/
def skipNone {A : Type} (k : String) (w : A → Json F) : Option A → List (Str × Json F)
  | none => []
  | some a => [(k.toList, w a)]

/-- A `HashMap` of texts, written. -/
def wMap (m : List (Str × Str)) : Json F := .obj (m.map fun e => (e.1, .str e.2))

/-- A `Vec` of texts, written. -/
def wList (l : List Str) : Json F := .arr (l.map .str)

/-- A `HashMap` of `Vec`s of texts, written. -/
def wMultiMap (m : List (Str × List Str)) : Json F := .obj (m.map fun e => (e.1, wList e.2))

/-! ## Events -/

/-- `enum EventType`, types.rs 20-31. -/
inductive EventType where
  | httpRequest | wsMessage | consumerMessage | scheduleMessage | eventMessage
  deriving Repr, DecidableEq

/-- The names in the `rename` attributes, types.rs 21-30. -/
def EventType.name : EventType → Str
  | .httpRequest => "httpRequest".toList
  | .wsMessage => "wsMessage".toList
  | .consumerMessage => "consumerMessage".toList
  | .scheduleMessage => "scheduleMessage".toList
  | .eventMessage => "eventMessage".toList

/-- The event types, types.rs 20-31. -/
def EventType.all : List EventType :=
  [.httpRequest, .wsMessage, .consumerMessage, .scheduleMessage, .eventMessage]

/-- `Deserialize for EventType`, types.rs 19-31. -/
def EventType.decode (v : Json F) : Option EventType :=
  match variant v with
  | some s => EventType.all.find? fun t => decide (t.name = s)
  | none => none

/-- `struct HttpRequestEventData`, types.rs 43-64. -/
structure HttpRequest where
  method : Str
  path : Str
  route : Str
  pathParams : List (Str × Str)
  queryParams : List (Str × Str)
  multiQueryParams : List (Str × List Str)
  headers : List (Str × Str)
  multiHeaders : List (Str × List Str)
  body : Option Str
  sourceIp : Str
  requestId : Str
  deriving Repr, DecidableEq

/-- `struct WebSocketEventData`, types.rs 67-77. -/
structure WsMessage where
  route : Str
  connectionId : Str
  sourceIp : Str
  requestId : Option Str
  message : Str
  deriving Repr, DecidableEq

/-- `struct ConsumerMessage`, types.rs 86-94. -/
structure ConsumerMessage (F : Type) where
  messageId : Str
  body : Str
  source : Str
  messageAttributes : Json F
  vendor : Json F

/-- `struct ConsumerEventData`, types.rs 80-83. -/
structure ConsumerEvent (F : Type) where
  messages : List (ConsumerMessage F)
  vendor : Json F

/-- `struct ScheduleEventData`, types.rs 97-104. -/
structure ScheduleEvent (F : Type) where
  scheduleId : Str
  messageId : Str
  schedule : Str
  vendor : Json F

/-- `struct EventMessageEventData`, types.rs 107-118. -/
structure EventMessage (F : Type) where
  body : Str
  source : Str
  messageId : Option Str
  messageAttributes : Option (Json F)
  vendor : Json F

/-- `enum EventDataPayload`, types.rs 34-40. -/
inductive Payload (F : Type) where
  | http (d : HttpRequest)
  | ws (d : WsMessage)
  | consumer (d : ConsumerEvent F)
  | schedule (d : ScheduleEvent F)
  | event (d : EventMessage F)

/-- `struct EventData`, types.rs 9-17. -/
structure Event (F : Type) where
  id : Str
  eventType : EventType
  handlerTag : Str
  timestamp : Nat
  data : Payload F

/-- `Serialize for HttpRequestEventData`, types.rs 42-64. -/
def HttpRequest.encode (d : HttpRequest) : Json F :=
  .obj ([("method".toList, .str d.method), ("path".toList, .str d.path),
    ("route".toList, .str d.route), ("pathParams".toList, wMap d.pathParams),
    ("queryParams".toList, wMap d.queryParams),
    ("multiQueryParams".toList, wMultiMap d.multiQueryParams),
    ("headers".toList, wMap d.headers), ("multiHeaders".toList, wMultiMap d.multiHeaders)]
    ++ skipNone "body" .str d.body ++
    [("sourceIp".toList, .str d.sourceIp), ("requestId".toList, .str d.requestId)])

/-- `Deserialize for HttpRequestEventData`, types.rs 42-64. -/
def HttpRequest.decode (v : Json F) : Option HttpRequest := do
  let m ← entries ["method".toList, "path".toList, "route".toList, "pathParams".toList,
    "queryParams".toList, "multiQueryParams".toList, "headers".toList, "multiHeaders".toList,
    "body".toList, "sourceIp".toList, "requestId".toList] v
  let method ← req m "method" str
  let path ← req m "path" str
  let route ← req m "route" str
  let pathParams ← req m "pathParams" (map str)
  let queryParams ← req m "queryParams" (map str)
  let multiQueryParams ← req m "multiQueryParams" (map (list str))
  let headers ← req m "headers" (map str)
  let multiHeaders ← req m "multiHeaders" (map (list str))
  let body ← opt m "body" str
  let sourceIp ← req m "sourceIp" str
  let requestId ← req m "requestId" str
  pure { method, path, route, pathParams, queryParams, multiQueryParams, headers, multiHeaders,
         body, sourceIp, requestId }

/-- `Serialize for WebSocketEventData`, types.rs 66-77. -/
def WsMessage.encode (d : WsMessage) : Json F :=
  .obj ([("route".toList, .str d.route), ("connectionId".toList, .str d.connectionId),
    ("sourceIp".toList, .str d.sourceIp)] ++ skipNone "requestId" .str d.requestId ++
    [("message".toList, .str d.message)])

/-- `Deserialize for WebSocketEventData`, types.rs 66-77. -/
def WsMessage.decode (v : Json F) : Option WsMessage := do
  let m ← entries ["route".toList, "connectionId".toList, "sourceIp".toList, "requestId".toList,
    "message".toList] v
  let route ← req m "route" str
  let connectionId ← req m "connectionId" str
  let sourceIp ← req m "sourceIp" str
  let requestId ← opt m "requestId" str
  let message ← req m "message" str
  pure { route, connectionId, sourceIp, requestId, message }

/-- `Serialize for ConsumerMessage`, types.rs 85-94. -/
def ConsumerMessage.encode (d : ConsumerMessage F) : Json F :=
  .obj [("messageId".toList, .str d.messageId), ("body".toList, .str d.body),
    ("source".toList, .str d.source), ("messageAttributes".toList, d.messageAttributes),
    ("vendor".toList, d.vendor)]

/-- `Deserialize for ConsumerMessage`, types.rs 85-94. -/
def ConsumerMessage.decode (v : Json F) : Option (ConsumerMessage F) := do
  let m ← entries ["messageId".toList, "body".toList, "source".toList, "messageAttributes".toList,
    "vendor".toList] v
  let messageId ← req m "messageId" str
  let body ← req m "body" str
  let source ← req m "source" str
  let messageAttributes ← req m "messageAttributes" any
  let vendor ← req m "vendor" any
  pure { messageId, body, source, messageAttributes, vendor }

/-- `Serialize for ConsumerEventData`, types.rs 79-83. -/
def ConsumerEvent.encode (d : ConsumerEvent F) : Json F :=
  .obj [("messages".toList, .arr (d.messages.map ConsumerMessage.encode)),
    ("vendor".toList, d.vendor)]

/-- `Deserialize for ConsumerEventData`, types.rs 79-83. -/
def ConsumerEvent.decode (v : Json F) : Option (ConsumerEvent F) := do
  let m ← entries ["messages".toList, "vendor".toList] v
  let messages ← req m "messages" (list ConsumerMessage.decode)
  let vendor ← req m "vendor" any
  pure { messages, vendor }

/-- `Serialize for ScheduleEventData`, types.rs 96-104. -/
def ScheduleEvent.encode (d : ScheduleEvent F) : Json F :=
  .obj [("scheduleId".toList, .str d.scheduleId), ("messageId".toList, .str d.messageId),
    ("schedule".toList, .str d.schedule), ("vendor".toList, d.vendor)]

/-- `Deserialize for ScheduleEventData`, types.rs 96-104. -/
def ScheduleEvent.decode (v : Json F) : Option (ScheduleEvent F) := do
  let m ← entries ["scheduleId".toList, "messageId".toList, "schedule".toList, "vendor".toList] v
  let scheduleId ← req m "scheduleId" str
  let messageId ← req m "messageId" str
  let schedule ← req m "schedule" str
  let vendor ← req m "vendor" any
  pure { scheduleId, messageId, schedule, vendor }

/-- `Serialize for EventMessageEventData`, types.rs 106-118. -/
def EventMessage.encode (d : EventMessage F) : Json F :=
  .obj ([("body".toList, .str d.body), ("source".toList, .str d.source)]
    ++ skipNone "messageId" .str d.messageId ++ skipNone "messageAttributes" id d.messageAttributes
    ++ [("vendor".toList, d.vendor)])

/-- `Deserialize for EventMessageEventData`, types.rs 106-118. -/
def EventMessage.decode (v : Json F) : Option (EventMessage F) := do
  let m ← entries ["body".toList, "source".toList, "messageId".toList, "messageAttributes".toList,
    "vendor".toList] v
  let body ← req m "body" str
  let source ← req m "source" str
  let messageId ← opt m "messageId" str
  let messageAttributes ← opt m "messageAttributes" any
  let vendor ← req m "vendor" any
  pure { body, source, messageId, messageAttributes, vendor }

/-- `Serialize for EventDataPayload`, types.rs 33-40: an object with the name of the variant. -/
def Payload.encode : Payload F → Json F
  | .http d => .obj [("HttpRequestEventData".toList, d.encode)]
  | .ws d => .obj [("WsMessageEventData".toList, d.encode)]
  | .consumer d => .obj [("ConsumerMessageEventData".toList, d.encode)]
  | .schedule d => .obj [("ScheduleMessageEventData".toList, d.encode)]
  | .event d => .obj [("EventMessageEventData".toList, d.encode)]

/-- `Deserialize for EventDataPayload`, types.rs 33-40. -/
def Payload.decode : Json F → Option (Payload F)
  | .obj [(k, v)] =>
    if k = "HttpRequestEventData".toList then (HttpRequest.decode v).map .http
    else if k = "WsMessageEventData".toList then (WsMessage.decode v).map .ws
    else if k = "ConsumerMessageEventData".toList then (ConsumerEvent.decode v).map .consumer
    else if k = "ScheduleMessageEventData".toList then (ScheduleEvent.decode v).map .schedule
    else if k = "EventMessageEventData".toList then (EventMessage.decode v).map .event
    else none
  | _ => none

/-- `Serialize for EventData`, types.rs 8-17: the answer to a poll, runtime_local_api.rs 50-64. -/
def Event.encode (e : Event F) : Json F :=
  .obj [("id".toList, .str e.id), ("eventType".toList, .str e.eventType.name),
    ("handlerTag".toList, .str e.handlerTag), ("timestamp".toList, .int e.timestamp),
    ("data".toList, e.data.encode)]

/-- `Deserialize for EventData`, types.rs 8-17. -/
def Event.decode (v : Json F) : Option (Event F) := do
  let m ← entries ["id".toList, "eventType".toList, "handlerTag".toList, "timestamp".toList,
    "data".toList] v
  let id ← req m "id" str
  let eventType ← req m "eventType" EventType.decode
  let handlerTag ← req m "handlerTag" str
  let timestamp ← req m "timestamp" (uint 64)
  let data ← req m "data" Payload.decode
  pure { id, eventType, handlerTag, timestamp, data }

/-! ## Results -/

/-- `struct HttpResponseData`, types.rs 148-152. -/
structure HttpResponse where
  status : Nat
  headers : List (Str × Str)
  body : Str
  deriving Repr, DecidableEq

/-- `struct SimpleResponseData`, types.rs 155-160, and `struct ScheduledEventResponseData`,
types.rs 179-184, which has the same fields. -/
structure Simple where
  success : Bool
  errorMessage : Option Str
  deriving Repr, DecidableEq

/-- `struct MessageProcessingFailure`, types.rs 170-176. -/
structure Failure where
  messageId : Str
  errorMessage : Option Str
  deriving Repr, DecidableEq

/-- `struct MessageProcessingResponseData`, types.rs 163-167. -/
structure Processed where
  success : Bool
  failures : Option (List Failure)
  deriving Repr, DecidableEq

/-- `enum EventResultData`, types.rs 137-145. -/
inductive ResultData where
  | http (r : HttpResponse)
  | ws (r : Simple)
  | processed (r : Processed)
  | scheduled (r : Simple)
  | event (r : Simple)
  deriving Repr, DecidableEq

/-- `struct EventResult`, types.rs 129-135. -/
structure Result (F : Type) where
  eventId : Str
  data : ResultData
  context : Option (Json F)

/-- `Serialize for HttpResponseData`, types.rs 147-152. -/
def HttpResponse.encode (r : HttpResponse) : Json F :=
  .obj [("status".toList, .int r.status), ("headers".toList, wMap r.headers),
    ("body".toList, .str r.body)]

/-- `Deserialize for HttpResponseData`, types.rs 147-152. -/
def HttpResponse.decode (v : Json F) : Option HttpResponse := do
  let m ← entries ["status".toList, "headers".toList, "body".toList] v
  let status ← req m "status" (uint 16)
  let headers ← req m "headers" (map str)
  let body ← req m "body" str
  pure { status, headers, body }

/-- `Serialize for SimpleResponseData` and `ScheduledEventResponseData`, types.rs 154-160 and
178-184. -/
def Simple.encode (r : Simple) : Json F :=
  .obj ([("success".toList, .bool r.success)] ++ skipNone "errorMessage" .str r.errorMessage)

/-- `Deserialize for SimpleResponseData` and `ScheduledEventResponseData`, types.rs 154-160 and
178-184. -/
def Simple.decode (v : Json F) : Option Simple := do
  let m ← entries ["success".toList, "errorMessage".toList] v
  let success ← req m "success" bool
  let errorMessage ← opt m "errorMessage" str
  pure { success, errorMessage }

/-- `Serialize for MessageProcessingFailure`, types.rs 169-176. -/
def Failure.encode (r : Failure) : Json F :=
  .obj ([("messageId".toList, .str r.messageId)] ++ skipNone "errorMessage" .str r.errorMessage)

/-- `Deserialize for MessageProcessingFailure`, types.rs 169-176. -/
def Failure.decode (v : Json F) : Option Failure := do
  let m ← entries ["messageId".toList, "errorMessage".toList] v
  let messageId ← req m "messageId" str
  let errorMessage ← opt m "errorMessage" str
  pure { messageId, errorMessage }

/-- `Serialize for MessageProcessingResponseData`, types.rs 162-167. -/
def Processed.encode (r : Processed) : Json F :=
  .obj ([("success".toList, .bool r.success)] ++
    skipNone "failues" (fun l => .arr (l.map Failure.encode)) r.failures)

/-- `Deserialize for MessageProcessingResponseData`, types.rs 162-167. -/
def Processed.decode (v : Json F) : Option Processed := do
  let m ← entries ["success".toList, "failues".toList] v
  let success ← req m "success" bool
  let failures ← opt m "failues" (list Failure.decode)
  pure { success, failures }

/-- `Serialize for EventResultData`, types.rs 137-145: untagged. -/
def ResultData.encode : ResultData → Json F
  | .http r => r.encode
  | .ws r => r.encode
  | .processed r => r.encode
  | .scheduled r => r.encode
  | .event r => r.encode

/-- `Deserialize for EventResultData`, types.rs 137-145: the first variant, in the order of
declaration, that can be read. -/
def ResultData.decode (v : Json F) : Option ResultData :=
  match HttpResponse.decode v with
  | some r => some (.http r)
  | none =>
    match Simple.decode v with
    | some r => some (.ws r)
    | none =>
      match Processed.decode v with
      | some r => some (.processed r)
      | none =>
        match Simple.decode v with
        | some r => some (.scheduled r)
        | none =>
          match Simple.decode v with
          | some r => some (.event r)
          | none => none

/-- `Serialize for EventResult`, types.rs 128-135: what the handlers executable posts. -/
def Result.encode (r : Result F) : Json F :=
  .obj ([("eventId".toList, .str r.eventId), ("data".toList, r.data.encode)] ++
    skipNone "context" id r.context)

/-- `Deserialize for EventResult`, types.rs 128-135, in the extractor of `event_result_handler`,
runtime_local_api.rs 66-69. -/
def Result.decode (v : Json F) : Option (Result F) := do
  let m ← entries ["eventId".toList, "data".toList, "context".toList] v
  let eventId ← req m "eventId" str
  let data ← req m "data" ResultData.decode
  let context ← opt m "context" any
  pure { eventId, data, context }

/-! ## Messages between nodes -/

/-- `struct WebSocketMessage`, ws-registry/src/types.rs 9-20. -/
structure WsSend where
  connectionId : Str
  sourceNode : Str
  informClientsOnLoss : Option (List Str)
  messageId : Str
  message : Str
  deriving Repr, DecidableEq

/-- `struct AckMessage`, ws-registry/src/types.rs 30-34. -/
structure Ack where
  messageNode : Str
  messageId : Str
  deriving Repr, DecidableEq

/-- `enum Message`, ws-registry/src/types.rs 22-27. -/
inductive Message where
  | ws (m : WsSend)
  | ack (m : Ack)
  deriving Repr, DecidableEq

/-- `struct MessageWithSourceNode`, pubsub.rs 168-171. -/
structure Wrapped where
  sourceNode : Str
  message : Message
  deriving Repr, DecidableEq

/-- The fields of `WebSocketMessage`, written, ws-registry/src/types.rs 8-20. -/
def WsSend.fields (m : WsSend) : List (Str × Json F) :=
  [("connectionId".toList, .str m.connectionId), ("sourceNode".toList, .str m.sourceNode)] ++
    skipNone "informClientsOnLoss" wList m.informClientsOnLoss ++
    [("messageId".toList, .str m.messageId), ("message".toList, .str m.message)]

/-- `Deserialize for WebSocketMessage`, ws-registry/src/types.rs 8-20. -/
def WsSend.decode (v : Json F) : Option WsSend := do
  let m ← entries ["connectionId".toList, "sourceNode".toList, "informClientsOnLoss".toList,
    "messageId".toList, "message".toList] v
  let connectionId ← req m "connectionId" str
  let sourceNode ← req m "sourceNode" str
  let informClientsOnLoss ← opt m "informClientsOnLoss" (list str)
  let messageId ← req m "messageId" str
  let message ← req m "message" str
  pure { connectionId, sourceNode, informClientsOnLoss, messageId, message }

/-- The fields of `AckMessage`, written, ws-registry/src/types.rs 29-34. -/
def Ack.fields (m : Ack) : List (Str × Json F) :=
  [("message_node".toList, .str m.messageNode), ("message_id".toList, .str m.messageId)]

/-- `Deserialize for AckMessage`, ws-registry/src/types.rs 29-34. -/
def Ack.decode (v : Json F) : Option Ack := do
  let m ← entries ["message_node".toList, "message_id".toList] v
  let messageNode ← req m "message_node" str
  let messageId ← req m "message_id" str
  pure { messageNode, messageId }

/-- `Serialize for Message`, ws-registry/src/types.rs 22-27: the name of the variant is a field. -/
def Message.encode : Message → Json F
  | .ws m => .obj (("type".toList, .str "WebSocket".toList) :: m.fields)
  | .ack m => .obj (("type".toList, .str "Ack".toList) :: m.fields)

/-- The variant of a `Message`, ws-registry/src/types.rs 22-27, read from the rest. -/
def Message.ofTag (tag : Str) (v : Json F) : Option Message :=
  if tag = "WebSocket".toList then (WsSend.decode v).map .ws
  else if tag = "Ack".toList then (Ack.decode v).map .ack
  else none

/-- `Deserialize for Message`, ws-registry/src/types.rs 22-27: the tag may be any one of the
fields, the variant is read from the others; or it is the first element of a sequence. -/
def Message.decode : Json F → Option Message
  | .obj m => do
    let m' ← entries ["type".toList] (.obj m)
    let tag ← req m' "type" str
    Message.ofTag tag (.obj (m.filter fun e => decide (e.1 ≠ "type".toList)))
  | .arr (.str tag :: rest) => Message.ofTag tag (.arr rest)
  | _ => none

/-- `Serialize for MessageWithSourceNode`, pubsub.rs 144. -/
def Wrapped.encode (w : Wrapped) : Json F :=
  .obj [("source_node".toList, .str w.sourceNode), ("message".toList, w.message.encode)]

/-- `Deserialize for MessageWithSourceNode`, pubsub.rs 108. -/
def Wrapped.decode (v : Json F) : Option Wrapped := do
  let m ← entries ["source_node".toList, "message".toList] v
  let sourceNode ← req m "source_node" str
  let message ← req m "message" Message.decode
  pure { sourceNode, message }

/-! ## The configuration served to the handlers executable -/

/-- `struct HttpHandlerDefinition`, config.rs 223-232. -/
structure HttpHandler where
  name : Str
  path : Str
  method : Str
  location : Str
  handler : Str
  timeout : Int
  tracingEnabled : Bool
  deriving Repr, DecidableEq

/-- `struct WebSocketHandlerDefinition`, config.rs 245-254. -/
structure WsHandler where
  name : Str
  routeKey : Str
  route : Str
  location : Str
  handler : Str
  timeout : Int
  tracingEnabled : Bool
  deriving Repr, DecidableEq

/-- `struct EventHandlerDefinition`, config.rs 279-286. -/
structure EventHandler where
  name : Str
  location : Str
  handler : Str
  timeout : Int
  tracingEnabled : Bool
  deriving Repr, DecidableEq

/-- `struct ConsumerConfig`, config.rs 262-276, the parts used here. -/
structure Consumer where
  sourceId : Str
  handlers : List EventHandler
  deriving Repr, DecidableEq

/-- `struct ScheduleConfig`, config.rs 294-317, the parts used here. -/
structure Schedule where
  scheduleId : Str
  scheduleValue : Str
  handlers : List EventHandler
  deriving Repr, DecidableEq

/-- `struct ApiConfig`, config.rs 205-211, the parts used here; `HttpConfig` and `WebSocketConfig`
are their handlers. -/
structure ApiConfig where
  http : Option (List HttpHandler)
  websocket : Option (List WsHandler)
  tracingEnabled : Bool
  deriving Repr, DecidableEq

/-- `struct AppConfig`, config.rs 198-202. -/
structure AppConfig where
  api : Option ApiConfig
  consumers : Option (List Consumer)
  schedules : Option (List Schedule)
  deriving Repr, DecidableEq

/-- `struct LocalRuntimeHttpHandlerConfig`, runtime_local_api.rs 256-266. -/
structure LocalHttp where
  handlerName : Str
  handlerTag : Str
  path : Str
  method : Str
  timeout : Int
  tracingEnabled : Bool
  deriving Repr, DecidableEq

/-- `struct LocalRuntimeWebSocketHandlerConfig`, runtime_local_api.rs 274-285. -/
structure LocalWs where
  handlerName : Str
  handlerTag : Str
  routeKey : Str
  route : Str
  timeout : Int
  tracingEnabled : Bool
  deriving Repr, DecidableEq

/-- `struct LocalRuntimeConsumerHandlerConfig`, runtime_local_api.rs 293-303. -/
structure LocalConsumer where
  handlerName : Str
  handlerTag : Str
  sourceId : Str
  timeout : Int
  tracingEnabled : Bool
  deriving Repr, DecidableEq

/-- `struct LocalRuntimeScheduleHandlerConfig`, runtime_local_api.rs 311-320. -/
structure LocalSchedule where
  handlerName : Str
  handlerTag : Str
  schedule : Str
  timeout : Int
  tracingEnabled : Bool
  deriving Repr, DecidableEq

/-- `struct LocalRuntimeAppConfig`, runtime_local_api.rs 241-248. -/
structure LocalConfig where
  tracingEnabled : Bool
  http : List LocalHttp
  websocket : List LocalWs
  consumer : List LocalConsumer
  schedule : List LocalSchedule
  deriving Repr, DecidableEq

/-- Two colons, in the `format!` strings of runtime_local_api.rs 151, 170, 189-193 and 211-215. -/
def sep : Str := "::".toList

/-- `create_local_runtime_http_config`, runtime_local_api.rs 144-161. -/
def httpConfig (c : AppConfig) : List LocalHttp :=
  match c.api with
  | some api =>
    match api.http with
    | some handlers => handlers.map fun h =>
        { handlerName := h.name, handlerTag := h.method ++ sep ++ h.path, path := h.path,
          method := h.method, timeout := h.timeout, tracingEnabled := h.tracingEnabled }
    | none => []
  | none => []

/-- `create_local_runtime_websocket_config`, runtime_local_api.rs 163-180. -/
def wsConfig (c : AppConfig) : List LocalWs :=
  match c.api with
  | some api =>
    match api.websocket with
    | some handlers => handlers.map fun h =>
        { handlerName := h.name, handlerTag := h.routeKey ++ sep ++ h.route, routeKey := h.routeKey,
          route := h.route, timeout := h.timeout, tracingEnabled := h.tracingEnabled }
    | none => []
  | none => []

/-- `create_local_runtime_consumer_config`, runtime_local_api.rs 182-202. -/
def consumerConfig (c : AppConfig) : List LocalConsumer :=
  match c.consumers with
  | some consumers => consumers.flatMap fun s => s.handlers.map fun h =>
      { handlerName := h.name, handlerTag := "source".toList ++ sep ++ s.sourceId ++ sep ++ h.name,
        sourceId := s.sourceId, timeout := h.timeout, tracingEnabled := h.tracingEnabled }
  | none => []

/-- `create_local_runtime_schedule_config`, runtime_local_api.rs 204-224. -/
def scheduleConfig (c : AppConfig) : List LocalSchedule :=
  match c.schedules with
  | some schedules => schedules.flatMap fun s => s.handlers.map fun h =>
      { handlerName := h.name,
        handlerTag := "source".toList ++ sep ++ s.scheduleId ++ sep ++ h.name,
        schedule := s.scheduleValue, timeout := h.timeout, tracingEnabled := h.tracingEnabled }
  | none => []

/-- `create_local_runtime_api_config`, runtime_local_api.rs 121-142. -/
def localConfig (c : AppConfig) : LocalConfig where
  tracingEnabled := (c.api.map (·.tracingEnabled)).getD false
  http := httpConfig c
  websocket := wsConfig c
  consumer := consumerConfig c
  schedule := scheduleConfig c

/-- The tags in the configuration. -/
def LocalConfig.tags (c : LocalConfig) : List Str :=
  c.http.map (·.handlerTag) ++ c.websocket.map (·.handlerTag) ++ c.consumer.map (·.handlerTag) ++
    c.schedule.map (·.handlerTag)

/-- The part of `setup` that makes the configuration, application.rs 75-87, from the API
configuration collected, `none` for `ConfigError::ApiMissing`: consumers and schedules are not
collected, and the name of a handler is left empty (transform_config.rs 299 and 329). -/
def appConfig (api : Option Transform.ApiConfig) : AppConfig where
  api := api.map fun a =>
    { http := a.http.map fun l => l.map fun h =>
        ⟨[], h.path, h.method, h.location, h.handler, h.timeout, h.tracingEnabled⟩
      websocket := a.websocket.map fun w => w.1.map fun h =>
        ⟨[], h.routeKey, h.route, h.location, h.handler, h.timeout, h.tracingEnabled⟩
      tracingEnabled := a.tracingEnabled }
  consumers := none
  schedules := none

/-- `Serialize for LocalRuntimeHttpHandlerConfig`, runtime_local_api.rs 255-266. -/
def LocalHttp.encode (h : LocalHttp) : Json F :=
  .obj [("handlerName".toList, .str h.handlerName), ("handlerTag".toList, .str h.handlerTag),
    ("path".toList, .str h.path), ("method".toList, .str h.method),
    ("timeout".toList, .int h.timeout), ("tracingEnabled".toList, .bool h.tracingEnabled)]

/-- `Serialize for LocalRuntimeWebSocketHandlerConfig`, runtime_local_api.rs 273-285. -/
def LocalWs.encode (h : LocalWs) : Json F :=
  .obj [("handlerName".toList, .str h.handlerName), ("handlerTag".toList, .str h.handlerTag),
    ("routeKey".toList, .str h.routeKey), ("route".toList, .str h.route),
    ("timeout".toList, .int h.timeout), ("tracingEnabled".toList, .bool h.tracingEnabled)]

/-- `Serialize for LocalRuntimeConsumerHandlerConfig`, runtime_local_api.rs 292-303. -/
def LocalConsumer.encode (h : LocalConsumer) : Json F :=
  .obj [("handlerName".toList, .str h.handlerName), ("handlerTag".toList, .str h.handlerTag),
    ("sourceId".toList, .str h.sourceId), ("timeout".toList, .int h.timeout),
    ("tracingEnabled".toList, .bool h.tracingEnabled)]

/-- `Serialize for LocalRuntimeScheduleHandlerConfig`, runtime_local_api.rs 310-320. -/
def LocalSchedule.encode (h : LocalSchedule) : Json F :=
  .obj [("handlerName".toList, .str h.handlerName), ("handlerTag".toList, .str h.handlerTag),
    ("schedule".toList, .str h.schedule), ("timeout".toList, .int h.timeout),
    ("tracingEnabled".toList, .bool h.tracingEnabled)]

/-- `Serialize` for the structs with `handlers`, runtime_local_api.rs 250-253, 268-271, 287-290 and
305-308. -/
def wHandlers (l : List (Json F)) : Json F := .obj [("handlers".toList, .arr l)]

/-- `Serialize for LocalRuntimeConfig`, runtime_local_api.rs 234-248: the answer to a request for
the configuration, runtime_local_api.rs 115-119. -/
def LocalConfig.encode (c : LocalConfig) : Json F :=
  .obj [("appConfig".toList, .obj [("tracingEnabled".toList, .bool c.tracingEnabled),
    ("http".toList, wHandlers (c.http.map LocalHttp.encode)),
    ("websocket".toList, wHandlers (c.websocket.map LocalWs.encode)),
    ("consumer".toList, wHandlers (c.consumer.map LocalConsumer.encode)),
    ("schedule".toList, wHandlers (c.schedule.map LocalSchedule.encode))])]

/-! ## Messages posted by the handlers executable -/

/-- `Deserialize for WebSocketMessages`, ws-registry/src/types.rs 3-6, in the extractor of
`websockets_messages_handler`, runtime_local_api.rs 83. -/
def decodeMessages (v : Json F) : Option (List WsSend) := do
  let m ← entries ["messages".toList] v
  req m "messages" (list WsSend.decode)

/-! ## Workflows -/

/-- `struct StateHandlerDefinition`, workflow/src/config.rs 62-70. -/
structure StateHandler where
  state : Str
  name : Str
  location : Str
  handler : Str
  timeout : Int
  tracingEnabled : Bool
  deriving Repr, DecidableEq

/-- `struct LocalWorkflowRuntimeStateHandlerConfig`, workflow_runtime_local_api.rs 130-139. -/
structure LocalState where
  handlerName : Str
  handlerTag : Str
  state : Str
  timeout : Int
  tracingEnabled : Bool
  deriving Repr, DecidableEq

/-- `create_local_runtime_state_handlers`, workflow_runtime_local_api.rs 90-107. -/
def stateConfig : Option (List StateHandler) → List LocalState
  | some handlers => handlers.map fun h =>
      { handlerName := h.name, handlerTag := "state".toList ++ sep ++ h.state, state := h.state,
        timeout := h.timeout, tracingEnabled := h.tracingEnabled }
  | none => []

/-- `Serialize for LocalWorkflowRuntimeStateHandlerConfig`, workflow_runtime_local_api.rs
129-139. -/
def LocalState.encode (h : LocalState) : Json F :=
  .obj [("handlerName".toList, .str h.handlerName), ("handlerTag".toList, .str h.handlerTag),
    ("state".toList, .str h.state), ("timeout".toList, .int h.timeout),
    ("tracingEnabled".toList, .bool h.tracingEnabled)]

/-- `create_local_runtime_api_config` of the workflow runtime, workflow_runtime_local_api.rs 79-88,
and `Serialize for LocalWorkflowRuntimeConfig`, workflow_runtime_local_api.rs 116-127. -/
def workflowConfigJson (handlers : Option (List StateHandler)) : Json F :=
  .obj [("appConfig".toList, .obj [("tracingEnabled".toList, .bool true),
    ("state_handlers".toList, .arr ((stateConfig handlers).map LocalState.encode))])]

/-- `struct EventData` of the workflow runtime, workflow/src/types.rs 17-25; the only event type is
`executeStep`. -/
structure StepEvent (F : Type) where
  id : Str
  handlerTag : Str
  timestamp : Nat
  data : Json F

/-- `Serialize for EventData` of the workflow runtime, workflow/src/types.rs 16-31. -/
def StepEvent.encode (e : StepEvent F) : Json F :=
  .obj [("id".toList, .str e.id), ("eventType".toList, .str "executeStep".toList),
    ("handlerTag".toList, .str e.handlerTag), ("timestamp".toList, .int e.timestamp),
    ("data".toList, e.data)]

/-- `struct EventResult` of the workflow runtime, workflow/src/types.rs 42-48. -/
structure StepResult (F : Type) where
  eventId : Str
  data : Json F
  context : Option (Json F)

/-- `Deserialize for EventResult` of the workflow runtime, workflow/src/types.rs 41-48, in the
extractor of `event_result_handler`, workflow_runtime_local_api.rs 58-61. -/
def StepResult.decode (v : Json F) : Option (StepResult F) := do
  let m ← entries ["eventId".toList, "data".toList, "context".toList] v
  let eventId ← req m "eventId" str
  let data ← req m "data" any
  let context ← opt m "context" any
  pure { eventId, data, context }

/-- A workflow, `CelerityWorkflowSpec`. -/
abbrev Workflow (F : Type) :=
  Blueprint.WorkflowSpec Str Int Bool F (Subst.RNode F) Blueprint.StateType

/-- `struct WorkflowAppConfig`, workflow/src/config.rs 56-59. -/
structure WorkflowConfig (F : Type) where
  stateHandlers : Option (List StateHandler)
  workflow : Workflow F

/-- `collect_workflow_app_config`, workflow/src/transform_config.rs 9-32: `none` is
`ConfigError::WorkflowMissing`. The handlers selected are not used. -/
def collectWorkflow (b : Blueprint.ResConfig F) : Option (WorkflowConfig F) :=
  match b.resources.find? fun r => decide (r.2.type = .workflow) with
  | none => none
  | some _ => some { stateHandlers := none, workflow := { startAt := [], states := [] } }

end Verif.Wire
