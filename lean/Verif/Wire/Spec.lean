import Verif.Json

/-!
# What the API documents say

The local runtime APIs are described in OpenAPI documents, `local-runtime-api-v1.yaml` and
`workflow-local-runtime-api-v1.yaml` under `libs/runtime/api-docs`. The schemas are written down here
as predicates over JSON trees, without regard to the code. A schema constrains the entries it names
and leaves others free, as in OpenAPI. Objects do not repeat a key.
-/

namespace Verif.Wire.Spec

open Verif

variable {F : Type}

/-- The entry of an object. -/
def get (v : Json F) (k : String) : Option (Json F) :=
  match v with
  | .obj m => m.lookup k.toList
  | _ => none

/-- `type: string`. -/
def Text (v : Json F) : Prop := ∃ s, v = .str s

/-- A string or null. -/
def TextOrNull (v : Json F) : Prop := v = .null ∨ Text v

/-- `type: boolean`. -/
def Flag (v : Json F) : Prop := ∃ b, v = .bool b

/-- `type: integer`. -/
def Number (v : Json F) : Prop := ∃ i, v = .int i

/-- `type: object`, `additionalProperties: true`. -/
def Anything (v : Json F) : Prop := ∃ m, v = .obj m

/-- `enum`. -/
def Among (names : List String) (v : Json F) : Prop := ∃ n ∈ names, v = .str n.toList

/-- `type: array`. -/
def Items (P : Json F → Prop) (v : Json F) : Prop := ∃ l, v = .arr l ∧ ∀ x ∈ l, P x

/-- `type: object` with `additionalProperties` of one shape. -/
def MapOf (P : Json F → Prop) (v : Json F) : Prop :=
  ∃ m, v = .obj m ∧ (m.map (·.1)).Nodup ∧ ∀ e ∈ m, P e.2

/-- A property of an object: its name, whether it is required, and its schema. -/
structure Entry (F : Type) where
  name : String
  required : Bool
  shape : Json F → Prop

/-- `type: object` with `properties` and `required`. -/
def Record (es : List (Entry F)) (v : Json F) : Prop :=
  ∃ m, v = .obj m ∧ (m.map (·.1)).Nodup ∧
    ∀ e ∈ es,
      match m.lookup e.name.toList with
      | some w => e.shape w
      | none => e.required = false

/-! ## Events, local-runtime-api-v1.yaml 555-816 -/

/-- The methods. -/
def methods : List String := ["get", "post", "put", "patch", "delete", "trace", "options"]

/-- `HttpRequestEventData`; the methods are a separate matter, see `Spec.methods`. -/
def HttpEvent : Json F → Prop := Record
  [⟨"method", true, Text⟩, ⟨"path", true, Text⟩, ⟨"route", true, Text⟩,
   ⟨"pathParams", true, MapOf Text⟩, ⟨"queryParams", true, MapOf Text⟩,
   ⟨"multiQueryParams", false, MapOf (Items Text)⟩, ⟨"headers", true, MapOf Text⟩,
   ⟨"multiHeaders", false, MapOf (Items Text)⟩, ⟨"body", false, Text⟩, ⟨"sourceIp", true, Text⟩,
   ⟨"requestId", true, Text⟩]

/-- `WebSocketMessageEventData`. -/
def WsEvent : Json F → Prop := Record
  [⟨"route", true, Text⟩, ⟨"connectionId", true, Text⟩, ⟨"message", true, Text⟩,
   ⟨"sourceIp", true, Text⟩, ⟨"requestId", true, Text⟩]

/-- `QueueConsumerMessage`. -/
def QueueMessage : Json F → Prop := Record
  [⟨"messageId", true, Text⟩, ⟨"body", true, Text⟩, ⟨"source", true, Text⟩,
   ⟨"messageAttributes", true, Anything⟩, ⟨"vendor", true, Anything⟩]

/-- `QueueConsumerMessagesEventData`; the schema has a single message for `messages`, the description
of the endpoint has a batch of messages. -/
def QueueEvent : Json F → Prop := Record
  [⟨"messages", true, Items QueueMessage⟩, ⟨"vendor", true, Anything⟩]

/-- `ScheduleEventData`. -/
def ScheduledEvent : Json F → Prop := Record
  [⟨"scheduleId", true, Text⟩, ⟨"messageId", true, Text⟩, ⟨"schedule", true, Text⟩,
   ⟨"vendor", true, Anything⟩]

/-- `OtherEventData`. -/
def OtherEvent : Json F → Prop := Record
  [⟨"body", true, Text⟩, ⟨"source", true, Text⟩, ⟨"messageId", false, Text⟩,
   ⟨"messageAttributes", false, Anything⟩, ⟨"vendor", true, Anything⟩]

/-- The five kinds of events. -/
inductive Kind | http | ws | consumer | schedule | event

/-- The documented name of the kind. -/
def Kind.name : Kind → String
  | .http => "httpRequest"
  | .ws => "wsMessage"
  | .consumer => "consumerMessage"
  | .schedule => "scheduleMessage"
  | .event => "eventMessage"

/-- The schema of the data of an event. -/
def Kind.Data : Kind → Json F → Prop
  | .http => HttpEvent
  | .ws => WsEvent
  | .consumer => QueueEvent
  | .schedule => ScheduledEvent
  | .event => OtherEvent

/-- `Event`, with the schema of `data` open. The list of required properties has `event` where it
must mean `eventType`. -/
def Envelope (names : List String) (data : Json F → Prop) : Json F → Prop := Record
  [⟨"id", true, Text⟩, ⟨"eventType", true, Among names⟩, ⟨"handlerTag", true, Text⟩,
   ⟨"timestamp", true, Number⟩, ⟨"data", true, data⟩]

/-- `Event`, of a kind. -/
def EventDoc (k : Kind) : Json F → Prop := Envelope [k.name] k.Data

/-! ## Results, local-runtime-api-v1.yaml 163-186 and 461-553 -/

/-- `EventResultBody`, with the schema of `data` open. -/
def ResultDoc (data : Json F → Prop) : Json F → Prop := Record
  [⟨"eventId", true, Text⟩, ⟨"data", true, data⟩, ⟨"context", false, Anything⟩]

/-- A status code. -/
def Status (v : Json F) : Prop := ∃ i : Int, 100 ≤ i ∧ i ≤ 599 ∧ v = .int i

/-- `HttpRequestEventResultPayload`: the body "can be a string or `null`", and may be left out. -/
def HttpPayload : Json F → Prop := Record
  [⟨"status", true, Status⟩, ⟨"headers", true, MapOf Text⟩, ⟨"body", false, TextOrNull⟩]

/-- `WebSocketMessageEventResultPayload`, `ScheduleEventResultPayload` and
`EventTriggerResultPayload`. -/
def SimplePayload : Json F → Prop := Record
  [⟨"success", true, Flag⟩, ⟨"errorMessage", false, TextOrNull⟩]

/-- `MessageProcessingFailure`. -/
def FailureDoc : Json F → Prop := Record
  [⟨"messageId", true, Text⟩, ⟨"errorMessage", false, Text⟩]

/-- `MessageProcessingEventResultPayload`. -/
def ProcessingPayload : Json F → Prop := Record
  [⟨"success", true, Flag⟩, ⟨"failures", false, Items FailureDoc⟩]

/-- No entry of an object has another name than these. -/
def Only (names : List String) (v : Json F) : Prop :=
  ∀ m, v = .obj m → ∀ e ∈ m, ∃ n ∈ names, e.1 = n.toList

/-! ## Messages to clients, local-runtime-api-v1.yaml 188-199 and 442-459 -/

/-- `WebSocketMessage`; the items of `informClientsOnLoss` are connection IDs. -/
def MessageDoc : Json F → Prop := Record
  [⟨"connectionId", true, Text⟩, ⟨"messageId", true, Text⟩,
   ⟨"informClientsOnLoss", false, Items Text⟩, ⟨"message", true, Text⟩]

/-- `PostWebSocketMessagesBody`. -/
def MessagesDoc (message : Json F → Prop) : Json F → Prop := Record
  [⟨"messages", true, Items message⟩]

/-! ## The configuration, local-runtime-api-v1.yaml 203-397 -/

/-- `HttpHandlerConfiguration`. -/
def HttpHandlerDoc : Json F → Prop := Record
  [⟨"handlerName", true, Text⟩, ⟨"handlerTag", true, Text⟩, ⟨"path", true, Text⟩,
   ⟨"method", true, Among methods⟩, ⟨"timeout", true, Number⟩, ⟨"tracingEnabled", true, Flag⟩]

/-- `WebSocketHandlerConfiguration`. -/
def WsHandlerDoc : Json F → Prop := Record
  [⟨"handlerName", true, Text⟩, ⟨"handlerTag", true, Text⟩, ⟨"routeKey", true, Text⟩,
   ⟨"route", false, Text⟩, ⟨"timeout", true, Number⟩, ⟨"tracingEnabled", true, Flag⟩]

/-- `ConsumerHandlerConfiguration`; `routeKey` is among the required properties, but not among the
properties. -/
def ConsumerHandlerDoc : Json F → Prop := Record
  [⟨"handlerName", true, Text⟩, ⟨"handlerTag", true, Text⟩, ⟨"sourceId", false, Text⟩,
   ⟨"timeout", true, Number⟩, ⟨"tracingEnabled", true, Flag⟩]

/-- `ScheduleHandlerConfiguration`. -/
def ScheduleHandlerDoc : Json F → Prop := Record
  [⟨"handlerName", true, Text⟩, ⟨"handlerTag", true, Text⟩, ⟨"schedule", true, Text⟩,
   ⟨"timeout", true, Number⟩, ⟨"tracingEnabled", true, Flag⟩]

/-- The configurations with a list of handlers. -/
def Handlers (P : Json F → Prop) : Json F → Prop := Record [⟨"handlers", true, Items P⟩]

/-- `RuntimeConfigurationResponse`. -/
def ConfigDoc : Json F → Prop := Record
  [⟨"appConfig", true, Record
    [⟨"tracingEnabled", true, Flag⟩, ⟨"http", false, Handlers HttpHandlerDoc⟩,
     ⟨"websocket", false, Handlers WsHandlerDoc⟩, ⟨"consumer", false, Handlers ConsumerHandlerDoc⟩,
     ⟨"schedule", false, Handlers ScheduleHandlerDoc⟩]⟩]

/-- The handlers a reader of the configuration finds in a section. -/
def handlers (v : Json F) (section_ : String) : Option (List (Json F)) :=
  match (get v "appConfig").bind fun a => (get a section_).bind fun s => get s "handlers" with
  | some (.arr l) => some l
  | _ => none

/-! ## The workflow runtime, workflow-local-runtime-api-v1.yaml -/

/-- `WorkflowHandlerConfiguration`, 165-191. -/
def StateHandlerDoc : Json F → Prop := Record
  [⟨"handlerName", true, Text⟩, ⟨"handlerTag", true, Text⟩, ⟨"state", true, Text⟩,
   ⟨"timeout", true, Number⟩, ⟨"tracingEnabled", true, Flag⟩]

/-- `Event`, 197-232. -/
def StepEventDoc : Json F → Prop := Envelope ["executeStep"] Anything

end Verif.Wire.Spec
