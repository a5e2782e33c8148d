import Verif.Startup.Model
import Verif.Transform.Spec
import Verif.Blueprint.Source

/-!
# What an application is, according to its blueprint

The specification speaks about a loaded blueprint (`Blueprint.ResConfig`, which C110 relates to the
document) and about nothing of the transformation but the definitions that it yields.
-/

namespace Verif.Startup.Spec

open Verif Verif.Subst Verif.Blueprint

variable {F : Type}

/-- The resource is an API of the blueprint, of the wanted name if one is wanted. -/
def IsApi (y : ResConfig F) (wanted : Option Str) (r : ResResource F) : Prop :=
  ∃ k, (k, r) ∈ y.resources ∧ r.type = .api ∧ ∀ w, wanted = some w → w = k

/-- One resource selects another by a label. -/
def Linked (a b : ResResource F) : Prop :=
  ∃ sel labels k v, a.linkSelector = some sel ∧ b.metadata.labels = some labels ∧
    (k, v) ∈ sel ∧ (k, v) ∈ labels

/-- No two labels of the selector are labels of the other resource. -/
def LinkedOnce (a b : ResResource F) : Prop :=
  ∀ sel labels, ∀ l₁ l₂ : Str × Str, a.linkSelector = some sel → b.metadata.labels = some labels →
    l₁ ∈ sel → l₁ ∈ labels → l₂ ∈ sel → l₂ ∈ labels → l₁ = l₂

/-- The resource has the annotation with the value. -/
def Annotated (r : ResResource F) (key : String) (v : Scalar F) : Prop :=
  ∃ a, r.metadata.annotations = some a ∧ (key.toList, v) ∈ a

/-- The handler is to serve requests or messages. -/
def Serves (r : ResResource F) : Prop :=
  Annotated r "celerity.handler.http" (.bool true) ∨
    Annotated r "celerity.handler.websocket" (.bool true)

/-- The text of an annotation, or the default if the resource does not have it. -/
def AnnotationText (showF : F → Str) (r : ResResource F) (key default : String) (t : Str) : Prop :=
  (∃ v, Annotated r key v ∧ t = Transform.Spec.scalarText showF v) ∨
  ((∀ v, ¬ Annotated r key v) ∧ t = default.toList)

/-- A handler configuration that the handler is linked to. -/
def ConfigOf (y : ResConfig F) (r : ResResource F) (s : Shared Str Int Bool) : Prop :=
  ∃ k c, (k, c) ∈ y.resources ∧ c.type = .handlerConfig ∧ Linked r c ∧
    c.spec = some (.handlerConfig s)

/-- The value of a setting of a handler: its own; if it has none, that of the configuration it is
linked to; if that has none, that of the configuration shared by all handlers. -/
inductive Setting {A : Type} (own : HandlerSpec Str Int Bool → Option A)
    (other : Shared Str Int Bool → Option A) (y : ResConfig F) (r : ResResource F) (a : A) : Prop
  | own {h} : r.spec = some (.handler h) → own h = some a → Setting own other y r a
  | linked {h s} : r.spec = some (.handler h) → own h = none → ConfigOf y r s → other s = some a →
      Setting own other y r a
  | shared {h s} : r.spec = some (.handler h) → own h = none →
      (∀ s', ConfigOf y r s' → other s' = none) → y.metadata = some (some s) → other s = some a →
      Setting own other y r a

/-- What is common to the definitions of a handler. -/
structure Settings (y : ResConfig F) (r : ResResource F) (location : Str) (timeout : Int)
    (tracing : Bool) : Prop where
  location : Setting (·.codeLocation) (·.codeLocation) y r location
  /-- At most an hour, a minute when it is not set. -/
  timeout : (∃ t, Setting (·.timeout) (·.timeout) y r t ∧ timeout = min t 3600) ∨
    ((∀ t, ¬ Setting (·.timeout) (·.timeout) y r t) ∧ timeout = 60)
  tracing : Setting (·.tracingEnabled) (·.tracingEnabled) y r tracing ∨
    ((∀ t, ¬ Setting (·.tracingEnabled) (·.tracingEnabled) y r t) ∧ tracing = false)

/-- The handler serves HTTP requests as in the definition. -/
structure Http (showF : F → Str) (y : ResConfig F) (k : Str) (r : ResResource F)
    (d : Transform.HttpHandler) : Prop where
  type : r.type = .handler
  enabled : Annotated r "celerity.handler.http" (.bool true)
  name : d.handler = k
  method : AnnotationText showF r "celerity.handler.http.method" "GET" d.method
  path : ∃ ss : List Transform.Spec.Segment, ss ≠ [] ∧ (∀ s ∈ ss, s.WF) ∧
    AnnotationText showF r "celerity.handler.http.path" "/"
      (Transform.Spec.path Transform.Spec.Segment.blueprint ss) ∧
    d.path = Transform.Spec.path Transform.Spec.Segment.router ss
  settings : Settings y r d.location d.timeout d.tracingEnabled

/-- The handler serves WebSocket messages as in the definition. The key of the route is not part of
it (C50). -/
structure Ws (showF : F → Str) (y : ResConfig F) (k : Str) (r : ResResource F)
    (d : Transform.WsHandler) : Prop where
  type : r.type = .handler
  enabled : Annotated r "celerity.handler.websocket" (.bool true)
  name : d.handler = k
  route : AnnotationText showF r "celerity.handler.websocket.route" "$default" d.route
  settings : Settings y r d.location d.timeout d.tracingEnabled

/-- Mappings have no key twice, as hash maps do not. -/
structure Maps (y : ResConfig F) : Prop where
  annotations : ∀ e ∈ y.resources, ∀ a, e.2.metadata.annotations = some a → (a.map (·.1)).Nodup
  labels : ∀ e ∈ y.resources, ∀ l, e.2.metadata.labels = some l → (l.map (·.1)).Nodup
  selectors : ∀ e ∈ y.resources, ∀ l, e.2.linkSelector = some l → (l.map (·.1)).Nodup
  names : (y.resources.map (·.1)).Nodup

/-- Every resource has a specification of its type. -/
def Typed (y : ResConfig F) : Prop :=
  ∀ e ∈ y.resources,
    (e.2.type = .api ↔ ∃ s, e.2.spec = some (.api s)) ∧
    (e.2.type = .handler ↔ ∃ s, e.2.spec = some (.handler s)) ∧
    (e.2.type = .handlerConfig ↔ ∃ s, e.2.spec = some (.handlerConfig s))

/-- What the code gets right depends on this. There is one API to choose from; a label that is
selected has no other value on another resource (C08); a handler is linked to one configuration at
most (C49); and timeouts are those that the code keeps (C09). -/
structure Clear (y : ResConfig F) (wanted : Option Str) : Prop where
  api : ∀ r r', IsApi y wanted r → IsApi y wanted r' → r = r'
  values : ∀ a ∈ y.resources, ∀ b ∈ y.resources, ∀ sel labels k v w, a.2.linkSelector = some sel →
    b.2.metadata.labels = some labels → (k, v) ∈ sel → (k, w) ∈ labels → v = w
  configs : ∀ e ∈ y.resources, e.2.type = .handler → ∀ a ∈ y.resources, ∀ b ∈ y.resources,
    a.2.type = .handlerConfig → b.2.type = .handlerConfig → Linked e.2 a.2 → Linked e.2 b.2 → a = b
  handlerTimeouts : ∀ e ∈ y.resources, ∀ s t, e.2.spec = some (.handler s) → s.timeout = some t →
    t = 3600
  configTimeouts : ∀ e ∈ y.resources, ∀ s t, e.2.spec = some (.handlerConfig s) →
    s.timeout = some t → t = 3600
  sharedTimeout : ∀ s t, y.metadata = some (some s) → s.timeout = some t → t ≤ 3600

/-! ## Starting -/

/-- The file is to be read as JSON: its name ends in `.json` or `.jsonc`. -/
def JsonPath (path : Str) : Prop :=
  ∃ s : Str, path = s ++ ".json".toList ∨ path = s ++ ".jsonc".toList

/-- The file at the path is the blueprint, written in the format that the name of the file says. -/
def Written {cls : CharClass} (path : Str) (f : Source.Format) (x : Source.Blueprint cls F)
    (file : File F) : Prop :=
  match f with
  | .json => JsonPath path ∧ file.json = some (Source.write x)
  | .yaml => ¬ JsonPath path ∧ ∃ rest, file.yaml = some (Source.write x :: rest)

/-- The name of the API that the application is for, if one is configured. -/
def wanted (c : RtConfig.Config) : Option Str := c.apiResource.map String.toList

/-- The HTTP handlers in the configuration of an application. -/
def httpHandlers (a : Application) : List Wire.HttpHandler := (a.config.api.bind (·.http)).getD []

/-- The WebSocket handlers in the configuration of an application. -/
def wsHandlers (a : Application) : List Wire.WsHandler := (a.config.api.bind (·.websocket)).getD []

/-- The handlers of the application are those that its blueprint declares for the API. -/
structure Declared (showF : F → Str) (y : ResConfig F) (api : ResResource F) (a : Application) :
    Prop where
  http : ∀ d, d ∈ httpHandlers a ↔ ∃ k r, (k, r) ∈ y.resources ∧ Linked api r ∧ d.name = [] ∧
    Http showF y k r ⟨d.handler, d.path, d.method, d.location, d.timeout, d.tracingEnabled⟩
  ws : ∀ d, d ∈ wsHandlers a → ∃ k r, (k, r) ∈ y.resources ∧ Linked api r ∧ d.name = [] ∧
    Ws showF y k r ⟨d.handler, d.routeKey, d.route, d.location, d.timeout, d.tracingEnabled⟩
  wsAll : ∀ k r e, (k, r) ∈ y.resources → Linked api r → Ws showF y k r e → ∃ routeKey,
    ⟨[], routeKey, e.route, e.location, e.handler, e.timeout, e.tracingEnabled⟩ ∈ wsHandlers a

/-- A handler for each protocol: an API that serves both. -/
def Hybrid (y : ResConfig F) (api : ResResource F) : Prop :=
  (∃ k r, (k, r) ∈ y.resources ∧ r.type = .handler ∧ Linked api r ∧
    Annotated r "celerity.handler.http" (.bool true)) ∧
  ∃ k r, (k, r) ∈ y.resources ∧ r.type = .handler ∧ Linked api r ∧
    Annotated r "celerity.handler.websocket" (.bool true)

/-! ## The two formats -/

/-- A text without references. -/
def Literal (t : List Subst.Spec.Tmpl) : Prop := ∀ p ∈ t, p.isLit = true

/-- The texts that JSON does not expand have no references: those of annotations, and the route keys
of APIs. -/
structure Plain {cls : CharClass} (x : Source.Blueprint cls F) : Prop where
  annotations : ∀ e ∈ x.resources, ∀ a, e.2.metadata.annotations = some a →
    ∀ k t, (k, Source.Leaf.text t) ∈ a → Literal t.1
  routeKeys : ∀ e ∈ x.resources, ∀ s, e.2.spec = some (.api s) →
    ∀ k a, Source.Proto.config (some k) a ∈ s.protocols → Literal k.1


/-! ## Running and shutting down -/

/-- How many servers accept connections. -/
def serving (s : Life) : Nat := s.servers.count .serving

/-- Everything that was started was told to stop. -/
def AllStopped (s : Life) : Prop := ∀ t ∈ s.servers, t = .stopping

/-- The outside does what it is asked for. -/
def Outside.fine : Outside := ⟨true, true, true⟩

/-- The application as it is run. -/
def lifeOf (a : Application) (subscriber : Bool) : Life :=
  fresh a.app.http.isSome a.app.localApi a.tracing a.app.config.testMode subscriber

end Verif.Startup.Spec
