import Verif.Transform.Model
import Verif.Blueprint.Resolve
import Verif.RtConfig.Model
import Verif.Wire.Model

/-!
# Model of an application from its blueprint file to its shutdown

`libs/runtime/core/src/application.rs`, and the choice of the loader in
`libs/runtime/workflow/src/application.rs`. The loaders, the transformation, the routers and the
configuration of the local API are those of the other topics; this one puts them together.

A file is what the two lexical readers make of it (`File`). The runtime of tokio, the sockets and
the trace exporter are the outside: whether they do what they are asked for is a choice.
-/

namespace Verif.Startup

open Verif Verif.Subst

variable {F : Type}

/-! ## The blueprint that the transformation is given

`collect_api_config` is given the blueprint as loaded. The models of the two have their own types;
these functions keep the fields that the transformation uses. -/

/-- `enum CelerityResourceType`, blueprint.rs 163-184. -/
def typeView : Blueprint.RType → Transform.ResourceType
  | .handler => .handler
  | .api => .api
  | .consumer => .consumer
  | .schedule => .schedule
  | .handlerConfig => .handlerConfig
  | .workflow => .workflow
  | .config => .config
  | .bucket => .bucket
  | .topic => .topic
  | .queue => .queue

/-- `enum CelerityApiProtocol`, blueprint.rs 336-343. -/
def protocolView : Blueprint.Protocol → Transform.Protocol
  | .http => .http
  | .websocket => .webSocket
  | .websocketConfig routeKey _ => .webSocketConfig routeKey

/-- `struct SharedHandlerConfig`, blueprint.rs 759-775. -/
def sharedView (s : Blueprint.Shared Str Int Bool) : Transform.SharedConfig :=
  ⟨s.codeLocation, s.timeout, s.tracingEnabled⟩

/-- `enum CelerityResourceSpec`, blueprint.rs 220-234. -/
def specView : Option (Blueprint.ResSpec F) → Transform.ResourceSpec
  | some (.handler s) => .handler ⟨s.codeLocation, s.timeout, s.tracingEnabled⟩
  | some (.handlerConfig s) => .handlerConfig (sharedView s)
  | some (.api s) => .api ⟨s.protocols.map protocolView, s.tracingEnabled⟩
  | _ => .other

/-- `struct RuntimeBlueprintResource`, blueprint.rs 130-140. -/
def resourceView (r : Blueprint.ResResource F) : Transform.Resource F :=
  { resourceType := typeView r.type
    annotations := r.metadata.annotations
    labels := r.metadata.labels
    linkSelector := r.linkSelector
    spec := specView r.spec }

/-- `struct BlueprintConfig`, blueprint.rs 42-51. -/
def view (b : Blueprint.ResConfig F) : Transform.Blueprint F :=
  { resources := b.resources.map fun e => (e.1, resourceView e.2)
    metadata := b.metadata.map fun m => m.map sharedView }

/-! ## Loading -/

/-- The blueprint file, core/src/application.rs 340-347: the document that it is as JSON with comments, and the documents that it is as YAML;
`none` when the reader reports an error. -/
structure File (F : Type) where
  json : Option (Blueprint.Doc F)
  yaml : Option (List (Blueprint.Doc F))

/-- Why an application does not start. `enum ApplicationStartError`, core/src/errors.rs 60-70:
`unreadable` is a file that is missing or that a lexical reader refuses. -/
inductive StartErr where
  | unreadable
  | blueprint (e : Blueprint.Err)
  | config (e : Transform.ConfigError)
  | hybridNeedsBasePath
  deriving Repr, DecidableEq

/-- `str::ends_with`, as called in core/src/application.rs 342. -/
def endsWith (s suffix : Str) : Bool := suffix.isSuffixOf s

/-- The condition of `load_and_parse_blueprint`, core/src/application.rs 342. -/
def readsJson (path : Str) : Bool :=
  endsWith path ".json".toList || endsWith path ".jsonc".toList

/-- The condition of `load_and_parse_blueprint`, workflow/src/application.rs 106. -/
def workflowReadsJson (path : Str) : Bool := endsWith path ".json".toList

section
variable (cx : Blueprint.Ctx F) (showF : F → Str) (env : Env)

/-- The error of a loader, `?` in core/src/application.rs 340-347. -/
def loadErr {A : Type} : Outcome Blueprint.Err A → Outcome StartErr A
  | .ok a => .ok a
  | .err e => .err (.blueprint e)
  | .panic => .panic

/-- `BlueprintConfig::from_jsonc_file`, parse.rs 37-49, or `from_yaml_file`, parse.rs 70-80, of the file
at the path, if there is one. -/
def load (json : Bool) (file : Option (File F)) : Outcome StartErr (Blueprint.ResConfig F) :=
  match file with
  | none => .err .unreadable
  | some f =>
    if json then
      match f.json with
      | none => .err .unreadable
      | some d => loadErr (Blueprint.fromJson cx env d)
    else
      match f.yaml with
      | none => .err .unreadable
      | some ds => loadErr (Blueprint.fromYaml cx env ds)

/-! ## Setting up -/

/-- The application after `setup`: the configuration returned, whether tracing is on
(`app_tracing_enabled`), and the routers. `core/src/application.rs` 43-55. -/
structure Application where
  config : Wire.AppConfig
  tracing : Bool
  app : RtConfig.App
  deriving DecidableEq

/-- The WebSocket part of the API, `setup_http_server_app`, core/src/application.rs 186-187. -/
def wsConfig (cfg : Transform.ApiConfig) : Outcome StartErr (Option RtConfig.WsConfig) :=
  match cfg.websocket with
  | none => .ok none
  | some (handlers, _) =>
    match Transform.resolveWebsocketBasePath cfg.http.isSome [] with
    | .error _ => .err .hybridNeedsBasePath
    | .ok path => .ok (some ⟨String.ofList path,
        handlers.map fun h => (String.ofList h.route, String.ofList h.handler)⟩)

/-- The error type of the routers; `RtConfig.setup` has no errors. -/
def routerErr {A : Type} : Outcome String A → Outcome StartErr A
  | .ok a => .ok a
  | .err _ => .err .unreadable
  | .panic => .panic

/-- `Application::setup`, core/src/application.rs 73-129. A missing API is no error (line 85); the
functions that set up consumers, 131-164, change nothing. -/
def setup (c : RtConfig.Config) (file : Option (File F)) : Outcome StartErr Application := do
  let b ← load cx env (readsJson c.blueprintPath.toList) file
  match Transform.collectApiConfig showF (view b) (c.apiResource.map String.toList) with
  | .ok cfg => do
    let ws ← wsConfig cfg
    let a ← routerErr (RtConfig.setup c (some ws))
    pure { config := Wire.appConfig (some cfg), tracing := cfg.tracingEnabled, app := a }
  | .error .apiMissing => do
    let a ← routerErr (RtConfig.setup c none)
    pure { config := Wire.appConfig none, tracing := false, app := a }
  | .error e => .err (.config e)

/-- `WorkflowApplication::setup`, workflow/src/application.rs 89-103, up to the configuration;
`none` is `ConfigError::WorkflowMissing`. -/
def setupWorkflow (path : Str) (file : Option (File F)) :
    Outcome StartErr (Option (Wire.WorkflowConfig F)) := do
  let b ← load cx env (workflowReadsJson path) file
  pure (Wire.collectWorkflow b)

end

/-! ## Running and shutting down -/

/-- A server task: serving; told to stop, so that it accepts no connections; or gone with the
runtime of tokio, without having been told. -/
inductive Status where
  | serving | stopping | gone
  deriving Repr, DecidableEq

/-- The application as far as its servers are concerned. `http` and `localApi`: there is a router;
the signals are the servers that the senders kept belong to; `servers` are all tasks spawned so far,
by number. `subscriber`: the process has a global trace subscriber.
`core/src/application.rs` 43-55. -/
structure Life where
  http : Bool
  localApi : Bool
  tracing : Bool
  testMode : Bool
  subscriber : Bool
  servers : List Status
  httpSignal : Option Nat
  localSignal : Option Nat
  deriving Repr, DecidableEq

/-- What a call of `run` or `shutdown` leads to, core/src/application.rs 228-270 and 393-402. -/
inductive Result where
  | ok
  | tracerTryInit
  | openTelemetryTrace
  | panic
  deriving Repr, DecidableEq

/-- What the outside does in a call of `run`: whether the trace pipeline can be installed and
whether the sockets can be bound. -/
structure Outside where
  pipeline : Bool
  bindHttp : Bool
  bindLocal : Bool
  deriving Repr, DecidableEq

/-- A server is told to stop, core/src/application.rs 281-283 and 329-331. -/
def stop (l : List Status) (i : Nat) : List Status :=
  match l[i]? with
  | some .serving => l.set i .stopping
  | _ => l

/-- A sender is dropped, which ends `rx.await` (core/src/application.rs 281-283 and 329-331). -/
def dropSender (l : List Status) : Option Nat → List Status
  | none => l
  | some i => stop l i

/-- `setup_tracing`, telemetry.rs 35-106, as called by `run`, core/src/application.rs 231-233. In test
mode no global subscriber is set (telemetry.rs 83-92). -/
def setupTracing (o : Outside) (s : Life) : Life × Result :=
  if s.tracing then
    if o.pipeline then
      if s.testMode then (s, .ok)
      else if s.subscriber then (s, .tracerTryInit)
      else ({ s with subscriber := true }, .ok)
    else (s, .openTelemetryTrace)
  else (s, .ok)

/-- `run_http_server_app`, core/src/application.rs 291-338: binding panics when it fails; then the
server is spawned and its sender kept, in place of the one kept before. -/
def runHttp (o : Outside) (s : Life) : Life × Result :=
  if s.http then
    if o.bindHttp then
      ({ s with
          servers := dropSender (s.servers ++ [.serving]) s.httpSignal
          httpSignal := some s.servers.length }, .ok)
    else (s, .panic)
  else (s, .ok)

/-- `start_runtime_local_api`, core/src/application.rs 272-289. -/
def runLocal (o : Outside) (s : Life) : Life × Result :=
  if s.localApi then
    if o.bindLocal then
      ({ s with
          servers := dropSender (s.servers ++ [.serving]) s.localSignal
          localSignal := some s.servers.length }, .ok)
    else (s, .panic)
  else (s, .ok)

/-- `run`, core/src/application.rs 228-270, until the servers are started. -/
def run (o : Outside) (s : Life) : Life × Result :=
  match setupTracing o s with
  | (s, .ok) =>
    match runHttp o s with
    | (s, .ok) => runLocal o s
    | r => r
  | r => r

/-- `tx.send(()).expect(..)`, core/src/application.rs 393-402: panics when the receiver is gone. -/
def send (l : List Status) (i : Nat) : Option (List Status) :=
  match l[i]? with
  | some .gone => none
  | _ => some (stop l i)

/-- `shutdown`, core/src/application.rs 393-402. -/
def shutdown (s : Life) : Life × Result :=
  let first : Life × Result :=
    match s.httpSignal with
    | none => (s, .ok)
    | some i =>
      match send s.servers i with
      | none => ({ s with httpSignal := none }, .panic)
      | some l => ({ s with servers := l, httpSignal := none }, .ok)
  match first with
  | (s, .ok) =>
    match s.localSignal with
    | none => (s, .ok)
    | some i =>
      match send s.servers i with
      | none => ({ s with localSignal := none }, .panic)
      | some l => ({ s with servers := l, localSignal := none }, .ok)
  | r => r

/-- What happens to an application: calls, and the end of the runtime of tokio that its servers run
on. -/
inductive Op where
  | run (o : Outside)
  | shutdown
  | endRuntime
  deriving Repr, DecidableEq

/-- One call or event. -/
def step (s : Life) : Op → Life
  | .run o => (run o s).1
  | .shutdown => (shutdown s).1
  | .endRuntime => { s with servers := s.servers.map fun t => if t = .serving then .gone else t }

/-- A history. -/
def steps (s : Life) (ops : List Op) : Life := ops.foldl step s

/-- An application that was set up and not run. -/
def fresh (http localApi tracing testMode subscriber : Bool) : Life :=
  ⟨http, localApi, tracing, testMode, subscriber, [], none, none⟩

end Verif.Startup
