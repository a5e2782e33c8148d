import Verif.Base
import Verif.Text

/-!
# Model of the runtime's configuration and of starting the application

Source: `/repo/libs/runtime/core/src/config.rs`, `/repo/libs/runtime/core/src/consts.rs` and
`/repo/libs/runtime/core/src/application.rs`.

Simplified: an environment variable that is not valid Unicode is treated like one that is not set
(`env.var(..)` returns an error in both cases and the code does not distinguish them). Routers of
the `axum` library are tables from literal paths and methods to handlers: path parameters,
overlapping patterns, middleware and tracing are left out.
-/

namespace Verif.RtConfig

open Verif.Text

/-- `RuntimeCallMode` (`helpers/src/runtime_types.rs` 6-18). -/
inductive CallMode
  | ffi | http
  deriving DecidableEq, Repr

/-- `RuntimePlatform` (`helpers/src/runtime_types.rs` 22-28). -/
inductive Platform
  | aws | azure | gcp | local' | other
  deriving DecidableEq, Repr

/-- `tracing::Level`. -/
inductive Level
  | error | warn | info | debug | trace
  deriving DecidableEq, Repr

/-- `RuntimeConfig` (`config.rs` 16-94). -/
structure Config where
  blueprintPath : String
  callMode : CallMode
  serviceName : String
  serverPort : Int
  loopbackOnly : Option Bool
  localApiPort : Int
  customHealthCheck : Option Bool
  otlpEndpoint : String
  level : Level
  platform : Platform
  testMode : Bool
  apiResource : Option String
  consumerApp : Option String
  scheduleApp : Option String
  deriving DecidableEq, Repr

/-- The environment. -/
abbrev Env := String → Option String

/-- `str::parse::<bool>`. -/
def parseBool (s : String) : Option Bool :=
  if s = "true" then some true else if s = "false" then some false else none

/-- `Level::from_str` of `tracing-core`: a number from 1 to 5 or a name in any case. -/
def parseLevel (s : String) : Option Level :=
  match parseUnsigned (2 ^ 64) s.toList with
  | some 1 => some .error
  | some 2 => some .warn
  | some 3 => some .info
  | some 4 => some .debug
  | some 5 => some .trace
  | _ =>
    let l := s.toList.map Char.toLower
    if l = "error".toList then some .error
    else if l = "warn".toList then some .warn
    else if l = "info".toList then some .info
    else if l = "debug".toList then some .debug
    else if l = "trace".toList then some .trace
    else none

/-- `expect`/`unwrap`: panics without a value. -/
def expect {α : Type} : Option α → Outcome String α
  | some a => .ok a
  | none => .panic

/-- An optional variable that must be well-formed when it is set (lines 124-128, 136-141). -/
def optionalBool (v : Option String) : Outcome String (Option Bool) :=
  match v with
  | none => .ok none
  | some s => match parseBool s with
    | some b => .ok (some b)
    | none => .panic

/-- `DEFAULT_LOCAL_API_PORT` (`consts.rs` 29). -/
def defaultLocalApiPort : String := "8592"

/-- The call mode of a name (`config.rs` 109-113). -/
def callModeOf : String → Outcome String CallMode
  | "ffi" => .ok .ffi
  | "http" => .ok .http
  | _ => .panic

/-- The platform of a name (`config.rs` 156-162). -/
def platformOf : String → Platform
  | "aws" => .aws
  | "azure" => .azure
  | "gcp" => .gcp
  | "local" => .local'
  | _ => .other

/-- `RuntimeConfig::from_env` (`config.rs` 100-194). -/
def fromEnv (env : Env) : Outcome String Config := do
  let blueprint ← expect (env "CELERITY_BLUEPRINT")
  let mode ← expect (env "CELERITY_RUNTIME_CALL_MODE")
  let mode ← callModeOf mode
  let service ← expect (env "CELERITY_SERVICE_NAME")
  let port ← expect (env "CELERITY_SERVER_PORT")
  let port ← expect (parseSigned 32 port.toList)
  let loopback ← optionalBool (env "CELERITY_SERVER_LOOPBACK_ONLY")
  let localPort ← expect
    (parseSigned 32 ((env "CELERITY_LOCAL_API_PORT").getD defaultLocalApiPort).toList)
  let health ← optionalBool (env "CELERITY_USE_CUSTOM_HEALTH_CHECK")
  let endpoint := (env "CELERITY_TRACE_OTLP_COLLECTOR_ENDPOINT").getD ""
  let level ← expect (parseLevel ((env "CELERITY_MAX_DIAGNOSTICS_LEVEL").getD "info"))
  let platform ← expect (env "CELERITY_RUNTIME_PLATFORM")
  let test ← optionalBool (env "CELERITY_TEST_MODE")
  return {
    blueprintPath := blueprint, callMode := mode, serviceName := service, serverPort := port,
    loopbackOnly := loopback, localApiPort := localPort, customHealthCheck := health,
    otlpEndpoint := endpoint, level := level, platform := platformOf platform, testMode := test.getD false,
    apiResource := env "CELERITY_API_RESOURCE", consumerApp := env "CELERITY_CONSUMER_APP",
    scheduleApp := env "CELERITY_SCHEDULE_APP" }

/-! ## Starting the application -/

/-- A request method. -/
inductive Method
  | get | head | options | trace | post | put | patch | delete
  deriving DecidableEq, Repr

/-- What a route leads to. -/
inductive Target
  | health
  | websocket
  | handler (id : String)
  deriving DecidableEq, Repr

/-- A router: which target serves a path and method. -/
abbrev Router := List ((String × Method) × Target)

/-- `axum::Router::route` for one method: panics when the path already has a target for it. -/
def addRoute (r : Router) (path : String) (m : Method) (t : Target) : Outcome String Router :=
  match r.lookup (path, m) with
  | some _ => .panic
  | none => .ok (((path, m), t) :: r)

/-- Dispatch of a request; a `HEAD` request falls back to the `GET` target. -/
def dispatch (r : Router) (path : String) (m : Method) : Option Target :=
  match r.lookup (path, m) with
  | some t => some t
  | none => if m = .head then r.lookup (path, .get) else none

/-- `DEFAULT_RUNTIME_HEALTH_CHECK_ENDPOINT` (`consts.rs` 32). -/
def healthPath : String := "/runtime/health/check"

/-- The WebSocket part of an API configuration: the base path and the configured handlers as pairs
of a route and the handler serving it. -/
structure WsConfig where
  basePath : String
  handlers : List (String × String)
  deriving DecidableEq, Repr

/-- The state of the application that matters here (`application.rs` 44-55): the router of the
server, the routes the WebSocket endpoint knows and whether there is a local API. -/
structure App where
  config : Config
  http : Option Router
  wsRoutes : List (String × String)
  localApi : Bool
  deriving DecidableEq, Repr

/-- The router with the health check, unless the application has its own
(`application.rs` 172-183). -/
def healthRouter (c : Config) : Outcome String Router :=
  if c.customHealthCheck.getD false then .ok [] else addRoute [] healthPath .get .health

/-- `setup_http_server_app` (`application.rs` 166-210): the routes of the WebSocket endpoint are an
empty map (line 203). -/
def setupHttp (c : Config) (ws : Option WsConfig) :
    Outcome String (Router × List (String × String)) := do
  let r ← healthRouter c
  match ws with
  | none => return (r, [])
  | some w => do
    let r ← addRoute r w.basePath .get .websocket
    return (r, [])

/-- `setup` (`application.rs` 73-129) after the blueprint was loaded: `api` is the API found in it,
if any, with its WebSocket part. -/
def setup (c : Config) (api : Option (Option WsConfig)) : Outcome String App := do
  let localApi := decide (c.callMode = .http)
  match api with
  | none => return ⟨c, none, [], localApi⟩
  | some ws => do
    let (r, routes) ← setupHttp c ws
    return ⟨c, some r, routes, localApi⟩

/-- The method names `register_http_handler` knows (`application.rs` 358-389). -/
def methodOf (s : String) : Option Method :=
  let l := s.toList.map Char.toLower
  if l = "get".toList then some .get
  else if l = "head".toList then some .head
  else if l = "options".toList then some .options
  else if l = "trace".toList then some .trace
  else if l = "post".toList then some .post
  else if l = "put".toList then some .put
  else if l = "patch".toList then some .patch
  else if l = "delete".toList then some .delete
  else none

/-- `register_http_handler` (`application.rs` 349-391). -/
def register (a : App) (path method handler : String) : Outcome String App :=
  match a.http with
  | none => .ok a
  | some r =>
    match methodOf method with
    | none => .ok a
    | some m => (addRoute r path m (.handler handler)).bind fun r' => .ok { a with http := some r' }

/-- The handler a WebSocket message with a route reaches (`websocket.rs` 167, 186). -/
def wsHandler (a : App) (route : String) : Option String := a.wsRoutes.lookup route

/-- A listening socket: host and port. -/
structure Listener where
  host : String
  port : Int
  deriving DecidableEq, Repr

/-- The listeners `run` opens (`application.rs` 238-249, 272-289, 310-319): the server's and the local
API's. -/
def listeners (a : App) : List Listener :=
  (match a.http with
    | some _ => [⟨if a.config.loopbackOnly.getD true then "127.0.0.1" else "0.0.0.0",
        a.config.serverPort⟩]
    | none => []) ++
  (if a.localApi then [⟨"127.0.0.1", a.config.localApiPort⟩] else [])

end Verif.RtConfig
