import Verif.Subst.Model

/-!
# Model of the blueprint to runtime configuration transformation

`libs/runtime/core/src/transform_config.rs` and `libs/runtime/core/src/blueprint_helpers.rs`.

Hash maps are association lists in the order in which the map happens to be iterated; looking up
a key is `List.lookup`. The `Display` of floats is a parameter.
-/

namespace Verif.Transform

open Verif Verif.Subst

/-- `enum CelerityResourceType`, blueprint.rs 163-184. -/
inductive ResourceType where
  | api | consumer | schedule | handler | handlerConfig | workflow
  | config | bucket | topic | queue
  deriving Repr, DecidableEq

/-- `struct CelerityHandlerSpec`, blueprint.rs 239-259, the fields used by the transformation. -/
structure HandlerSpec where
  codeLocation : Option Str
  timeout : Option Int
  tracingEnabled : Option Bool
  deriving Repr, DecidableEq

/-- `struct SharedHandlerConfig`, blueprint.rs 759-775, the fields used by the transformation. -/
structure SharedConfig where
  codeLocation : Option Str
  timeout : Option Int
  tracingEnabled : Option Bool
  deriving Repr, DecidableEq

/-- `enum CelerityApiProtocol`, blueprint.rs 336-343; of the WebSocket configuration only the
route key is used here. -/
inductive Protocol where
  | http
  | webSocket
  | webSocketConfig (routeKey : Option Str)
  deriving Repr, DecidableEq

/-- `struct CelerityApiSpec`, blueprint.rs 279-290, the fields used by the transformation. -/
structure ApiSpec where
  protocols : List Protocol
  tracingEnabled : Option Bool
  deriving Repr, DecidableEq

/-- `enum CelerityResourceSpec`, blueprint.rs 220-234; the kinds that play no role here are
`other`. -/
inductive ResourceSpec where
  | handler (s : HandlerSpec)
  | handlerConfig (s : SharedConfig)
  | api (s : ApiSpec)
  | other
  deriving Repr, DecidableEq

/-- `struct RuntimeBlueprintResource` with its metadata, blueprint.rs 130-140 and 189-196. -/
structure Resource (F : Type) where
  resourceType : ResourceType
  annotations : Option (List (Str × Scalar F))
  labels : Option (List (Str × Str))
  linkSelector : Option (List (Str × Str))
  spec : ResourceSpec
  deriving Repr, DecidableEq

/-- `struct BlueprintConfig`, blueprint.rs 42-51: resources and `metadata` (whose only field is the
shared handler configuration, blueprint.rs 750-754). -/
structure Blueprint (F : Type) where
  resources : List (Str × Resource F)
  metadata : Option (Option SharedConfig)
  deriving Repr, DecidableEq

/-- The filter closure of `select_resources`, blueprint_helpers.rs 24-34: the comparison of the
label value is only tested for being present (`.map(..).is_some()`). -/
def labelFilter {F : Type} (ty : ResourceType) (key value : Str) (r : Resource F) : Bool :=
  match r.labels with
  | some labels =>
    ((labels.lookup key).map (fun v => v == value)).isSome && r.resourceType == ty
  | none => false

/-- `select_resources`, blueprint_helpers.rs 14-45. -/
def selectResources {F : Type} (selector : Option (List (Str × Str))) (bp : Blueprint F)
    (ty : ResourceType) : List (Str × Resource F) :=
  match selector with
  | none => []
  | some byLabel =>
    byLabel.flatMap (fun kv => bp.resources.filter (fun nr => labelFilter ty kv.1 kv.2 nr.2))

/-- `enum ConfigError`, core/src/errors.rs 43-46, with one constructor per message built in
transform_config.rs. -/
inductive ConfigError where
  | apiMissing
  | missingHandlerSpec (name : Str)
  | alreadyCollected (name : Str)
  | missingLocation (name : Str)
  | invalidApiSpec
  deriving Repr, DecidableEq

/-- `MAX_HANDLER_TIMEOUT`, consts.rs 20. -/
def maxHandlerTimeout : Int := 3600
/-- `DEFAULT_HANDLER_TIMEOUT`, consts.rs 23. -/
def defaultHandlerTimeout : Int := 60
/-- `DEFAULT_TRACING_ENABLED`, consts.rs 26. -/
def defaultTracingEnabled : Bool := false
/-- `DEFAULT_WEBSOCKET_API_ROUTE_KEY`, consts.rs 35. -/
def defaultRouteKey : Str := "event".toList

/-- The handler configuration carried by a linked resource
(`match &config.resource.spec { HandlerConfig(c) => .., _ => None }`), transform_config.rs 357-365 and 392-397. -/
def linkedConfig {F : Type} : Option (Str × Resource F) → Option SharedConfig
  | some (_, r) =>
    match r.spec with
    | .handlerConfig c => some c
    | _ => none
  | none => none

/-- `metadata.shared_handler_config`, transform_config.rs 367, 403 and 430. -/
def sharedConfig (md : Option (Option SharedConfig)) : Option SharedConfig :=
  match md with
  | some (some c) => some c
  | _ => none

/-- `resolve_handler_location`, transform_config.rs 350-382. -/
def resolveLocation {F : Type} (name : Str) (spec : HandlerSpec)
    (config : Option (Str × Resource F)) (md : Option (Option SharedConfig)) :
    Except ConfigError Str :=
  let final := spec.codeLocation.or
    (((linkedConfig config).bind (·.codeLocation)).or
      ((sharedConfig md).bind (·.codeLocation)))
  match final with
  | some l => .ok l
  | none => .error (.missingLocation name)

/-- `resolve_handler_timeout`, transform_config.rs 384-410 (`max`, as in the code). -/
def resolveTimeout {F : Type} (spec : HandlerSpec) (config : Option (Str × Resource F))
    (md : Option (Option SharedConfig)) : Int :=
  (((spec.timeout.map (fun t => max t maxHandlerTimeout)).or
    (((linkedConfig config).bind (·.timeout)).map (fun t => max t maxHandlerTimeout))).or
    ((sharedConfig md).bind (·.timeout))).getD defaultHandlerTimeout

/-- `resolve_tracing_enabled`, transform_config.rs 412-437. -/
def resolveTracing {F : Type} (spec : HandlerSpec) (config : Option (Str × Resource F))
    (md : Option (Option SharedConfig)) : Bool :=
  (spec.tracingEnabled.or
    (((linkedConfig config).bind (·.tracingEnabled)).or
      ((sharedConfig md).bind (·.tracingEnabled)))).getD defaultTracingEnabled

/-- `str::split('/')`: always at least one part. -/
def splitSlash : Str → List Str
  | [] => [[]]
  | c :: cs =>
    if c = '/' then [] :: splitSlash cs
    else
      match splitSlash cs with
      | [] => [[c]]
      | p :: ps => (c :: p) :: ps

/-- `join("/")`. -/
def joinSlash : List Str → Str
  | [] => []
  | [p] => p
  | p :: q :: ps => p ++ '/' :: joinSlash (q :: ps)

/-- The closure of `to_axum_path`, transform_config.rs 456-467. The first and the last character
are different when both tests succeed, so the slice `[1..len - 1]` is in range. -/
def axumPart (part : Str) : Str :=
  if part.head? = some '{' ∧ part.getLast? = some '}' then
    let inner := (part.drop 1).dropLast
    if inner.getLast? = some '+' then '*' :: inner.dropLast
    else ':' :: inner
  else part

/-- `to_axum_path`, transform_config.rs 453-470. -/
def toAxumPath (path : Str) : Str := joinSlash ((splitSlash path).map axumPart)

/-- `struct HttpHandlerDefinition`, config.rs 223-232 (`name` is always empty). -/
structure HttpHandler where
  handler : Str
  path : Str
  method : Str
  location : Str
  timeout : Int
  tracingEnabled : Bool
  deriving Repr, DecidableEq

/-- `struct WebSocketHandlerDefinition`, config.rs 245-254 (`name` is always empty). -/
structure WsHandler where
  handler : Str
  routeKey : Str
  route : Str
  location : Str
  timeout : Int
  tracingEnabled : Bool
  deriving Repr, DecidableEq

section collect
variable {F : Type} (showF : F → Str)

/-- `impl Display for BlueprintScalarValue`, blueprint.rs 111-120. -/
def display : Scalar F → Str
  | .str s => s
  | .int n => (toString n).toList
  | .float f => showF f
  | .bool b => (if b then "true" else "false").toList

/-- `apply_http_handler_configurations`, transform_config.rs 290-318. -/
def applyHttp (name : Str) (spec : HandlerSpec) (configs : List (Str × Resource F))
    (md : Option (Option SharedConfig)) (method path : Str) : Except ConfigError HttpHandler :=
  match resolveLocation name spec configs.head? md with
  | .error e => .error e
  | .ok location => .ok
    { handler := name
      path := toAxumPath path
      method := method
      location := location
      timeout := resolveTimeout spec configs.head? md
      tracingEnabled := resolveTracing spec configs.head? md }

/-- `apply_websocket_handler_configurations`, transform_config.rs 320-348. -/
def applyWs (name : Str) (spec : HandlerSpec) (configs : List (Str × Resource F))
    (md : Option (Option SharedConfig)) (route routeKey : Str) : Except ConfigError WsHandler :=
  match resolveLocation name spec configs.head? md with
  | .error e => .error e
  | .ok location => .ok
    { handler := name
      route := route
      routeKey := routeKey
      location := location
      timeout := resolveTimeout spec configs.head? md
      tracingEnabled := resolveTracing spec configs.head? md }

/-- `check_handler_already_collected`, transform_config.rs 276-288. -/
def checkCollected (name : Str) (collected : List Str) : Except ConfigError Unit :=
  if collected.contains name then .error (.alreadyCollected name) else .ok ()

/-- The two nested `if let` and the `if` guarding a protocol, transform_config.rs 110-114 and
185-189: the annotations of a handler whose annotation `key` is the boolean `true`. -/
def enabledFor (key : Str) (r : Resource F) : Option (List (Str × Scalar F)) :=
  match r.annotations with
  | some annotations =>
    match annotations.lookup key with
    | some (.bool true) => some annotations
    | _ => none
  | none => none

/-- Names of the annotations, consts.rs 2-17. -/
def httpKey : Str := "celerity.handler.http".toList
def httpMethodKey : Str := "celerity.handler.http.method".toList
def httpPathKey : Str := "celerity.handler.http.path".toList
def wsKey : Str := "celerity.handler.websocket".toList
def wsRouteKey : Str := "celerity.handler.websocket.route".toList

/-- `collect_http_handler_definition`, transform_config.rs 143-174, without the pushes. -/
def httpDefinition (bp : Blueprint F) (h : Str × Resource F) (method path : Str) :
    Except ConfigError HttpHandler :=
  match h.2.spec with
  | .handler spec =>
    applyHttp h.1 spec (selectResources h.2.linkSelector bp .handlerConfig) bp.metadata method path
  | _ => .error (.missingHandlerSpec h.1)

/-- `collect_http_handler_definitions`, transform_config.rs 102-141; `collected` and `acc` are the
two vectors the loop pushes to. -/
def collectHttp (bp : Blueprint F) (collected : List Str) (acc : List HttpHandler) :
    List (Str × Resource F) → Except ConfigError (List HttpHandler × List Str)
  | [] => .ok (acc, collected)
  | h :: rest =>
    match enabledFor httpKey h.2 with
    | none => collectHttp bp collected acc rest
    | some annotations =>
      match checkCollected h.1 collected with
      | .error e => .error e
      | .ok () =>
        let method := ((annotations.lookup httpMethodKey).map (display showF)).getD "GET".toList
        let path := ((annotations.lookup httpPathKey).map (display showF)).getD "/".toList
        match httpDefinition bp h method path with
        | .error e => .error e
        | .ok d => collectHttp bp (collected ++ [h.1]) (acc ++ [d]) rest

/-- `resolve_websocket_api_route_key`, transform_config.rs 217-241. -/
def resolveRouteKey : ResourceSpec → Except ConfigError Str
  | .api api =>
    match api.protocols.find? (fun p => match p with | .webSocketConfig _ => true | _ => false) with
    | some (.webSocketConfig k) => .ok (k.getD defaultRouteKey)
    | some _ => .ok defaultRouteKey
    | none => .ok defaultRouteKey
  | _ => .error .invalidApiSpec

/-- `collect_websocket_handler_definition`, transform_config.rs 243-274, without the pushes. -/
def wsDefinition (bp : Blueprint F) (h : Str × Resource F) (route routeKey : Str) :
    Except ConfigError WsHandler :=
  match h.2.spec with
  | .handler spec =>
    applyWs h.1 spec (selectResources h.2.linkSelector bp .handlerConfig) bp.metadata route routeKey
  | _ => .error (.missingHandlerSpec h.1)

/-- `collect_ws_handler_definitions`, transform_config.rs 176-215. -/
def collectWs (bp : Blueprint F) (apiSpec : ResourceSpec) (collected : List Str)
    (acc : List WsHandler) :
    List (Str × Resource F) → Except ConfigError (List WsHandler × List Str)
  | [] => .ok (acc, collected)
  | h :: rest =>
    match enabledFor wsKey h.2 with
    | none => collectWs bp apiSpec collected acc rest
    | some annotations =>
      match checkCollected h.1 collected with
      | .error e => .error e
      | .ok () =>
        let route := ((annotations.lookup wsRouteKey).map (display showF)).getD "$default".toList
        match resolveRouteKey apiSpec with
        | .error e => .error e
        | .ok key =>
          match wsDefinition bp h route key with
          | .error e => .error e
          | .ok d => collectWs bp apiSpec (collected ++ [h.1]) (acc ++ [d]) rest

/-- `get_api_resource`, transform_config.rs 78-100; `apiName` is `runtime_config.api_resource`. -/
def getApiResource (bp : Blueprint F) (apiName : Option Str) :
    Except ConfigError (Resource F) :=
  match bp.resources.find? (fun nr =>
    match apiName with
    | some n => nr.1 == n && nr.2.resourceType == .api
    | none => nr.2.resourceType == .api) with
  | some nr => .ok nr.2
  | none => .error .apiMissing

/-- `resolve_api_tracing_enabled`, transform_config.rs 439-446. -/
def resolveApiTracing : ResourceSpec → Bool
  | .api s => s.tracingEnabled.getD defaultTracingEnabled
  | _ => defaultTracingEnabled

/-- `struct ApiConfig`, config.rs 205-211: the parts set by `collect_api_config` (base paths, auth and
CORS are always empty). The WebSocket part carries its own route key. -/
structure ApiConfig where
  http : Option (List HttpHandler)
  websocket : Option (List WsHandler × Str)
  tracingEnabled : Bool
  deriving Repr, DecidableEq

/-- `collect_api_config`, transform_config.rs 23-76. The WebSocket route key is the default one,
as in line 69. -/
def collectApiConfig (bp : Blueprint F) (apiName : Option Str) : Except ConfigError ApiConfig :=
  match getApiResource bp apiName with
  | .error e => .error e
  | .ok api =>
    let targets := selectResources api.linkSelector bp .handler
    match collectHttp showF bp [] [] targets with
    | .error e => .error e
    | .ok (https, collected) =>
      match collectWs showF bp api.spec collected [] targets with
      | .error e => .error e
      | .ok (wss, _) => .ok
        { http := if https.isEmpty then none else some https
          websocket := if wss.isEmpty then none else some (wss, defaultRouteKey)
          tracingEnabled := resolveApiTracing api.spec }

end collect

/-- Errors of `Application::setup` reachable from the API part, core/src/errors.rs 60-70. -/
inductive StartError where
  | config (e : ConfigError)
  | hybridNeedsBasePath
  deriving Repr, DecidableEq

/-- `resolve_websocket_base_path`, application.rs 442-466. -/
def resolveWebsocketBasePath (hasHttp : Bool) (basePaths : List Str) : Except StartError Str :=
  if basePaths.isEmpty && hasHttp then .error .hybridNeedsBasePath
  else
    match basePaths with
    | [] => .ok "/".toList
    | p :: _ => .ok p

/-- `setup_http_server_app`, application.rs 166-210: the path and the route key of the WebSocket
endpoint, if there is one. `collect_api_config` leaves the base paths empty
(transform_config.rs 66-70). The health check route and the connection registry are not
modelled here. -/
def setupWebsocket (cfg : ApiConfig) : Except StartError (Option (Str × Str)) :=
  match cfg.websocket with
  | none => .ok none
  | some (_, routeKey) =>
    match resolveWebsocketBasePath cfg.http.isSome [] with
    | .error e => .error e
    | .ok path => .ok (some (path, routeKey))

/-- `Application::setup` up to the HTTP server, application.rs 73-87: transformation then set up. -/
def startApi {F : Type} (showF : F → Str) (bp : Blueprint F) (apiName : Option Str) :
    Except StartError (Option (Str × Str)) :=
  match collectApiConfig showF bp apiName with
  | .error e => .error (.config e)
  | .ok cfg => setupWebsocket cfg

end Verif.Transform
