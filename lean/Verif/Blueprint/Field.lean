import Verif.Blueprint.Resolve

/-!
# The fields named by errors of resolution

`libs/runtime/blueprint-config-parser/src/resolve_substitutions.rs`. Every function there is handed
the path of its field, which only shows in errors. `Verif.Blueprint.Resolve` leaves the paths out;
here they are put back. The functions for single values (1621-1919) hand on the path they are given,
so that their errors all carry it, except for the depth error, which has none (52, 1749-1751).

As in `Verif.Blueprint.Resolve`, the branches of a state are resolved after its other fields.
-/

namespace Verif.Blueprint.Field

open Verif Verif.Subst Verif.Blueprint

/-- An error with its field (`enum ResolveError`, 44-53). -/
abbrev Fault := ResolveError × Option Str

/-- The result of resolving. -/
abbrev PRes (A : Type) := Outcome Fault A

/-- The field in an error. -/
def withField (field : Str) : ResolveError → Fault
  | .maxResolveDepthExceeded d => (.maxResolveDepthExceeded d, none)
  | e => (e, some field)

/-- A function that hands on the path it is given. -/
def atField {A : Type} (field : Str) : Res A → PRes A
  | .ok a => .ok a
  | .err e => .err (withField field e)
  | .panic => .panic

/-- `keys.join(".")`. -/
def dotted : List Str → Str
  | [] => []
  | [k] => k
  | k :: ks => k ++ '.' :: dotted ks

/-- `field_path(&[field, key])`, 1933-1935. -/
def sub (field : Str) (key : String) : Str := dotted [field, key.toList]

/-- `resource_spec_field_path`, 1921-1927. -/
def specPath (name : Str) (keys : List Str) : Str :=
  if keys.isEmpty then "resources.".toList ++ name ++ ".spec".toList
  else "resources.".toList ++ name ++ ".spec.".toList ++ dotted keys

/-- `resource_metadata_field_path`, 1929-1931. -/
def metaPath (name : Str) (keys : List Str) : Str :=
  "resources.".toList ++ name ++ ".metadata.".toList ++ dotted keys

/-- A function applied inside an `Option`. -/
def pOpt {A B : Type} (f : A → PRes B) : Option A → PRes (Option B)
  | none => .ok none
  | some a => do
    let b ← f a
    pure (some b)

/-- A loop over a vector; positions are not part of the path. -/
def pList {A B : Type} (f : A → PRes B) : List A → PRes (List B)
  | [] => .ok []
  | a :: rest => do
    let b ← f a
    let bs ← pList f rest
    pure (b :: bs)

/-- A loop over a `HashMap`. -/
def pMap {A B : Type} (f : Str → A → PRes B) : List (Str × A) → PRes (List (Str × B))
  | [] => .ok []
  | (k, a) :: rest => do
    let b ← f k a
    let bs ← pMap f rest
    pure ((k, b) :: bs)

variable {F : Type} (cx : Ctx F) (env : Env)

/-- `resolve_optional_string_or_subs_map`, 1830-1852: the key is part of the path. -/
def atStrMap (field : Str) : Option (List (Str × Sos)) → PRes (Option (List (Str × Str))) :=
  pOpt (pMap fun k s => atField (dotted [field, k]) (resStr env s))

/-- `resolve_shared_handler_config`, 144-181. -/
def atShared (field : Str) (s : Shared Sos (Node F) (Node F)) : PRes (Shared Str Int Bool) := do
  let codeLocation ← atField (sub field "codeLocation") (resOptStr env s.codeLocation)
  let runtime ← atField (sub field "runtime") (resOptStr env s.runtime)
  let memory ← atField (sub field "memory") (resInt cx env s.memory)
  let timeout ← atField (sub field "timeout") (resInt cx env s.timeout)
  let tracingEnabled ← atField (sub field "tracingEnabled") (resBool cx env s.tracingEnabled)
  let environmentVariables ← atStrMap env (sub field "environmentVariables") s.environmentVariables
  pure { codeLocation, runtime, memory, timeout, tracingEnabled, environmentVariables }

/-- `resolve_handler_spec`, 278-325. -/
def atHandler (name : Str) (s : HandlerSpec Sos (Node F) (Node F)) :
    PRes (HandlerSpec Str Int Bool) := do
  let handlerName ← atField (specPath name ["handlerName".toList]) (resOptStr env s.handlerName)
  let codeLocation ← atField (specPath name ["codeLocation".toList]) (resOptStr env s.codeLocation)
  let handler ← atField (specPath name ["handler".toList]) (resStr env s.handler)
  let runtime ← atField (specPath name ["runtime".toList]) (resOptStr env s.runtime)
  let memory ← atField (specPath name ["memory".toList]) (resInt cx env s.memory)
  let timeout ← atField (specPath name ["timeout".toList]) (resInt cx env s.timeout)
  let tracingEnabled ← atField (specPath name ["tracingEnabled".toList])
    (resBool cx env s.tracingEnabled)
  let environmentVariables ← atStrMap env (specPath name ["environmentVariables".toList])
    s.environmentVariables
  pure { handlerName, codeLocation, handler, runtime, memory, timeout, tracingEnabled,
         environmentVariables }

/-- `resolve_data_stream_event_source_configuration` and
`resolve_database_stream_event_source_configuration`, 1058-1118; `id` is the name of the field of
the stream. -/
def atStream (field : Str) (id : String) (s : Stream Sos (Node F) (Node F)) :
    PRes (Stream Str Int Bool) := do
  let batchSize ← atField (sub field "batchSize") (resInt cx env s.batchSize)
  let streamId ← atField (sub field id) (resStr env s.streamId)
  let partialFailures ← atField (sub field "partialFailures") (resBool cx env s.partialFailures)
  let startFromBeginning ← atField (sub field "startFromBeginning")
    (resBool cx env s.startFromBeginning)
  pure { batchSize, streamId, partialFailures, startFromBeginning }

/-- `resolve_event_source_configuration`, 1007-1056; the events 1120-1132. -/
def atEvConfig (field : Str) : EvConfig Sos (Node F) (Node F) Sos →
    PRes (EvConfig Str Int Bool ObjEvent)
  | .objectStorage bucket events => do
    let bucket ← atField (sub field "bucket") (resStr env bucket)
    let events ← atField (sub field "events") (listM (resObjEvent env) events)
    pure (.objectStorage bucket events)
  | .dbStream c => do
    let c ← atStream cx env field "dbStreamId" c
    pure (.dbStream c)
  | .dataStream c => do
    let c ← atStream cx env field "dataStreamId" c
    pure (.dataStream c)

/-- `resolve_external_event_config`, 992-1005. -/
def atEvent (field : Str) (e : ExternalEvent Sos (Node F) (Node F) Sos) :
    PRes (ExternalEvent Str Int Bool ObjEvent) := do
  let config ← atEvConfig cx env (sub field "sourceConfiguration") e.config
  pure { sourceType := e.sourceType, config }

/-- `resolve_consumer_spec`, 361-403; the events 970-990. -/
def atConsumer (name : Str) (s : ConsumerSpec Sos (Node F) (Node F) Sos) :
    PRes (ConsumerSpec Str Int Bool ObjEvent) := do
  let sourceId ← atField (specPath name ["sourceId".toList]) (resOptStr env s.sourceId)
  let batchSize ← atField (specPath name ["batchSize".toList]) (resInt cx env s.batchSize)
  let visibilityTimeout ← atField (specPath name ["visibilityTimeout".toList])
    (resInt cx env s.visibilityTimeout)
  let waitTimeSeconds ← atField (specPath name ["waitTimeSeconds".toList])
    (resInt cx env s.waitTimeSeconds)
  let partialFailures ← atField (specPath name ["partialFailures".toList])
    (resBool cx env s.partialFailures)
  let routingKey ← atField (specPath name ["routingKey".toList]) (resOptStr env s.routingKey)
  let externalEvents ← pOpt (pMap fun k e =>
    atEvent cx env (dotted [specPath name ["externalEvents".toList], k]) e) s.externalEvents
  pure { sourceId, batchSize, visibilityTimeout, waitTimeSeconds, partialFailures, routingKey,
         externalEvents }

/-- `resolve_config_spec`, 419-436. -/
def atConfigSpec (name : Str) (s : ConfigSpec Sos) : PRes (ConfigSpec Str) := do
  let n ← atField (specPath name ["name".toList]) (resOptStr env s.name)
  let plaintext ← atField (specPath name ["plaintext".toList]) (optM (resStrs env) s.plaintext)
  pure { name := n, plaintext }

/-- `resolve_topic_spec`, 452-469. -/
def atTopic (name : Str) (s : TopicSpec Sos (Node F)) : PRes (TopicSpec Str Bool) := do
  let n ← atField (specPath name ["name".toList]) (resOptStr env s.name)
  let fifo ← atField (specPath name ["fifo".toList]) (resBool cx env s.fifo)
  pure { name := n, fifo }

/-- `resolve_queue_spec`, 471-493. -/
def atQueue (name : Str) (s : QueueSpec Sos (Node F) (Node F)) : PRes (QueueSpec Str Int Bool) := do
  let n ← atField (specPath name ["name".toList]) (resOptStr env s.name)
  let fifo ← atField (specPath name ["fifo".toList]) (resBool cx env s.fifo)
  let visibilityTimeout ← atField (specPath name ["visibilityTimeout".toList])
    (resInt cx env s.visibilityTimeout)
  pure { name := n, fifo, visibilityTimeout }

/-- `resolve_websocket_config`, 1498-1530. -/
def atWsConfig (field : Str) : Node F → PRes Protocol
  | .mapping m => do
    let routeKey ← atField (sub field "routeKey")
      (optM (resNodeStr cx env) (get? m "routeKey".toList))
    let auth ← atField (sub field "authStrategy") (optM (resWsAuth env) (get? m "authStrategy".toList))
    pure (.websocketConfig routeKey auth)
  | _ => .err (.parseError, some field)

/-- `resolve_api_protocol`, 1450-1496. -/
def atProtocol (field : Str) : Node F → PRes Protocol
  | .scalar (.str s) => atField field (protocolOfName s)
  | .subst v => atField field (do
    let s ← resStr env v
    protocolOfName s)
  | .mapping m =>
    match get? m "websocketConfig".toList with
    | some n => atWsConfig cx env (sub field "websocketConfig") n
    | none => .err (.parseError, some field)
  | _ => .err (.parseError, some field)

/-- `resolve_api_cors_config`, 1399-1436. -/
def atCorsConfig (field : Str) (s : CorsConfig Sos (Node F) (Node F)) :
    PRes (CorsConfig Str Int Bool) := do
  let allowCredentials ← atField (sub field "allowCredentials") (resBool cx env s.allowCredentials)
  let allowOrigins ← atField (sub field "allowOrigins") (optM (resStrs env) s.allowOrigins)
  let allowMethods ← atField (sub field "allowMethods") (optM (resStrs env) s.allowMethods)
  let allowHeaders ← atField (sub field "allowHeaders") (optM (resStrs env) s.allowHeaders)
  let exposeHeaders ← atField (sub field "exposeHeaders") (optM (resStrs env) s.exposeHeaders)
  let maxAge ← atField (sub field "maxAge") (resInt cx env s.maxAge)
  pure { allowCredentials, allowOrigins, allowMethods, allowHeaders, exposeHeaders, maxAge }

/-- `resolve_api_cors`, 1379-1397. -/
def atCors (field : Str) : Cors Sos (Node F) (Node F) → PRes (Cors Str Int Bool)
  | .str s => do
    let s ← atField field (resStr env s)
    pure (.str s)
  | .config c => do
    let c ← atCorsConfig cx env field c
    pure (.config c)

/-- `resolve_celerity_api_base_paths` and `resolve_api_base_path_config`, 1336-1377, with `key`
`basePath`; `resolve_optional_api_auth_guard_value_source` and
`resolve_api_auth_guard_value_source_config`, 1229-1275, with `key` `source`. -/
def atStrOrConfig (field : Str) (key : String) :
    StrOrConfig Sos (Node F) → PRes (StrOrConfig Str Protocol)
  | .str s => do
    let s ← atField field (resStr env s)
    pure (.str s)
  | .config c => do
    let protocol ← atProtocol cx env (sub field "protocol") c.protocol
    let value ← atField (sub field key) (resStr env c.value)
    pure (.config { protocol, value })

/-- `resolve_api_domain_config`, 1277-1312. -/
def atDomain (field : Str) (s : Domain Sos (Node F) (Node F) Sos) :
    PRes (Domain Str Bool Protocol SecPolicy) := do
  let domainName ← atField (sub field "domain_name") (resStr env s.domainName)
  let basePaths ← pList (atStrOrConfig cx env (sub field "basePaths") "basePath") s.basePaths
  let normalizeBasePath ← atField (sub field "normalizeBasePath") (resBool cx env s.normalizeBasePath)
  let certificateId ← atField (sub field "certificateId") (resStr env s.certificateId)
  let securityPolicy ← atField (sub field "securityPolicy") (optM (resSecPolicy env) s.securityPolicy)
  pure { domainName, basePaths, normalizeBasePath, certificateId, securityPolicy }

/-- `resolve_api_auth_guard`, 1187-1210: the type is resolved with the path of the guard itself. -/
def atGuard (field : Str) (s : Guard Sos (Node F) Sos) : PRes (Guard Str Protocol GuardType) := do
  let guardType ← atField field (resGuardType env s.guardType)
  let issuer ← atField (sub field "issuer") (resOptStr env s.issuer)
  let tokenSource ← pOpt (atStrOrConfig cx env (sub field "tokenSource") "source") s.tokenSource
  let audience ← atField (sub field "audience") (optM (resStrs env) s.audience)
  pure { guardType, issuer, tokenSource, audience }

/-- `resolve_api_auth` and `resolve_api_auth_guards`, 1152-1185: the name of a guard is not part of
the path. -/
def atAuth (field : Str) (s : Auth Sos (Node F) Sos) : PRes (Auth Str Protocol GuardType) := do
  let defaultGuard ← atField (sub field "defaultGuard") (resOptStr env s.defaultGuard)
  let guards ← pMap (fun _ g => atGuard cx env (sub field "guards") g) s.guards
  pure { defaultGuard, guards }

/-- `resolve_api_spec`, 327-359; the protocols 1438-1448. -/
def atApi (name : Str) (s : ApiSpec Sos (Node F) (Node F) (Node F) Sos Sos) :
    PRes (ApiSpec Str Int Bool Protocol SecPolicy GuardType) := do
  let protocols ← pList (atProtocol cx env (specPath name ["protocols".toList])) s.protocols
  let cors ← pOpt (atCors cx env (specPath name ["cors".toList])) s.cors
  let domain ← pOpt (atDomain cx env (specPath name ["domain".toList])) s.domain
  let auth ← pOpt (atAuth cx env (specPath name ["auth".toList])) s.auth
  let tracingEnabled ← atField (specPath name ["tracingEnabled".toList])
    (resBool cx env s.tracingEnabled)
  pure { protocols, cors, domain, auth, tracingEnabled }

/-- `resolve_workflow_condition`, 949-968. -/
def atCond (field : Str) (s : Cond Sos (Node F)) : PRes (Cond Str (RNode F)) := do
  let inputs ← atField (sub field "inputs") (listM (resolveNode cx.parseF env 4) s.inputs)
  let function ← atField (sub field "function") (resStr env s.function)
  pure { inputs, function }

/-- `resolve_workflow_decision`, 871-947: a single condition is resolved with the path of the
decisions. -/
def atRule (field : Str) (s : Rule Sos (Node F)) : PRes (Rule Str (RNode F)) := do
  let condition ← pOpt (atCond cx env field) s.condition
  let and ← pOpt (pList (atCond cx env (sub field "and"))) s.and
  let or ← pOpt (pList (atCond cx env (sub field "or"))) s.or
  let not ← pOpt (atCond cx env (sub field "not")) s.not
  let next ← atField (sub field "next") (resStr env s.next)
  pure { and, or, not, condition, next }

/-- `resolve_workflow_wait_config`, 638-655. -/
def atWait (field : Str) (s : WaitConfig Sos) : PRes (WaitConfig Str) := do
  let seconds ← atField (sub field "seconds") (resOptStr env s.seconds)
  let timestamp ← atField (sub field "timestamp") (resOptStr env s.timestamp)
  pure { seconds, timestamp }

/-- `resolve_workflow_failure_config`, 672-689. -/
def atFailure (field : Str) (s : FailureConfig Sos) : PRes (FailureConfig Str) := do
  let error ← atField (sub field "error") (resOptStr env s.error)
  let cause ← atField (sub field "cause") (resOptStr env s.cause)
  pure { error, cause }

/-- `resolve_workflow_retry_config`, 751-788. -/
def atRetry (field : Str) (s : Retry Sos (Node F) (Node F) (Node F)) :
    PRes (Retry Str Int Bool F) := do
  let matchErrors ← atField (sub field "matchErrors") (resStrs env s.matchErrors)
  let interval ← atField (sub field "interval") (resInt cx env s.interval)
  let maxAttempts ← atField (sub field "maxAttempts") (resInt cx env s.maxAttempts)
  let maxDelay ← atField (sub field "maxDelay") (resInt cx env s.maxDelay)
  let jitter ← atField (sub field "jitter") (resBool cx env s.jitter)
  let backoffRate ← atField (sub field "backoffRate") (resFloat cx env s.backoffRate)
  pure { matchErrors, interval, maxAttempts, maxDelay, jitter, backoffRate }

/-- `resolve_workflow_catch_config`, 809-831. -/
def atCatch (field : Str) (s : Catch Sos) : PRes (Catch Str) := do
  let matchErrors ← atField (sub field "matchErrors") (resStrs env s.matchErrors)
  let next ← atField (sub field "next") (resStr env s.next)
  let resultPath ← atField (sub field "resultPath") (resOptStr env s.resultPath)
  pure { matchErrors, next, resultPath }

/-- The fields of `resolve_workflow_state`, 531-621, other than the parallel branches. -/
def atStateFields (field : Str) (s : RawFields F) :
    PRes (StateFields Str Int Bool F (RNode F) StateType) := do
  let stateType ← atField (sub field "type") (resStateType env s.stateType)
  let inputPath ← atField (sub field "inputPath") (resOptStr env s.inputPath)
  let resultPath ← atField (sub field "resultPath") (resOptStr env s.resultPath)
  let outputPath ← atField (sub field "outputPath") (resOptStr env s.outputPath)
  let payloadTemplate ← atField (sub field "payloadTemplate")
    (optM (resTemplate cx env) s.payloadTemplate)
  let next ← atField (sub field "next") (resOptStr env s.next)
  let end_ ← atField (sub field "end") (resBool cx env s.end_)
  let decisions ← pOpt (pList (atRule cx env (sub field "decisions"))) s.decisions
  let description ← atField (sub field "description") (resOptStr env s.description)
  let result ← atField (sub field "result") (optM (resolveNode cx.parseF env 0) s.result)
  let timeout ← atField (sub field "timeout") (resInt cx env s.timeout)
  let waitConfig ← pOpt (atWait env (sub field "waitConfig")) s.waitConfig
  let failureConfig ← pOpt (atFailure env (sub field "failureConfig")) s.failureConfig
  let retry ← pOpt (pList (atRetry cx env (sub field "retry"))) s.retry
  let catch_ ← pOpt (pList (atCatch env (sub field "catch"))) s.catch_
  pure { stateType, description, inputPath, resultPath, outputPath, payloadTemplate, next, end_,
         decisions, result, timeout, waitConfig, failureConfig, retry, catch_ }

mutual
/-- `resolve_workflow_state`, 531-621. -/
def atState (field : Str) : RawState F → PRes (ResState F)
  | .mk f b => do
    let f ← atStateFields cx env field f
    let b ← atBranches (sub field "parallelBranches") b
    pure (.mk f b)
/-- `resolve_optional_workflow_parallel_branches`, 691-711. -/
def atBranches (field : Str) : Option (List (Sos × List (Str × RawState F))) →
    PRes (Option (List (Str × List (Str × ResState F))))
  | none => .ok none
  | some l => do
    let l ← atBranchList field l
    pure (some l)
/-- The loop over the branches, 698-706. -/
def atBranchList (field : Str) : List (Sos × List (Str × RawState F)) →
    PRes (List (Str × List (Str × ResState F)))
  | [] => .ok []
  | b :: rest => do
    let b ← atBranch field b
    let bs ← atBranchList field rest
    pure (b :: bs)
/-- `resolve_workflow_parallel_branch`, 713-730. -/
def atBranch (field : Str) : Sos × List (Str × RawState F) → PRes (Str × List (Str × ResState F))
  | (startAt, states) => do
    let startAt ← atField (sub field "startAt") (resStr env startAt)
    let states ← atStates (sub field "states") states
    pure (startAt, states)
/-- `resolve_workflow_states`, 514-529. -/
def atStates (field : Str) : List (Str × RawState F) → PRes (List (Str × ResState F))
  | [] => .ok []
  | e :: rest => do
    let s ← atStateEntry field e
    let ss ← atStates field rest
    pure (s :: ss)
/-- One state with its name, 520-527. -/
def atStateEntry (field : Str) : Str × RawState F → PRes (Str × ResState F)
  | (k, s) => do
    let s ← atState (dotted [field, k]) s
    pure (k, s)
end

/-- `resolve_workflow_spec`, 495-512. -/
def atWorkflow (name : Str) (s : WorkflowSpec Sos (Node F) (Node F) (Node F) (Node F) Sos) :
    PRes (WorkflowSpec Str Int Bool F (RNode F) StateType) := do
  let startAt ← atField (specPath name ["startAt".toList]) (resStr env s.startAt)
  let states ← atStates cx env (specPath name ["states".toList]) s.states
  pure { startAt, states }

/-- `resolve_resource_spec`, 222-276; schedules 405-417, buckets 438-450. -/
def atSpec (name : Str) : RawSpec F → PRes (ResSpec F)
  | .handler s => do let s ← atHandler cx env name s; pure (.handler s)
  | .api s => do let s ← atApi cx env name s; pure (.api s)
  | .consumer s => do let s ← atConsumer cx env name s; pure (.consumer s)
  | .schedule s => do
    let s ← atField (specPath name ["scheduleName".toList]) (resStr env s); pure (.schedule s)
  | .handlerConfig s => do let s ← atShared cx env (specPath name []) s; pure (.handlerConfig s)
  | .workflow s => do let s ← atWorkflow cx env name s; pure (.workflow s)
  | .config s => do let s ← atConfigSpec env name s; pure (.config s)
  | .bucket s => do
    let s ← atField (specPath name ["name".toList]) (resOptStr env s); pure (.bucket s)
  | .topic s => do let s ← atTopic cx env name s; pure (.topic s)
  | .queue s => do let s ← atQueue cx env name s; pure (.queue s)

/-- `resolve_resource_metadata` and `resolve_annotations`, 1570-1608. -/
def atMeta (name : Str) (s : Meta Sos (Node F)) : PRes (Meta Str (Scalar F)) := do
  let displayName ← atField (metaPath name ["displayName".toList]) (resStr env s.displayName)
  let annotations ← pOpt (pMap fun k n =>
    atField (metaPath name ["annotations".toList, k]) (resolveNodeToScalar cx.parseF env n))
    s.annotations
  pure { displayName, annotations, labels := s.labels }

/-- `resolve_blueprint_config_resource`, 204-220. -/
def atResource (name : Str) (s : RawResource F) : PRes (ResResource F) := do
  let metadata ← atMeta cx env name s.metadata
  let spec ← pOpt (atSpec cx env name) s.spec
  pure { type := s.type, metadata, linkSelector := s.linkSelector, description := s.description,
         spec }

/-- `resolve_blueprint_config_resources`, 183-202. -/
def atResources : List (Str × RawResource F) → PRes (List (Str × ResResource F))
  | [] => .ok []
  | (k, r) :: rest => do
    let r ← atResource cx env k r
    let rs ← atResources rest
    pure (if r.spec.isSome then (k, r) :: rs else rs)

/-- `resolve_blueprint_config_substitutions`, 97-108; the metadata 110-127. -/
def atBlueprint (b : RawConfig F) : PRes (ResConfig F) := do
  let resources ← atResources cx env b.resources
  let metadata ← pOpt (pOpt (atShared cx env
    (dotted ["metadata".toList, "sharedHandlerConfig".toList]))) b.metadata
  pure { version := b.version, transform := b.transform, variables := b.variables, resources,
         metadata }

end Verif.Blueprint.Field
