import Verif.Blueprint.Json

/-!
# Resolving the substitutions of a whole blueprint, and the entry points

`libs/runtime/blueprint-config-parser/src/resolve_substitutions.rs`, `parse.rs`,
`validate_parsed.rs`.

The paths of fields, which only occur in error messages, are added in `Verif.Blueprint.Field`. Fields are resolved in
the order in which the code writes them.
-/

namespace Verif.Blueprint

open Verif Verif.Subst

/-- The result of resolving. -/
abbrev Res (A : Type) := Outcome ResolveError A

/-- A function applied inside an `Option`, as in resolve_substitutions.rs 1610-1619 and the other
`resolve_optional_..` functions. -/
def optM {A B : Type} (f : A → Res B) : Option A → Res (Option B)
  | none => .ok none
  | some a => do
    let b ← f a
    pure (some b)

/-- A loop over a vector, as in resolve_substitutions.rs 1626-1634. -/
def listM {A B : Type} (f : A → Res B) : List A → Res (List B)
  | [] => .ok []
  | a :: rest => do
    let b ← f a
    let bs ← listM f rest
    pure (b :: bs)

/-- A loop over a `HashMap`, whose keys are distinct, as in resolve_substitutions.rs 1593-1604
and 1830-1852. -/
def mapM {A B : Type} (f : A → Res B) : List (Str × A) → Res (List (Str × B))
  | [] => .ok []
  | (k, a) :: rest => do
    let b ← f a
    let bs ← mapM f rest
    pure ((k, b) :: bs)

variable {F : Type} (cx : Ctx F) (env : Env)

/-- `resolve_string_or_substitutions_to_string`, resolve_substitutions.rs 1869-1883. -/
def resStr (s : Sos) : Res Str := resolveToString env [] s

/-- `resolve_optional_string_or_substitutions`, resolve_substitutions.rs 1854-1867. -/
def resOptStr : Option Sos → Res (Option Str) := optM (resStr env)

/-- `resolve_optional_mapping_node_to_int`, resolve_substitutions.rs 1637-1652. -/
def resInt : Option (Node F) → Res (Option Int) := resolveOptInt cx.parseF env

/-- `resolve_optional_mapping_node_to_bool`, resolve_substitutions.rs 1671-1686. -/
def resBool : Option (Node F) → Res (Option Bool) := resolveOptBool cx.parseF env

/-- `resolve_optional_mapping_node_to_float`, resolve_substitutions.rs 1654-1669. -/
def resFloat : Option (Node F) → Res (Option F) := resolveOptFloat cx.parseF env

/-- `resolve_string_or_subs_list`, resolve_substitutions.rs 1621-1635. -/
def resStrs : List Sos → Res (List Str) := listM (resStr env)

/-- `resolve_shared_handler_config`, resolve_substitutions.rs 144-181. -/
def resShared (s : Shared Sos (Node F) (Node F)) : Res (Shared Str Int Bool) := do
  let codeLocation ← resOptStr env s.codeLocation
  let runtime ← resOptStr env s.runtime
  let memory ← resInt cx env s.memory
  let timeout ← resInt cx env s.timeout
  let tracingEnabled ← resBool cx env s.tracingEnabled
  let environmentVariables ← optM (mapM (resStr env)) s.environmentVariables
  pure { codeLocation, runtime, memory, timeout, tracingEnabled, environmentVariables }

/-- `resolve_handler_spec`, resolve_substitutions.rs 278-325. -/
def resHandler (s : HandlerSpec Sos (Node F) (Node F)) : Res (HandlerSpec Str Int Bool) := do
  let handlerName ← resOptStr env s.handlerName
  let codeLocation ← resOptStr env s.codeLocation
  let handler ← resStr env s.handler
  let runtime ← resOptStr env s.runtime
  let memory ← resInt cx env s.memory
  let timeout ← resInt cx env s.timeout
  let tracingEnabled ← resBool cx env s.tracingEnabled
  let environmentVariables ← optM (mapM (resStr env)) s.environmentVariables
  pure { handlerName, codeLocation, handler, runtime, memory, timeout, tracingEnabled,
         environmentVariables }

/-- `resolve_database_stream_event_source_configuration` and
`resolve_data_stream_event_source_configuration`, resolve_substitutions.rs 1058-1118. -/
def resStream (s : Stream Sos (Node F) (Node F)) : Res (Stream Str Int Bool) := do
  let batchSize ← resInt cx env s.batchSize
  let streamId ← resStr env s.streamId
  let partialFailures ← resBool cx env s.partialFailures
  let startFromBeginning ← resBool cx env s.startFromBeginning
  pure { batchSize, streamId, partialFailures, startFromBeginning }

/-- `resolve_object_storage_event_type`, resolve_substitutions.rs 1134-1150. -/
def resObjEvent (s : Sos) : Res ObjEvent := do
  let t ← resStr env s
  if t = "created".toList then .ok .created
  else if t = "deleted".toList then .ok .deleted
  else if t = "metadataUpdated".toList then .ok .metadataUpdated
  else .err .parseError

/-- `resolve_event_source_configuration`, resolve_substitutions.rs 1007-1056. -/
def resEvConfig : EvConfig Sos (Node F) (Node F) Sos → Res (EvConfig Str Int Bool ObjEvent)
  | .objectStorage bucket events => do
    let bucket ← resStr env bucket
    let events ← listM (resObjEvent env) events
    pure (.objectStorage bucket events)
  | .dbStream c => do
    let c ← resStream cx env c
    pure (.dbStream c)
  | .dataStream c => do
    let c ← resStream cx env c
    pure (.dataStream c)

/-- `resolve_external_event_config`, resolve_substitutions.rs 992-1005. -/
def resEvent (e : ExternalEvent Sos (Node F) (Node F) Sos) :
    Res (ExternalEvent Str Int Bool ObjEvent) := do
  let config ← resEvConfig cx env e.config
  pure { sourceType := e.sourceType, config }

/-- `resolve_consumer_spec`, resolve_substitutions.rs 361-403. -/
def resConsumer (s : ConsumerSpec Sos (Node F) (Node F) Sos) :
    Res (ConsumerSpec Str Int Bool ObjEvent) := do
  let sourceId ← resOptStr env s.sourceId
  let batchSize ← resInt cx env s.batchSize
  let visibilityTimeout ← resInt cx env s.visibilityTimeout
  let waitTimeSeconds ← resInt cx env s.waitTimeSeconds
  let partialFailures ← resBool cx env s.partialFailures
  let routingKey ← resOptStr env s.routingKey
  let externalEvents ← optM (mapM (resEvent cx env)) s.externalEvents
  pure { sourceId, batchSize, visibilityTimeout, waitTimeSeconds, partialFailures, routingKey,
         externalEvents }

/-- `resolve_config_spec`, resolve_substitutions.rs 419-436. -/
def resConfigSpec (s : ConfigSpec Sos) : Res (ConfigSpec Str) := do
  let name ← resOptStr env s.name
  let plaintext ← optM (resStrs env) s.plaintext
  pure { name, plaintext }

/-- `resolve_topic_spec`, resolve_substitutions.rs 452-469. -/
def resTopic (s : TopicSpec Sos (Node F)) : Res (TopicSpec Str Bool) := do
  let name ← resOptStr env s.name
  let fifo ← resBool cx env s.fifo
  pure { name, fifo }

/-- `resolve_queue_spec`, resolve_substitutions.rs 471-493. -/
def resQueue (s : QueueSpec Sos (Node F) (Node F)) : Res (QueueSpec Str Int Bool) := do
  let name ← resOptStr env s.name
  let fifo ← resBool cx env s.fifo
  let visibilityTimeout ← resInt cx env s.visibilityTimeout
  pure { name, fifo, visibilityTimeout }

/-- The names of the authentication strategies, resolve_substitutions.rs 1539-1546 and
1554-1561. -/
def wsAuthOfName (t : Str) : Res WsAuth :=
  if t = "authMessage".toList then .ok .authMessage
  else if t = "connect".toList then .ok .connect
  else .err .parseError

/-- `resolve_websocket_auth_strategy`, resolve_substitutions.rs 1532-1568. -/
def resWsAuth : Node F → Res WsAuth
  | .scalar (.str s) => wsAuthOfName s
  | .subst v => do
    let s ← resStr env v
    wsAuthOfName s
  | _ => .err .parseError

/-- `resolve_mapping_node_to_string`, resolve_substitutions.rs 1780-1790. -/
def resNodeStr (n : Node F) : Res Str := do
  match ← resolveNodeToScalar cx.parseF env n with
  | .str s => pure s
  | _ => .err .valueMustBeScalar

/-- `resolve_websocket_config`, resolve_substitutions.rs 1498-1530. -/
def resWsConfig : Node F → Res Protocol
  | .mapping m => do
    let routeKey ← optM (resNodeStr cx env) (get? m "routeKey".toList)
    let auth ← optM (resWsAuth env) (get? m "authStrategy".toList)
    pure (.websocketConfig routeKey auth)
  | _ => .err .parseError

/-- The names of the protocols, resolve_substitutions.rs 1457-1464 and 1469-1476. -/
def protocolOfName (t : Str) : Res Protocol :=
  if t = "http".toList then .ok .http
  else if t = "websocket".toList then .ok .websocket
  else .err .parseError

/-- `resolve_api_protocol`, resolve_substitutions.rs 1450-1496. -/
def resProtocol : Node F → Res Protocol
  | .scalar (.str s) => protocolOfName s
  | .subst v => do
    let s ← resStr env v
    protocolOfName s
  | .mapping m =>
    match get? m "websocketConfig".toList with
    | some n => resWsConfig cx env n
    | none => .err .parseError
  | _ => .err .parseError

/-- `resolve_api_cors_config`, resolve_substitutions.rs 1399-1436. -/
def resCorsConfig (s : CorsConfig Sos (Node F) (Node F)) : Res (CorsConfig Str Int Bool) := do
  let allowCredentials ← resBool cx env s.allowCredentials
  let allowOrigins ← optM (resStrs env) s.allowOrigins
  let allowMethods ← optM (resStrs env) s.allowMethods
  let allowHeaders ← optM (resStrs env) s.allowHeaders
  let exposeHeaders ← optM (resStrs env) s.exposeHeaders
  let maxAge ← resInt cx env s.maxAge
  pure { allowCredentials, allowOrigins, allowMethods, allowHeaders, exposeHeaders, maxAge }

/-- `resolve_api_cors`, resolve_substitutions.rs 1379-1397. -/
def resCors : Cors Sos (Node F) (Node F) → Res (Cors Str Int Bool)
  | .str s => do
    let s ← resStr env s
    pure (.str s)
  | .config c => do
    let c ← resCorsConfig cx env c
    pure (.config c)

/-- `resolve_celerity_api_base_paths` and `resolve_api_base_path_config`,
resolve_substitutions.rs 1336-1377; `resolve_optional_api_auth_guard_value_source` and
`resolve_api_auth_guard_value_source_config`, 1229-1275. -/
def resStrOrConfig : StrOrConfig Sos (Node F) → Res (StrOrConfig Str Protocol)
  | .str s => do
    let s ← resStr env s
    pure (.str s)
  | .config c => do
    let protocol ← resProtocol cx env c.protocol
    let value ← resStr env c.value
    pure (.config { protocol, value })

/-- `resolve_security_policy`, resolve_substitutions.rs 1314-1334. -/
def resSecPolicy (s : Sos) : Res SecPolicy := do
  let t ← resStr env s
  if t = "TLS_1_0".toList then .ok .tls10
  else if t = "TLS_1_2".toList then .ok .tls12
  else .err .parseError

/-- `resolve_api_domain_config`, resolve_substitutions.rs 1277-1312. -/
def resDomain (s : Domain Sos (Node F) (Node F) Sos) : Res (Domain Str Bool Protocol SecPolicy) := do
  let domainName ← resStr env s.domainName
  let basePaths ← listM (resStrOrConfig cx env) s.basePaths
  let normalizeBasePath ← resBool cx env s.normalizeBasePath
  let certificateId ← resStr env s.certificateId
  let securityPolicy ← optM (resSecPolicy env) s.securityPolicy
  pure { domainName, basePaths, normalizeBasePath, certificateId, securityPolicy }

/-- `resolve_api_auth_guard_type`, resolve_substitutions.rs 1212-1227. -/
def resGuardType (s : Sos) : Res GuardType := do
  let t ← resStr env s
  if t = "jwt".toList then .ok .jwt
  else if t = "custom".toList then .ok .custom
  else .err .parseError

/-- `resolve_api_auth_guard`, resolve_substitutions.rs 1187-1210. -/
def resGuard (s : Guard Sos (Node F) Sos) : Res (Guard Str Protocol GuardType) := do
  let guardType ← resGuardType env s.guardType
  let issuer ← resOptStr env s.issuer
  let tokenSource ← optM (resStrOrConfig cx env) s.tokenSource
  let audience ← optM (resStrs env) s.audience
  pure { guardType, issuer, tokenSource, audience }

/-- `resolve_api_auth` and `resolve_api_auth_guards`, resolve_substitutions.rs 1152-1185. -/
def resAuth (s : Auth Sos (Node F) Sos) : Res (Auth Str Protocol GuardType) := do
  let defaultGuard ← resOptStr env s.defaultGuard
  let guards ← mapM (resGuard cx env) s.guards
  pure { defaultGuard, guards }

/-- `resolve_api_spec`, resolve_substitutions.rs 327-359. -/
def resApi (s : ApiSpec Sos (Node F) (Node F) (Node F) Sos Sos) :
    Res (ApiSpec Str Int Bool Protocol SecPolicy GuardType) := do
  let protocols ← listM (resProtocol cx env) s.protocols
  let cors ← optM (resCors cx env) s.cors
  let domain ← optM (resDomain cx env) s.domain
  let auth ← optM (resAuth cx env) s.auth
  let tracingEnabled ← resBool cx env s.tracingEnabled
  pure { protocols, cors, domain, auth, tracingEnabled }

/-- `resolve_workflow_condition`, resolve_substitutions.rs 949-968: conditions are resolved at depth
2 and their inputs at depth 4. -/
def resCond (s : Cond Sos (Node F)) : Res (Cond Str (RNode F)) := do
  let inputs ← listM (resolveNode cx.parseF env 4) s.inputs
  let function ← resStr env s.function
  pure { inputs, function }

/-- `resolve_workflow_decision`, resolve_substitutions.rs 871-947. -/
def resRule (s : Rule Sos (Node F)) : Res (Rule Str (RNode F)) := do
  let condition ← optM (resCond cx env) s.condition
  let and ← optM (listM (resCond cx env)) s.and
  let or ← optM (listM (resCond cx env)) s.or
  let not ← optM (resCond cx env) s.not
  let next ← resStr env s.next
  pure { and, or, not, condition, next }

/-- `resolve_workflow_wait_config`, resolve_substitutions.rs 638-655. -/
def resWait (s : WaitConfig Sos) : Res (WaitConfig Str) := do
  let seconds ← resOptStr env s.seconds
  let timestamp ← resOptStr env s.timestamp
  pure { seconds, timestamp }

/-- `resolve_workflow_failure_config`, resolve_substitutions.rs 672-689. -/
def resFailure (s : FailureConfig Sos) : Res (FailureConfig Str) := do
  let error ← resOptStr env s.error
  let cause ← resOptStr env s.cause
  pure { error, cause }

/-- `resolve_workflow_retry_config`, resolve_substitutions.rs 751-788. -/
def resRetry (s : Retry Sos (Node F) (Node F) (Node F)) : Res (Retry Str Int Bool F) := do
  let matchErrors ← resStrs env s.matchErrors
  let interval ← resInt cx env s.interval
  let maxAttempts ← resInt cx env s.maxAttempts
  let maxDelay ← resInt cx env s.maxDelay
  let jitter ← resBool cx env s.jitter
  let backoffRate ← resFloat cx env s.backoffRate
  pure { matchErrors, interval, maxAttempts, maxDelay, jitter, backoffRate }

/-- `resolve_workflow_catch_config`, resolve_substitutions.rs 809-831. -/
def resCatch (s : Catch Sos) : Res (Catch Str) := do
  let matchErrors ← resStrs env s.matchErrors
  let next ← resStr env s.next
  let resultPath ← resOptStr env s.resultPath
  pure { matchErrors, next, resultPath }

/-- `resolve_workflow_state_type`, resolve_substitutions.rs 833-850. -/
def resStateType (s : Sos) : Res StateType := do
  let t ← resStr env s
  pure (if t = "executeStep".toList then .executeStep
    else if t = "pass".toList then .pass
    else if t = "parallel".toList then .parallel
    else if t = "wait".toList then .wait
    else if t = "decision".toList then .decision
    else if t = "failure".toList then .failure
    else if t = "success".toList then .success
    else .unknown)

/-- The payload template, resolve_substitutions.rs 557-564: a mapping node at depth 0, so its
entries are at depth 1. -/
def resTemplate (m : List (Str × Node F)) : Res (List (Str × RNode F)) :=
  resolveEntries cx.parseF env 1 m

/-- The fields of `resolve_workflow_state`, resolve_substitutions.rs 531-621, other than the
parallel branches. (The code resolves those before `retry`; this only changes which of several
errors is reported.) -/
def resStateFields (s : RawFields F) : Res (StateFields Str Int Bool F (RNode F) StateType) := do
  let stateType ← resStateType env s.stateType
  let inputPath ← resOptStr env s.inputPath
  let resultPath ← resOptStr env s.resultPath
  let outputPath ← resOptStr env s.outputPath
  let payloadTemplate ← optM (resTemplate cx env) s.payloadTemplate
  let next ← resOptStr env s.next
  let end_ ← resBool cx env s.end_
  let decisions ← optM (listM (resRule cx env)) s.decisions
  let description ← resOptStr env s.description
  let result ← optM (resolveNode cx.parseF env 0) s.result
  let timeout ← resInt cx env s.timeout
  let waitConfig ← optM (resWait env) s.waitConfig
  let failureConfig ← optM (resFailure env) s.failureConfig
  let retry ← optM (listM (resRetry cx env)) s.retry
  let catch_ ← optM (listM (resCatch env)) s.catch_
  pure { stateType, description, inputPath, resultPath, outputPath, payloadTemplate, next, end_,
         decisions, result, timeout, waitConfig, failureConfig, retry, catch_ }

mutual
/-- `resolve_workflow_state`, resolve_substitutions.rs 531-621. -/
def resState : RawState F → Res (ResState F)
  | .mk f b => do
    let f ← resStateFields cx env f
    let b ← resBranches b
    pure (.mk f b)
/-- `resolve_optional_workflow_parallel_branches`, resolve_substitutions.rs 691-711. -/
def resBranches : Option (List (Sos × List (Str × RawState F))) →
    Res (Option (List (Str × List (Str × ResState F))))
  | none => .ok none
  | some l => do
    let l ← resBranchList l
    pure (some l)
/-- The loop over the branches, resolve_substitutions.rs 698-706. -/
def resBranchList : List (Sos × List (Str × RawState F)) →
    Res (List (Str × List (Str × ResState F)))
  | [] => .ok []
  | b :: rest => do
    let b ← resBranch b
    let bs ← resBranchList rest
    pure (b :: bs)
/-- `resolve_workflow_parallel_branch`, resolve_substitutions.rs 713-730. -/
def resBranch : Sos × List (Str × RawState F) → Res (Str × List (Str × ResState F))
  | (startAt, states) => do
    let startAt ← resStr env startAt
    let states ← resStates states
    pure (startAt, states)
/-- `resolve_workflow_states`, resolve_substitutions.rs 514-529. -/
def resStates : List (Str × RawState F) → Res (List (Str × ResState F))
  | [] => .ok []
  | e :: rest => do
    let s ← resStateEntry e
    let ss ← resStates rest
    pure (s :: ss)
/-- One state with its name, resolve_substitutions.rs 520-527. -/
def resStateEntry : Str × RawState F → Res (Str × ResState F)
  | (k, s) => do
    let s ← resState s
    pure (k, s)
end

/-- `resolve_workflow_spec`, resolve_substitutions.rs 495-512. -/
def resWorkflow (s : WorkflowSpec Sos (Node F) (Node F) (Node F) (Node F) Sos) :
    Res (WorkflowSpec Str Int Bool F (RNode F) StateType) := do
  let startAt ← resStr env s.startAt
  let states ← resStates cx env s.states
  pure { startAt, states }

/-- `resolve_resource_spec`, resolve_substitutions.rs 222-276; schedules 405-417, buckets
438-450. -/
def resSpec : RawSpec F → Res (ResSpec F)
  | .handler s => do let s ← resHandler cx env s; pure (.handler s)
  | .api s => do let s ← resApi cx env s; pure (.api s)
  | .consumer s => do let s ← resConsumer cx env s; pure (.consumer s)
  | .schedule s => do let s ← resStr env s; pure (.schedule s)
  | .handlerConfig s => do let s ← resShared cx env s; pure (.handlerConfig s)
  | .workflow s => do let s ← resWorkflow cx env s; pure (.workflow s)
  | .config s => do let s ← resConfigSpec env s; pure (.config s)
  | .bucket s => do let s ← resOptStr env s; pure (.bucket s)
  | .topic s => do let s ← resTopic cx env s; pure (.topic s)
  | .queue s => do let s ← resQueue cx env s; pure (.queue s)

/-- `resolve_resource_metadata` and `resolve_annotations`, resolve_substitutions.rs 1570-1608. -/
def resMeta (s : Meta Sos (Node F)) : Res (Meta Str (Scalar F)) := do
  let displayName ← resStr env s.displayName
  let annotations ← optM (mapM (resolveNodeToScalar cx.parseF env)) s.annotations
  pure { displayName, annotations, labels := s.labels }

/-- `resolve_blueprint_config_resource`, resolve_substitutions.rs 204-220. -/
def resResource (s : RawResource F) : Res (ResResource F) := do
  let metadata ← resMeta cx env s.metadata
  let spec ← optM (resSpec cx env) s.spec
  pure { type := s.type, metadata, linkSelector := s.linkSelector, description := s.description,
         spec }

/-- `resolve_blueprint_config_resources`, resolve_substitutions.rs 183-202: resources without a
specification are dropped, after having been resolved. -/
def resResources : List (Str × RawResource F) → Res (List (Str × ResResource F))
  | [] => .ok []
  | (k, r) :: rest => do
    let r ← resResource cx env r
    let rs ← resResources rest
    pure (if r.spec.isSome then (k, r) :: rs else rs)

/-- `resolve_blueprint_config_substitutions`, resolve_substitutions.rs 97-108; the metadata
110-127. -/
def resBlueprint (b : RawConfig F) : Res (ResConfig F) := do
  let resources ← resResources cx env b.resources
  let metadata ← optM (optM (resShared cx env)) b.metadata
  pure { version := b.version, transform := b.transform, variables := b.variables, resources,
         metadata }

/-- `.map_err(BlueprintParseError::ResolveError)`, parse.rs 28 and 63. -/
def liftResolve {A : Type} : Res A → Outcome Err A
  | .ok a => .ok a
  | .err e => .err (.resolve e)
  | .panic => .panic

/-- `validate_blueprint_config`, validate_parsed.rs 10-36. -/
def validate (b : ResConfig F) : Outcome Err Unit := do
  require (!b.resources.isEmpty)
  require (match b.variables with
    | some vs => vs.all fun e => !e.2.type.isEmpty
    | none => true)

/-- `BlueprintConfig::from_jsonc_str` and `from_jsonc_file`, parse.rs 20-49, from the document on;
for a file that is not a JSON document there is an error. -/
def fromJson (d : Doc F) : Outcome Err (ResConfig F) := do
  let b ← jsonBlueprint cx d
  let b ← liftResolve (resBlueprint cx env b)
  validate b
  pure b

/-- `BlueprintConfig::from_yaml_str` and `from_yaml_file`, parse.rs 55-80, from the list of documents
on: `docs[0]` panics when there is none; documents after the first are not looked at. -/
def fromYaml : List (Doc F) → Outcome Err (ResConfig F)
  | [] => .panic
  | d :: _ => do
    let b ← yamlBlueprint cx d
    liftResolve (resBlueprint cx env b)

end Verif.Blueprint
