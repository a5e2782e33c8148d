import Verif.Blueprint.Read

/-!
# The YAML loader

`libs/runtime/blueprint-config-parser/src/parse_yaml.rs`, `yaml_helpers.rs`, `yaml_workflow.rs`.

The document is what yaml_rust2 produces. Not modelled: keys that are not strings (all loops skip
them) and reals that Rust cannot parse as `f64` (such as `.inf`, an error in the code).
-/

namespace Verif.Blueprint

open Verif Verif.Subst

variable {F : Type} (cx : Ctx F)

/-! ## Values, yaml_helpers.rs -/

/-- `if let Yaml::String(s) = v { parse_substitutions(s)? } else { Err }`, as in
parse_yaml.rs 488-495 and every other string field. -/
def yamlSos : Doc F → Outcome Err Sos
  | .str s => liftParse (parseSubstitutions cx.cls s)
  | _ => .err .format

/-- `validate_single_substitution`, yaml_helpers.rs 72-90. -/
def yamlSingle (s : Str) : Outcome Err Sos := do
  match ← liftParse (parseSubstitutions cx.cls s) with
  | [.sub r] => .ok [.sub r]
  | _ => .err .format

/-- An integer or one substitution, as in parse_yaml.rs 401-414. yaml_rust2 makes an integer that
does not fit `i64` a `Real`. -/
def yamlInt : Doc F → Outcome Err (Node F)
  | .int n => if inI64 n then .ok (.scalar (.int n)) else .err .format
  | .str s => do
    let v ← yamlSingle cx s
    pure (.subst v)
  | _ => .err .format

/-- A boolean or one substitution, as in parse_yaml.rs 429-442. -/
def yamlBool : Doc F → Outcome Err (Node F)
  | .bool b => .ok (.scalar (.bool b))
  | .str s => do
    let v ← yamlSingle cx s
    pure (.subst v)
  | _ => .err .format

/-- A float or one substitution, yaml_workflow.rs 539-553; an integer that fits `i64` is not a
float. -/
def yamlFloat : Doc F → Outcome Err (Node F)
  | .float x => .ok (.scalar (.float x))
  | .int n => if inI64 n then .err .format else .ok (.scalar (.float (cx.ofInt n)))
  | .str s => do
    let v ← yamlSingle cx s
    pure (.subst v)
  | _ => .err .format

mutual
/-- `validate_mapping_node`, yaml_helpers.rs 10-51. -/
def yamlNode : Doc F → Outcome Err (Node F)
  | .obj m => do
    let m ← yamlNodeEntries m []
    pure (.mapping m)
  | .arr l => do
    let l ← yamlNodes l
    pure (.sequence l)
  | .str s => do
    let v ← liftParse (parseSubstitutions cx.cls s)
    pure (.subst v)
  | .bool b => .ok (.scalar (.bool b))
  | .int n => .ok (.scalar (if inI64 n then .int n else .float (cx.ofInt n)))
  | .float x => .ok (.scalar (.float x))
  | .null => .err .format
/-- The loop over a mapping, yaml_helpers.rs 15-23. -/
def yamlNodeEntries : List (Str × Doc F) → List (Str × Node F) → Outcome Err (List (Str × Node F))
  | [], acc => .ok acc
  | (k, v) :: rest, acc => do
    let n ← yamlNode v
    yamlNodeEntries rest (hmInsert acc k n)
/-- The loop over a sequence, yaml_helpers.rs 24-31. -/
def yamlNodes : List (Doc F) → Outcome Err (List (Node F))
  | [] => .ok []
  | v :: rest => do
    let n ← yamlNode v
    let ns ← yamlNodes rest
    pure (n :: ns)
end

/-- `extract_scalar_value`, yaml_helpers.rs 53-70. -/
def yamlScalar : Doc F → Outcome Err (Scalar F)
  | .int n => .ok (if inI64 n then .int n else .float (cx.ofInt n))
  | .float x => .ok (.float x)
  | .bool b => .ok (.bool b)
  | .str s => .ok (.str s)
  | _ => .err .format

/-- `validate_array_of_strings`, yaml_helpers.rs 92-107; also `validate_cors_item_array`,
parse_yaml.rs 1033-1054, `parse_substitutions_array` 692-706 and the audience 1332-1350. -/
def yamlSosVec : Doc F → Outcome Err (List Sos) := readVec (yamlSos cx)

/-- `validate_map_of_strings`, parse_yaml.rs 875-894. -/
def yamlSosMap : Doc F → Outcome Err (List (Str × Sos)) := readMap (yamlSos cx)

/-! ## Specifications -/

/-- `validate_shared_handler_config`, parse_yaml.rs 1721-1805. -/
def yamlShared (m : List (Str × Doc F)) : Outcome Err (Shared Sos (Node F) (Node F)) :=
  fill false
    [fld "codeLocation" (yamlSos cx) (fun s a => { s with codeLocation := some a }),
     fld "runtime" (yamlSos cx) (fun s a => { s with runtime := some a }),
     fld "memory" (yamlInt cx) (fun s a => { s with memory := some a }),
     fld "timeout" (yamlInt cx) (fun s a => { s with timeout := some a }),
     fld "tracingEnabled" (yamlBool cx) (fun s a => { s with tracingEnabled := some a }),
     fld "environmentVariables" (yamlSosMap cx)
       (fun s a => { s with environmentVariables := some a })]
    m {}

/-- `validate_celerity_handler_spec`, parse_yaml.rs 354-458. -/
def yamlHandler (m : List (Str × Doc F)) : Outcome Err (HandlerSpec Sos (Node F) (Node F)) :=
  fill false
    [fld "handlerName" (yamlSos cx) (fun s a => { s with handlerName := some a }),
     fld "codeLocation" (yamlSos cx) (fun s a => { s with codeLocation := some a }),
     fld "handler" (yamlSos cx) (fun s a => { s with handler := a }),
     fld "runtime" (yamlSos cx) (fun s a => { s with runtime := some a }),
     fld "memory" (yamlInt cx) (fun s a => { s with memory := some a }),
     fld "timeout" (yamlInt cx) (fun s a => { s with timeout := some a }),
     fld "tracingEnabled" (yamlBool cx) (fun s a => { s with tracingEnabled := some a }),
     fld "environmentVariables" (yamlSosMap cx)
       (fun s a => { s with environmentVariables := some a })]
    m { handler := [] }

/-- `validate_celerity_schedule_spec`, parse_yaml.rs 460-478. -/
def yamlSchedule (m : List (Str × Doc F)) : Outcome Err Sos :=
  match get? m "schedule".toList with
  | some v => yamlSos cx v
  | none => .err .format

/-- `validate_event_source_type`, parse_yaml.rs 862-873. -/
def yamlEvType : Doc F → Outcome Err EvType
  | .str s =>
    if s = "objectStorage".toList then .ok .objectStorage
    else if s = "dbStream".toList then .ok .dbStream
    else if s = "dataStream".toList then .ok .dataStream
    else .err .format
  | _ => .err .format

/-- The optional fields of a stream source, parse_yaml.rs 730-780 and 807-856. -/
def yamlStreamFields (m : List (Str × Doc F)) (id : Sos) :
    Outcome Err (Stream Sos (Node F) (Node F)) :=
  fill false
    [fld "batchSize" (yamlInt cx) (fun s a => { s with batchSize := some a }),
     fld "partialFailures" (yamlBool cx) (fun s a => { s with partialFailures := some a }),
     fld "startFromBeginning" (yamlBool cx) (fun s a => { s with startFromBeginning := some a })]
    m { streamId := id }

/-- `validate_event_source_database_stream_config` (key `dbStreamId`) and
`validate_event_source_data_stream_config` (key `dataStreamId`), parse_yaml.rs 708-858. -/
def yamlStream (key : Str) (m : List (Str × Doc F)) : Outcome Err (Stream Sos (Node F) (Node F)) :=
  match get? m key with
  | none => .err .format
  | some v => do
    let id ← yamlSos cx v
    yamlStreamFields cx m id

/-- `validate_event_source_object_storage_config`, parse_yaml.rs 660-690. -/
def yamlObjectStorage (m : List (Str × Doc F)) :
    Outcome Err (EvConfig Sos (Node F) (Node F) Sos) :=
  match get? m "bucket".toList with
  | none => .err .format
  | some v => do
    let bucket ← yamlSos cx v
    let events ← match get? m "events".toList with
      | some e => yamlSosVec cx e
      | none => .ok []
    pure (.objectStorage bucket events)

/-- The configuration for the given source type, parse_yaml.rs 627-645. -/
def yamlEvConfig (t : EvType) (m : List (Str × Doc F)) :
    Outcome Err (EvConfig Sos (Node F) (Node F) Sos) :=
  match t with
  | .objectStorage => yamlObjectStorage cx m
  | .dbStream => do
    let c ← yamlStream cx "dbStreamId".toList m
    pure (.dbStream c)
  | .dataStream => do
    let c ← yamlStream cx "dataStreamId".toList m
    pure (.dataStream c)

/-- `validate_consumer_external_event_config`, parse_yaml.rs 600-658. -/
def yamlEvent (m : List (Str × Doc F)) : Outcome Err (ExternalEvent Sos (Node F) (Node F) Sos) :=
  match get? m "sourceType".toList with
  | none => .err .format
  | some tv => do
    let t ← yamlEvType tv
    match get? m "sourceConfiguration".toList with
    | none => .err .format
    | some c => do
      let c ← readObj (yamlEvConfig cx t) c
      pure { sourceType := t, config := c }

/-- `validate_celerity_consumer_spec`, parse_yaml.rs 480-581; the events map is
`validate_consumer_external_events_config_map` 583-598, where anything but a mapping is skipped. -/
def yamlConsumer (m : List (Str × Doc F)) : Outcome Err (ConsumerSpec Sos (Node F) (Node F) Sos) :=
  fill false
    [fld "sourceId" (yamlSos cx) (fun s a => { s with sourceId := some a }),
     fld "batchSize" (yamlInt cx) (fun s a => { s with batchSize := some a }),
     fld "visibilityTimeout" (yamlInt cx) (fun s a => { s with visibilityTimeout := some a }),
     fld "waitTimeSeconds" (yamlInt cx) (fun s a => { s with waitTimeSeconds := some a }),
     fld "partialFailures" (yamlBool cx) (fun s a => { s with partialFailures := some a }),
     fld "routingKey" (yamlSos cx) (fun s a => { s with routingKey := some a }),
     fld "externalEvents" (readObj (fun m => fillMap (skipNonObj (yamlEvent cx)) m []))
       (fun s a => { s with externalEvents := some a })]
    m {}

/-- The two protocol names accepted for base paths and value sources, parse_yaml.rs 1374-1388 and
1414-1428. -/
def yamlProtocolName : Doc F → Outcome Err (Node F)
  | .str s =>
    if s = "http".toList then .ok (.scalar (.str "http".toList))
    else if s = "websocket".toList then .ok (.scalar (.str "websocket".toList))
    else .err .format
  | _ => .err .format

/-- `validate_websocket_config`, parse_yaml.rs 1196-1236; the result is a mapping node. -/
def yamlWsConfig (m : List (Str × Doc F)) : Outcome Err (List (Str × Node F)) :=
  fill false
    [fld "routeKey" (yamlSos cx) (fun s a => hmInsert s "routeKey".toList (.subst a)),
     fld "authStrategy" (yamlSos cx) (fun s a => hmInsert s "authStrategy".toList (.subst a))]
    m []

/-- `validate_api_protocol`, parse_yaml.rs 1158-1194. -/
def yamlProtocol : Doc F → Outcome Err (Node F)
  | .obj m =>
    match get? m "websocketConfig".toList with
    | some c => do
      let c ← readObj (yamlWsConfig cx) c
      pure (.mapping [("websocketConfig".toList, .mapping c)])
    | none => .err .format
  | v => yamlProtocolName v

/-- `validate_celerity_api_cors_config`, parse_yaml.rs 979-1031. -/
def yamlCorsConfig (m : List (Str × Doc F)) : Outcome Err (CorsConfig Sos (Node F) (Node F)) :=
  fill false
    [fld "allowCredentials" (yamlBool cx) (fun s a => { s with allowCredentials := some a }),
     fld "allowOrigins" (yamlSosVec cx) (fun s a => { s with allowOrigins := some a }),
     fld "allowMethods" (yamlSosVec cx) (fun s a => { s with allowMethods := some a }),
     fld "allowHeaders" (yamlSosVec cx) (fun s a => { s with allowHeaders := some a }),
     fld "exposeHeaders" (yamlSosVec cx) (fun s a => { s with exposeHeaders := some a }),
     fld "maxAge" (yamlInt cx) (fun s a => { s with maxAge := some a })]
    m {}

/-- The `cors` field, parse_yaml.rs 919-932: anything but a string or a mapping is ignored. -/
def yamlCors : Doc F → Outcome Err (Option (Cors Sos (Node F) (Node F)))
  | .str s => do
    let v ← liftParse (parseSubstitutions cx.cls s)
    pure (some (.str v))
  | .obj m => do
    let c ← yamlCorsConfig cx m
    pure (some (.config c))
  | _ => .ok none

/-- `validate_celerity_api_base_path_config` (key `basePath`), parse_yaml.rs 1406-1444, and
`validate_celerity_api_auth_value_source_config` (key `source`), parse_yaml.rs 1365-1404. A missing protocol
is `MappingNode::Null`, a missing string is empty. -/
def yamlProtocolAnd (key : String) (m : List (Str × Doc F)) :
    Outcome Err (ProtocolAnd Sos (Node F)) :=
  fill false
    [fld "protocol" yamlProtocolName (fun s a => { s with protocol := a }),
     fld key (yamlSos cx) (fun s a => { s with value := a })]
    m { protocol := .null, value := [] }

/-- A string, or a mapping read by `yamlProtocolAnd`: base paths, parse_yaml.rs 1076-1090, and token
sources, 1316-1330. -/
def yamlStrOrConfig (key : String) : Doc F → Outcome Err (StrOrConfig Sos (Node F))
  | .str s => do
    let v ← liftParse (parseSubstitutions cx.cls s)
    pure (.str v)
  | .obj m => do
    let c ← yamlProtocolAnd cx key m
    pure (.config c)
  | _ => .err .format

/-- `validate_celerity_api_domain`, parse_yaml.rs 1056-1156. -/
def yamlDomain (m : List (Str × Doc F)) : Outcome Err (Domain Sos (Node F) (Node F) Sos) := do
  let d ← fill false
    [fld "domainName" (yamlSos cx) (fun s a => { s with domainName := a }),
     fld "basePaths" (readVec (yamlStrOrConfig cx "basePath"))
       (fun s a => { s with basePaths := a }),
     fld "normalizeBasePath" (yamlBool cx) (fun s a => { s with normalizeBasePath := some a }),
     fld "certificateId" (yamlSos cx) (fun s a => { s with certificateId := a }),
     fld "securityPolicy" (yamlSos cx) (fun s a => { s with securityPolicy := some a })]
    m { domainName := [], basePaths := [], certificateId := [] }
  require (!sosEmpty d.domainName && !d.basePaths.isEmpty && !sosEmpty d.certificateId)
  pure d

/-- `validate_celerity_api_auth_guard_type`, parse_yaml.rs 1446-1460: no substitutions. -/
def yamlGuardType : Doc F → Outcome Err Sos
  | .str s =>
    if s = "jwt".toList then .ok [.str "jwt".toList]
    else if s = "custom".toList then .ok [.str "custom".toList]
    else .err .format
  | _ => .err .format

/-- `validate_celerity_api_auth_guard`, parse_yaml.rs 1289-1363. -/
def yamlGuard (m : List (Str × Doc F)) : Outcome Err (Guard Sos (Node F) Sos) := do
  let g ← fill false
    [fld "type" yamlGuardType (fun s a => { s with guardType := a }),
     fld "issuer" (yamlSos cx) (fun s a => { s with issuer := some a }),
     fld "tokenSource" (yamlStrOrConfig cx "source") (fun s a => { s with tokenSource := some a }),
     fld "audience" (yamlSosVec cx) (fun s a => { s with audience := some a })]
    m { guardType := [] }
  require (!sosEmpty g.guardType)
  pure g

/-- `validate_celerity_api_auth` and `validate_celerity_api_auth_guards`, parse_yaml.rs 1238-1287: a guard
that is not a mapping is skipped. -/
def yamlAuth (m : List (Str × Doc F)) : Outcome Err (Auth Sos (Node F) Sos) :=
  match get? m "guards".toList with
  | none => .err .format
  | some gs => do
    let gs ← readObj (fun m => fillMap (skipNonObj (yamlGuard cx)) m []) gs
    match get? m "defaultGuard".toList with
    | some d => do
      let d ← yamlSos cx d
      pure { defaultGuard := some d, guards := gs }
    | none => pure { guards := gs }

/-- `validate_celerity_api_spec`, parse_yaml.rs 896-977. -/
def yamlApi (m : List (Str × Doc F)) :
    Outcome Err (ApiSpec Sos (Node F) (Node F) (Node F) Sos Sos) := do
  let a ← fill false
    [fld "protocols" (readVec (yamlProtocol cx)) (fun s a => { s with protocols := a }),
     ("cors".toList, fun v s => do
       match ← yamlCors cx v with
       | some c => pure { s with cors := some c }
       | none => pure s),
     fld "domain" (readObj (yamlDomain cx)) (fun s a => { s with domain := some a }),
     fld "auth" (readObj (yamlAuth cx)) (fun s a => { s with auth := some a }),
     fld "tracingEnabled" (yamlBool cx) (fun s a => { s with tracingEnabled := some a })]
    m { protocols := [] }
  require (!a.protocols.isEmpty)
  pure a

/-! ## Workflows, yaml_workflow.rs -/

/-- `validate_condition`, yaml_workflow.rs 738-779. -/
def yamlCond (m : List (Str × Doc F)) : Outcome Err (Cond Sos (Node F)) :=
  match get? m "inputs".toList with
  | some (.arr l) => do
    let inputs ← yamlNodes cx l
    match get? m "function".toList with
    | some f => do
      let f ← yamlSos cx f
      pure { inputs := inputs, function := f }
    | none => .err .format
  | _ => .err .format

/-- `validate_conditions`, yaml_workflow.rs 725-736: anything but a mapping is skipped. -/
def yamlConds : Doc F → Outcome Err (List (Cond Sos (Node F)))
  | .arr l => fillVec (skipNonObj (yamlCond cx)) l
  | _ => .err .format

/-- `validate_decision_rule`, yaml_workflow.rs 655-723. -/
def yamlRule (m : List (Str × Doc F)) : Outcome Err (Rule Sos (Node F)) := do
  let r ← fill false
    [fld "and" (yamlConds cx) (fun s a => { s with and := some a }),
     fld "or" (yamlConds cx) (fun s a => { s with or := some a }),
     fld "not" (readObj (yamlCond cx)) (fun s a => { s with not := some a }),
     fld "condition" (readObj (yamlCond cx)) (fun s a => { s with condition := some a }),
     fld "next" (yamlSos cx) (fun s a => { s with next := a })]
    m { next := [] }
  require (!sosEmpty r.next)
  pure r

/-- `validate_retry_config`, yaml_workflow.rs 461-559. -/
def yamlRetry (m : List (Str × Doc F)) : Outcome Err (Retry Sos (Node F) (Node F) (Node F)) :=
  fill false
    [fld "matchErrors" (yamlSosVec cx) (fun s a => { s with matchErrors := a }),
     fld "interval" (yamlInt cx) (fun s a => { s with interval := some a }),
     fld "maxAttempts" (yamlInt cx) (fun s a => { s with maxAttempts := some a }),
     fld "maxDelay" (yamlInt cx) (fun s a => { s with maxDelay := some a }),
     fld "jitter" (yamlBool cx) (fun s a => { s with jitter := some a }),
     fld "backoffRate" (yamlFloat cx) (fun s a => { s with backoffRate := some a })]
    m { matchErrors := [] }

/-- `validate_catch_config`, yaml_workflow.rs 581-623. -/
def yamlCatch (m : List (Str × Doc F)) : Outcome Err (Catch Sos) :=
  fill false
    [fld "matchErrors" (yamlSosVec cx) (fun s a => { s with matchErrors := a }),
     fld "next" (yamlSos cx) (fun s a => { s with next := a }),
     fld "resultPath" (yamlSos cx) (fun s a => { s with resultPath := some a })]
    m { matchErrors := [], next := [] }

/-- `validate_state_wait_config_field`, yaml_workflow.rs 305-345. -/
def yamlWait (m : List (Str × Doc F)) : Outcome Err (WaitConfig Sos) :=
  fill false
    [fld "seconds" (yamlSos cx) (fun s a => { s with seconds := some a }),
     fld "timestamp" (yamlSos cx) (fun s a => { s with timestamp := some a })]
    m {}

/-- `validate_state_failure_config_field`, yaml_workflow.rs 347-386. -/
def yamlFailure (m : List (Str × Doc F)) : Outcome Err (FailureConfig Sos) :=
  fill false
    [fld "error" (yamlSos cx) (fun s a => { s with error := some a }),
     fld "cause" (yamlSos cx) (fun s a => { s with cause := some a })]
    m {}

/-- A sequence in which anything but a mapping is skipped, as in yaml_workflow.rs 441-459 (retry),
561-579 (catch), 642-653 (decisions). -/
def yamlVecSkip {A : Type} (r : List (Str × Doc F) → Outcome Err A) : Doc F → Outcome Err (List A)
  | .arr l => fillVec (skipNonObj r) l
  | _ => .err .format

/-- `validate_celerity_workflow_state`, yaml_workflow.rs 75-156, for all keys but
`parallelBranches`, which is accepted here and read by `yamlBranchesOf`; unknown keys are errors.
(The code reads all keys in one loop; the split can only change which of several errors is
reported.) -/
def yamlStateFields (m : List (Str × Doc F)) : Outcome Err (RawFields F) :=
  fill true
    [fld "type" (yamlSos cx) (fun s a => { s with stateType := a }),
     fld "description" (yamlSos cx) (fun s a => { s with description := some a }),
     fld "inputPath" (yamlSos cx) (fun s a => { s with inputPath := some a }),
     fld "resultPath" (yamlSos cx) (fun s a => { s with resultPath := some a }),
     fld "outputPath" (yamlSos cx) (fun s a => { s with outputPath := some a }),
     fld "payloadTemplate" (readObj (fun m => yamlNodeEntries cx m []))
       (fun s a => { s with payloadTemplate := some a }),
     fld "next" (yamlSos cx) (fun s a => { s with next := some a }),
     fld "end" (yamlBool cx) (fun s a => { s with end_ := some a }),
     fld "decisions" (yamlVecSkip (yamlRule cx)) (fun s a => { s with decisions := some a }),
     fld "result" (yamlNode cx) (fun s a => { s with result := some a }),
     fld "timeout" (yamlInt cx) (fun s a => { s with timeout := some a }),
     fld "waitConfig" (readObj (yamlWait cx)) (fun s a => { s with waitConfig := some a }),
     fld "failureConfig" (readObj (yamlFailure cx)) (fun s a => { s with failureConfig := some a }),
     ("parallelBranches".toList, fun _ s => .ok s),
     fld "retry" (yamlVecSkip (yamlRetry cx)) (fun s a => { s with retry := some a }),
     fld "catch" (yamlVecSkip (yamlCatch cx)) (fun s a => { s with catch_ := some a })]
    m { stateType := [] }

/-- The `startAt` of a branch or a workflow, yaml_workflow.rs 32-40 and 416-424: empty when
missing. -/
def yamlStartAt (m : List (Str × Doc F)) : Outcome Err Sos :=
  fill false [fld "startAt" (yamlSos cx) (fun _ a => a)] m []

mutual
/-- `validate_celerity_workflow_state`, yaml_workflow.rs 75-156. -/
def yamlState : Doc F → Outcome Err (RawState F)
  | .obj m => do
    let f ← yamlStateFields cx m
    let b ← yamlBranchesOf m none
    require (!sosEmpty f.stateType)
    pure (.mk f b)
  | _ => .err .format
/-- The `parallelBranches` key of a state, `validate_state_parallel_branches_field`,
yaml_workflow.rs 388-406. -/
def yamlBranchesOf : List (Str × Doc F) → Option (List (Sos × List (Str × RawState F))) →
    Outcome Err (Option (List (Sos × List (Str × RawState F))))
  | [], acc => .ok acc
  | (k, v) :: rest, acc =>
    if k = "parallelBranches".toList then do
      let b ← yamlBranchList v
      yamlBranchesOf rest (some b)
    else yamlBranchesOf rest acc
/-- The branches must be a sequence, yaml_workflow.rs 392 and 401-405. -/
def yamlBranchList : Doc F → Outcome Err (List (Sos × List (Str × RawState F)))
  | .arr l => yamlBranches l
  | _ => .err .format
/-- The loop over the branches, yaml_workflow.rs 394-399: anything but a mapping is skipped. -/
def yamlBranches : List (Doc F) → Outcome Err (List (Sos × List (Str × RawState F)))
  | [] => .ok []
  | v :: rest => do
    let b ← yamlBranch v
    let bs ← yamlBranches rest
    pure (b.toList ++ bs)
/-- `validate_workflow_state_parallel_branch`, yaml_workflow.rs 408-439: unknown keys are
ignored. -/
def yamlBranch : Doc F → Outcome Err (Option (Sos × List (Str × RawState F)))
  | .obj m => do
    let st ← yamlStartAt cx m
    let ss ← yamlStatesOf m []
    pure (some (st, ss))
  | _ => .ok none
/-- The `states` key of a branch or a workflow, yaml_workflow.rs 41-49 and 425-433; empty when
missing. -/
def yamlStatesOf : List (Str × Doc F) → List (Str × RawState F) →
    Outcome Err (List (Str × RawState F))
  | [], acc => .ok acc
  | (k, v) :: rest, acc =>
    if k = "states".toList then do
      let ss ← yamlStateMap v
      yamlStatesOf rest ss
    else yamlStatesOf rest acc
/-- The states must be a mapping, yaml_workflow.rs 42-48. -/
def yamlStateMap : Doc F → Outcome Err (List (Str × RawState F))
  | .obj m => yamlStates m []
  | _ => .err .format
/-- `validate_celerity_workflow_states`, yaml_workflow.rs 61-73. -/
def yamlStates : List (Str × Doc F) → List (Str × RawState F) → Outcome Err (List (Str × RawState F))
  | [], acc => .ok acc
  | (k, v) :: rest, acc => do
    let s ← yamlState v
    yamlStates rest (hmInsert acc k s)
end

/-- `validate_celerity_workflow_spec`, yaml_workflow.rs 25-59: unknown keys are errors. -/
def yamlWorkflow (m : List (Str × Doc F)) :
    Outcome Err (WorkflowSpec Sos (Node F) (Node F) (Node F) (Node F) Sos) := do
  require (m.all fun e => decide (e.1 = "startAt".toList ∨ e.1 = "states".toList))
  let st ← yamlStartAt cx m
  let ss ← yamlStatesOf cx m []
  pure { startAt := st, states := ss }

/-! ## Resources and the blueprint -/

/-- `validate_resource_type`, parse_yaml.rs 300-314: six of the ten types. -/
def yamlType (s : Str) : Outcome Err RType :=
  if s = RType.api.name then .ok .api
  else if s = RType.consumer.name then .ok .consumer
  else if s = RType.schedule.name then .ok .schedule
  else if s = RType.handler.name then .ok .handler
  else if s = RType.handlerConfig.name then .ok .handlerConfig
  else if s = RType.workflow.name then .ok .workflow
  else .err .unsupportedType

/-- `validate_celerity_config_spec`, parse_yaml.rs 1559-1591. -/
def yamlConfigSpec (m : List (Str × Doc F)) : Outcome Err (ConfigSpec Sos) :=
  fill false
    [fld "name" (yamlSos cx) (fun s a => { s with name := some a }),
     fld "plaintext" (yamlSosVec cx) (fun s a => { s with plaintext := some a })] m {}

/-- `validate_celerity_bucket_spec`, parse_yaml.rs 1593-1611. -/
def yamlBucket (m : List (Str × Doc F)) : Outcome Err (Option Sos) :=
  fill false [fld "name" (yamlSos cx) (fun _ a => some a)] m none

/-- `validate_celerity_topic_spec`, parse_yaml.rs 1613-1649; `fifo` defaults to false. -/
def yamlTopic (m : List (Str × Doc F)) : Outcome Err (TopicSpec Sos (Node F)) :=
  fill false
    [fld "name" (yamlSos cx) (fun s a => { s with name := some a }),
     fld "fifo" (yamlBool cx) (fun s a => { s with fifo := some a })]
    m { fifo := some (.scalar (.bool false)) }

/-- `validate_celerity_queue_spec`, parse_yaml.rs 1651-1701; `fifo` defaults to false. -/
def yamlQueue (m : List (Str × Doc F)) : Outcome Err (QueueSpec Sos (Node F) (Node F)) :=
  fill false
    [fld "name" (yamlSos cx) (fun s a => { s with name := some a }),
     fld "fifo" (yamlBool cx) (fun s a => { s with fifo := some a }),
     fld "visibilityTimeout" (yamlInt cx) (fun s a => { s with visibilityTimeout := some a })]
    m { fifo := some (.scalar (.bool false)) }

/-- `validate_resource_spec`, parse_yaml.rs 316-352. -/
def yamlSpec (t : RType) (m : List (Str × Doc F)) : Outcome Err (RawSpec F) :=
  match t with
  | .api => do let s ← yamlApi cx m; pure (.api s)
  | .consumer => do let s ← yamlConsumer cx m; pure (.consumer s)
  | .schedule => do let s ← yamlSchedule cx m; pure (.schedule s)
  | .handler => do let s ← yamlHandler cx m; pure (.handler s)
  | .handlerConfig => do let s ← yamlShared cx m; pure (.handlerConfig s)
  | .workflow => do let s ← yamlWorkflow cx m; pure (.workflow s)
  | .config => do let s ← yamlConfigSpec cx m; pure (.config s)
  | .bucket => do let s ← yamlBucket cx m; pure (.bucket s)
  | .topic => do let s ← yamlTopic cx m; pure (.topic s)
  | .queue => do let s ← yamlQueue cx m; pure (.queue s)

/-- `validate_resource_metadata`, parse_yaml.rs 1462-1522: annotations and labels that are not mappings are
ignored; the display name must not be empty. -/
def yamlMeta (m : List (Str × Doc F)) : Outcome Err (Meta Sos (Node F)) := do
  let r ← fill false
    [fld "displayName" (yamlSos cx) (fun s a => { s with displayName := a }),
     ("annotations".toList, fun v s =>
       match v with
       | .obj m => do
         let a ← yamlNodeEntries cx m []
         pure { s with annotations := some a }
       | _ => .ok s),
     ("labels".toList, fun v s =>
       match v with
       | .obj m => do
         let a ← fillMap (keep readStr) m []
         pure { s with labels := some a }
       | _ => .ok s)]
    m { displayName := [] }
  require (!sosEmpty r.displayName)
  pure r

/-- A label value, `populate_by_label_selectors`, parse_yaml.rs 1545-1557: not a string is skipped. -/
def yamlLabel : Doc F → Outcome Err (Option Str)
  | .str s => .ok (some s)
  | _ => .ok none

/-- `validate_link_selector`, parse_yaml.rs 1524-1543. -/
def yamlLinkSelector (m : List (Str × Doc F)) : Outcome Err (List (Str × Str)) :=
  match get? m "byLabel".toList with
  | some (.obj l) => fillMap yamlLabel l []
  | _ => .err .format

/-- The fields of a resource of the given type, parse_yaml.rs 246-288. -/
def yamlResTable (t : RType) : List (Field F (RawResource F)) :=
  [fld "metadata" (readObj (yamlMeta cx)) (fun s a => { s with metadata := a }),
   fld "spec" (readObj (yamlSpec cx t)) (fun s a => { s with spec := some a }),
   fld "description" readStr (fun s a => { s with description := some a }),
   fld "linkSelector" (readObj yamlLinkSelector) (fun s a => { s with linkSelector := some a })]

/-- `validate_resource_definition`, parse_yaml.rs 225-298: the type is looked up first, unknown
keys are ignored, a specification is required. -/
def yamlResource (m : List (Str × Doc F)) : Outcome Err (RawResource F) :=
  match get? m "type".toList with
  | none => .err .format
  | some tv => do
    let ts ← readStr tv
    let t ← yamlType ts
    let r ← fill false (yamlResTable cx t) m { type := t, metadata := { displayName := [] } }
    require r.spec.isSome
    pure r

/-- One entry of the resources, parse_yaml.rs 198-220: not a mapping, or of an unsupported type,
is skipped. -/
def yamlResourceEntry : Doc F → Outcome Err (Option (RawResource F))
  | .obj m =>
    match yamlResource cx m with
    | .ok r => .ok (some r)
    | .err .unsupportedType => .ok none
    | .err e => .err e
    | .panic => .panic
  | _ => .ok none

/-- `validate_variable_definition`, parse_yaml.rs 131-191. -/
def yamlVariable (m : List (Str × Doc F)) : Outcome Err (Variable F) := do
  let v ← fill false
    [fld "type" readStr (fun s a => { s with type := a }),
     ("allowedValues".toList, fun v s =>
       match v with
       | .arr l => do
         let a ← fillVec (keep (yamlScalar cx)) l
         pure { s with allowedValues := some a }
       | _ => .ok s),
     fld "default" (yamlScalar cx) (fun s a => { s with default := some a }),
     ("secret".toList, fun v s =>
       match v with
       | .bool b => .ok { s with secret := some b }
       | _ => .err .format),
     fld "description" readStr (fun s a => { s with description := some a })]
    m {}
  require (!v.type.isEmpty)
  pure v

/-- `validate_assign_version`, parse_yaml.rs 98-110, and blueprint.rs 7. -/
def supportedVersion : Str := "2025-05-12".toList

/-- The fields of the blueprint, parse_yaml.rs 38-80: a key whose value has an unexpected form is
ignored; `metadata` only has an effect through `sharedHandlerConfig`
(`validate_populate_blueprint_metadata`, 1703-1719). -/
def yamlTop : List (Field F (RawConfig F)) :=
  [("version".toList, fun v s =>
     match v with
     | .str t => if t = supportedVersion then .ok { s with version := t } else .err .format
     | _ => .ok s),
   ("transform".toList, fun v s =>
     match v with
     | .str t => .ok { s with transform := some [t] }
     | _ => .ok s),
   ("variables".toList, fun v s =>
     match v with
     | .obj m => do
       let a ← fillMap (skipNonObj (yamlVariable cx)) m []
       pure { s with variables := some a }
     | _ => .ok s),
   ("resources".toList, fun v s =>
     match v with
     | .obj m => do
       let a ← fillMap (yamlResourceEntry cx) m []
       pure { s with resources := a }
     | _ => .ok s),
   ("metadata".toList, fun v s =>
     match v with
     | .obj m =>
       fill false
         [("sharedHandlerConfig".toList, fun v s =>
            match v with
            | .obj m => do
              let a ← yamlShared cx m
              pure { s with metadata := some (some a) }
            | _ => .ok s)]
         m s
     | _ => .ok s)]

/-- `build_intermediate_blueprint_config_from_yaml`, parse_yaml.rs 38-96. -/
def yamlBlueprint : Doc F → Outcome Err (RawConfig F)
  | .obj m => do
    let b ← fill false (yamlTop cx) m {}
    require (!b.version.isEmpty)
    require (!b.resources.isEmpty)
    pure b
  | _ => .err .format

end Verif.Blueprint
