import Verif.Blueprint.Yaml

/-!
# The JSON loader

The `Deserialize` implementations of
`libs/runtime/blueprint-config-parser/src/blueprint_with_subs.rs` (mostly derived),
`parse_blueprint_resource.rs`, `parse_helpers.rs`, `parse_mapping_node.rs`, read from serde_json.

Derived code is not in the repository; what is modelled is the documented behaviour of serde's
derive macro: unknown fields are ignored, an `Option` field may be missing or null, any other field
must be present, a field given twice is an error, and a sequence with one element for each field in
the order of declaration is accepted in place of a mapping. Not modelled: serde_json's limit of 128
on the nesting of a document.
-/

namespace Verif.Blueprint

open Verif Verif.Subst

variable {F : Type} (cx : Ctx F)

/-! ## Values -/

/-- `Deserialize for StringOrSubstitutions`, parse_substitutions.rs 13-44. -/
def jsonSos : Doc F → Outcome Err Sos
  | .str s => liftParse (parseSubstitutions cx.cls s)
  | _ => .err .format

/-- An `Option<T>` field: null is `None`. -/
def jsonOpt {A : Type} (r : Doc F → Outcome Err A) : Doc F → Outcome Err (Option A)
  | .null => .ok none
  | v => keep r v

/-- `value as i64` of a `u64`, parse_mapping_node.rs 106-108. -/
def wrapI64 (n : Int) : Int := if n < 2 ^ 63 then n else n - 2 ^ 64

/-- An integer literal in a mapping node: `visit_i64`, `visit_u64`, `visit_f64`,
parse_mapping_node.rs 90-92, 106-108 and 116-118. serde_json delivers a non-negative integer below
`2^64` as a `u64`, a negative one of at least `-2^63` as an `i64`, any other as an `f64`. -/
def jsonIntNode (n : Int) : Scalar F :=
  if 0 ≤ n ∧ n < 2 ^ 64 then .int (wrapI64 n)
  else if -(2 ^ 63) ≤ n ∧ n < 0 then .int n
  else .float (cx.ofInt n)

/-- `visit_str`, parse_mapping_node.rs 64-72: the text is parsed as JSON again, and only if it is
itself a JSON string literal with well-formed substitutions are they looked at. -/
def jsonStrNode (s : Str) : Node F :=
  match cx.jsonString s with
  | some t =>
    match parseSubstitutions cx.cls t with
    | .ok v => .subst v
    | _ => .scalar (.str s)
  | none => .scalar (.str s)

mutual
/-- `Deserialize for MappingNode`, parse_mapping_node.rs 13-123. serde_json calls `visit_unit` for
null, which the visitor does not have: an error. -/
def jsonNode : Doc F → Outcome Err (Node F)
  | .obj m => do
    let m ← jsonNodeEntries m []
    pure (.mapping m)
  | .arr l => do
    let l ← jsonNodes l
    pure (.sequence l)
  | .str s => .ok (jsonStrNode cx s)
  | .bool b => .ok (.scalar (.bool b))
  | .int n => .ok (.scalar (jsonIntNode cx n))
  | .float x => .ok (.scalar (.float x))
  | .null => .err .format
/-- The loop of `visit_map`, parse_mapping_node.rs 37-41. -/
def jsonNodeEntries : List (Str × Doc F) → List (Str × Node F) → Outcome Err (List (Str × Node F))
  | [], acc => .ok acc
  | (k, v) :: rest, acc => do
    let n ← jsonNode v
    jsonNodeEntries rest (hmInsert acc k n)
/-- The loop of `visit_seq`, parse_mapping_node.rs 49-52. -/
def jsonNodes : List (Doc F) → Outcome Err (List (Node F))
  | [] => .ok []
  | v :: rest => do
    let n ← jsonNode v
    let ns ← jsonNodes rest
    pure (n :: ns)
end

/-- `Deserialize for BlueprintScalarValue`, blueprint.rs 102-109: untagged, tried in the order
string, `i64`, `f64`, `bool`. -/
def jsonScalar : Doc F → Outcome Err (Scalar F)
  | .str s => .ok (.str s)
  | .int n => .ok (if inI64 n then .int n else .float (cx.ofInt n))
  | .float x => .ok (.float x)
  | .bool b => .ok (.bool b)
  | _ => .err .format

/-- A `bool`. -/
def jsonBool : Doc F → Outcome Err Bool
  | .bool b => .ok b
  | _ => .err .format

/-- `Vec<StringOrSubstitutions>`. -/
def jsonSosVec : Doc F → Outcome Err (List Sos) := readVec (jsonSos cx)

/-- `HashMap<String, StringOrSubstitutions>`. -/
def jsonSosMap : Doc F → Outcome Err (List (Str × Sos)) := readMap (jsonSos cx)

/-- `HashMap<String, MappingNode>`. -/
def jsonNodeMap : Doc F → Outcome Err (List (Str × Node F)) :=
  readObj (fun m => jsonNodeEntries cx m [])

/-! ## Derived structs -/

/-- How often a key occurs. -/
def countKey (m : List (Str × Doc F)) (k : Str) : Nat := (m.filter fun e => decide (e.1 = k)).length

/-- The entries of a derived struct: those of a mapping, or the elements of a sequence of exactly
as many elements as there are fields. -/
def structEntries (names : List Str) : Doc F → Outcome Err (List (Str × Doc F))
  | .obj m => .ok m
  | .arr l => if l.length = names.length then .ok (names.zip l) else .err .format
  | _ => .err .format

/-- `derive(Deserialize)` of a struct with the given fields in the order of declaration, of which
`req` are not `Option`s. -/
def jsonStruct {S : Type} (table : List (Field F S)) (req : List Str) (init : S) (v : Doc F) :
    Outcome Err S := do
  let m ← structEntries (table.map (·.1)) v
  require ((table.map (·.1)).all fun k => decide (countKey m k ≤ 1))
  require (req.all fun k => decide (countKey m k = 1))
  fill false table m init

/-- `derive(Deserialize)` of an untagged enum: the first alternative that succeeds. -/
def orElse {A : Type} (a b : Outcome Err A) : Outcome Err A :=
  match a with
  | .err _ => b
  | a => a

/-! ## Specifications -/

/-- `SharedHandlerConfigWithSubs`, blueprint_with_subs.rs 68-85. -/
def jsonShared : Doc F → Outcome Err (Shared Sos (Node F) (Node F)) :=
  jsonStruct
    [fld "codeLocation" (jsonOpt (jsonSos cx)) (fun s a => { s with codeLocation := a }),
     fld "runtime" (jsonOpt (jsonSos cx)) (fun s a => { s with runtime := a }),
     fld "memory" (jsonOpt (jsonNode cx)) (fun s a => { s with memory := a }),
     fld "timeout" (jsonOpt (jsonNode cx)) (fun s a => { s with timeout := a }),
     fld "tracingEnabled" (jsonOpt (jsonNode cx)) (fun s a => { s with tracingEnabled := a }),
     fld "environmentVariables" (jsonOpt (jsonSosMap cx))
       (fun s a => { s with environmentVariables := a })]
    [] {}

/-- `CelerityHandlerSpecWithSubs`, blueprint_with_subs.rs 103-124. -/
def jsonHandler : Doc F → Outcome Err (HandlerSpec Sos (Node F) (Node F)) :=
  jsonStruct
    [fld "handlerName" (jsonOpt (jsonSos cx)) (fun s a => { s with handlerName := a }),
     fld "codeLocation" (jsonOpt (jsonSos cx)) (fun s a => { s with codeLocation := a }),
     fld "handler" (jsonSos cx) (fun s a => { s with handler := a }),
     fld "runtime" (jsonOpt (jsonSos cx)) (fun s a => { s with runtime := a }),
     fld "memory" (jsonOpt (jsonNode cx)) (fun s a => { s with memory := a }),
     fld "timeout" (jsonOpt (jsonNode cx)) (fun s a => { s with timeout := a }),
     fld "tracingEnabled" (jsonOpt (jsonNode cx)) (fun s a => { s with tracingEnabled := a }),
     fld "environmentVariables" (jsonOpt (jsonSosMap cx))
       (fun s a => { s with environmentVariables := a })]
    ["handler".toList] { handler := [] }

/-- `CelerityScheduleSpecWithSubs`, blueprint_with_subs.rs 315-318. -/
def jsonSchedule : Doc F → Outcome Err Sos :=
  jsonStruct [fld "schedule" (jsonSos cx) (fun _ a => a)] ["schedule".toList] []

/-- The variant names of a fieldless enum, `EventSourceType`, blueprint.rs 549-556. -/
def evTypeOfName (s : Str) : Option EvType :=
  if s = "objectStorage".toList then some .objectStorage
  else if s = "dbStream".toList then some .dbStream
  else if s = "dataStream".toList then some .dataStream
  else none

/-- `derive(Deserialize)` of `EventSourceType`: the name, or a mapping from the name to null. -/
def jsonEvType : Doc F → Outcome Err EvType
  | .str s =>
    match evTypeOfName s with
    | some t => .ok t
    | none => .err .format
  | .obj [(k, .null)] =>
    match evTypeOfName k with
    | some t => .ok t
    | none => .err .format
  | _ => .err .format

/-- `DatabaseStreamSourceConfigurationWithSubs` (key `dbStreamId`) and
`DataStreamSourceConfigurationWithSubs` (key `dataStreamId`), blueprint_with_subs.rs 285-313. -/
def jsonStream (key : String) : Doc F → Outcome Err (Stream Sos (Node F) (Node F)) :=
  jsonStruct
    [fld "batchSize" (jsonOpt (jsonNode cx)) (fun s a => { s with batchSize := a }),
     fld key (jsonSos cx) (fun s a => { s with streamId := a }),
     fld "partialFailures" (jsonOpt (jsonNode cx)) (fun s a => { s with partialFailures := a }),
     fld "startFromBeginning" (jsonOpt (jsonNode cx))
       (fun s a => { s with startFromBeginning := a })]
    [key.toList] { streamId := [] }

/-- `ObjectStorageEventSourceConfigurationWithSubs`, blueprint_with_subs.rs 279-283. -/
def jsonObjectStorage : Doc F → Outcome Err (Sos × List Sos) :=
  jsonStruct
    [fld "bucket" (jsonSos cx) (fun s a => (a, s.2)),
     fld "events" (jsonSosVec cx) (fun s a => (s.1, a))]
    ["bucket".toList, "events".toList] ([], [])

/-- `EventSourceConfigurationWithSubs`, blueprint_with_subs.rs 271-277: untagged, so chosen by
what it contains and not by `sourceType`. -/
def jsonEvConfig (v : Doc F) : Outcome Err (EvConfig Sos (Node F) (Node F) Sos) :=
  orElse (do let c ← jsonObjectStorage cx v; pure (.objectStorage c.1 c.2))
    (orElse (do let c ← jsonStream cx "dbStreamId" v; pure (.dbStream c))
      (do let c ← jsonStream cx "dataStreamId" v; pure (.dataStream c)))

/-- `ExternalEventConfigurationWithSubs`, blueprint_with_subs.rs 252-258. The initial value is
never seen, both fields being required. -/
def jsonEvent : Doc F → Outcome Err (ExternalEvent Sos (Node F) (Node F) Sos) :=
  jsonStruct
    [fld "sourceType" jsonEvType (fun s a => { s with sourceType := a }),
     fld "sourceConfiguration" (jsonEvConfig cx) (fun s a => { s with config := a })]
    ["sourceType".toList, "sourceConfiguration".toList]
    { sourceType := .objectStorage, config := .objectStorage [] [] }

/-- `CelerityConsumerSpecWithSubs`, blueprint_with_subs.rs 227-250. -/
def jsonConsumer : Doc F → Outcome Err (ConsumerSpec Sos (Node F) (Node F) Sos) :=
  jsonStruct
    [fld "sourceId" (jsonOpt (jsonSos cx)) (fun s a => { s with sourceId := a }),
     fld "batchSize" (jsonOpt (jsonNode cx)) (fun s a => { s with batchSize := a }),
     fld "visibilityTimeout" (jsonOpt (jsonNode cx)) (fun s a => { s with visibilityTimeout := a }),
     fld "waitTimeSeconds" (jsonOpt (jsonNode cx)) (fun s a => { s with waitTimeSeconds := a }),
     fld "partialFailures" (jsonOpt (jsonNode cx)) (fun s a => { s with partialFailures := a }),
     fld "routingKey" (jsonOpt (jsonSos cx)) (fun s a => { s with routingKey := a }),
     fld "externalEvents" (jsonOpt (readMap (jsonEvent cx)))
       (fun s a => { s with externalEvents := a })]
    [] {}

/-- `CelerityApiCorsConfigurationWithSubs`, blueprint_with_subs.rs 147-161. -/
def jsonCorsConfig : Doc F → Outcome Err (CorsConfig Sos (Node F) (Node F)) :=
  jsonStruct
    [fld "allowCredentials" (jsonOpt (jsonNode cx)) (fun s a => { s with allowCredentials := a }),
     fld "allowOrigins" (jsonOpt (jsonSosVec cx)) (fun s a => { s with allowOrigins := a }),
     fld "allowMethods" (jsonOpt (jsonSosVec cx)) (fun s a => { s with allowMethods := a }),
     fld "allowHeaders" (jsonOpt (jsonSosVec cx)) (fun s a => { s with allowHeaders := a }),
     fld "exposeHeaders" (jsonOpt (jsonSosVec cx)) (fun s a => { s with exposeHeaders := a }),
     fld "maxAge" (jsonOpt (jsonNode cx)) (fun s a => { s with maxAge := a })]
    [] {}

/-- `CelerityApiCorsWithSubs`, blueprint_with_subs.rs 140-145. -/
def jsonCors (v : Doc F) : Outcome Err (Cors Sos (Node F) (Node F)) :=
  orElse (do let s ← jsonSos cx v; pure (.str s)) (do let c ← jsonCorsConfig cx v; pure (.config c))

/-- `CelerityApiBasePathConfigurationWithSubs` (key `basePath`), blueprint_with_subs.rs 186-191,
and `ValueSourceConfigurationWithSubs` (key `source`), 221-225. -/
def jsonProtocolAnd (key : String) : Doc F → Outcome Err (ProtocolAnd Sos (Node F)) :=
  jsonStruct
    [fld "protocol" (jsonNode cx) (fun s a => { s with protocol := a }),
     fld key (jsonSos cx) (fun s a => { s with value := a })]
    ["protocol".toList, key.toList] { protocol := .null, value := [] }

/-- `CelerityApiBasePathWithSubs`, blueprint_with_subs.rs 179-184, and
`CelerityApiAuthGuardValueSourceWithSubs`, 214-219. -/
def jsonStrOrConfig (key : String) (v : Doc F) : Outcome Err (StrOrConfig Sos (Node F)) :=
  orElse (do let s ← jsonSos cx v; pure (.str s))
    (do let c ← jsonProtocolAnd cx key v; pure (.config c))

/-- `CelerityApiDomainWithSubs`, blueprint_with_subs.rs 163-177. -/
def jsonDomain : Doc F → Outcome Err (Domain Sos (Node F) (Node F) Sos) :=
  jsonStruct
    [fld "domainName" (jsonSos cx) (fun s a => { s with domainName := a }),
     fld "basePaths" (readVec (jsonStrOrConfig cx "basePath"))
       (fun s a => { s with basePaths := a }),
     fld "normalizeBasePath" (jsonOpt (jsonNode cx)) (fun s a => { s with normalizeBasePath := a }),
     fld "certificateId" (jsonSos cx) (fun s a => { s with certificateId := a }),
     fld "securityPolicy" (jsonOpt (jsonSos cx)) (fun s a => { s with securityPolicy := a })]
    ["domainName".toList, "basePaths".toList, "certificateId".toList]
    { domainName := [], basePaths := [], certificateId := [] }

/-- `CelerityApiAuthGuardWithSubs`, blueprint_with_subs.rs 201-212. -/
def jsonGuard : Doc F → Outcome Err (Guard Sos (Node F) Sos) :=
  jsonStruct
    [fld "type" (jsonSos cx) (fun s a => { s with guardType := a }),
     fld "issuer" (jsonOpt (jsonSos cx)) (fun s a => { s with issuer := a }),
     fld "tokenSource" (jsonOpt (jsonStrOrConfig cx "source"))
       (fun s a => { s with tokenSource := a }),
     fld "audience" (jsonOpt (jsonSosVec cx)) (fun s a => { s with audience := a })]
    ["type".toList] { guardType := [] }

/-- `CelerityApiAuthWithSubs`, blueprint_with_subs.rs 193-199. -/
def jsonAuth : Doc F → Outcome Err (Auth Sos (Node F) Sos) :=
  jsonStruct
    [fld "defaultGuard" (jsonOpt (jsonSos cx)) (fun s a => { s with defaultGuard := a }),
     fld "guards" (readMap (jsonGuard cx)) (fun s a => { s with guards := a })]
    ["guards".toList] { guards := [] }

/-- `CelerityApiSpecWithSubs`, blueprint_with_subs.rs 126-138. -/
def jsonApi : Doc F → Outcome Err (ApiSpec Sos (Node F) (Node F) (Node F) Sos Sos) :=
  jsonStruct
    [fld "protocols" (readVec (jsonNode cx)) (fun s a => { s with protocols := a }),
     fld "cors" (jsonOpt (jsonCors cx)) (fun s a => { s with cors := a }),
     fld "domain" (jsonOpt (jsonDomain cx)) (fun s a => { s with domain := a }),
     fld "auth" (jsonOpt (jsonAuth cx)) (fun s a => { s with auth := a }),
     fld "tracingEnabled" (jsonOpt (jsonNode cx)) (fun s a => { s with tracingEnabled := a })]
    ["protocols".toList] { protocols := [] }

/-! ## Workflows -/

/-- `CelerityWorkflowConditionWithSubs`, blueprint_with_subs.rs 383-387. -/
def jsonCond : Doc F → Outcome Err (Cond Sos (Node F)) :=
  jsonStruct
    [fld "inputs" (readVec (jsonNode cx)) (fun s a => { s with inputs := a }),
     fld "function" (jsonSos cx) (fun s a => { s with function := a })]
    ["inputs".toList, "function".toList] { inputs := [], function := [] }

/-- `CelerityWorkflowDecisionRuleWithSubs`, blueprint_with_subs.rs 370-381. -/
def jsonRule : Doc F → Outcome Err (Rule Sos (Node F)) :=
  jsonStruct
    [fld "and" (jsonOpt (readVec (jsonCond cx))) (fun s a => { s with and := a }),
     fld "or" (jsonOpt (readVec (jsonCond cx))) (fun s a => { s with or := a }),
     fld "not" (jsonOpt (jsonCond cx)) (fun s a => { s with not := a }),
     fld "condition" (jsonOpt (jsonCond cx)) (fun s a => { s with condition := a }),
     fld "next" (jsonSos cx) (fun s a => { s with next := a })]
    ["next".toList] { next := [] }

/-- `CelerityWorkflowWaitConfigWithSubs`, blueprint_with_subs.rs 389-395. -/
def jsonWait : Doc F → Outcome Err (WaitConfig Sos) :=
  jsonStruct
    [fld "seconds" (jsonOpt (jsonSos cx)) (fun s a => { s with seconds := a }),
     fld "timestamp" (jsonOpt (jsonSos cx)) (fun s a => { s with timestamp := a })]
    [] {}

/-- `CelerityWorkflowFailureConfigWithSubs`, blueprint_with_subs.rs 397-403. -/
def jsonFailure : Doc F → Outcome Err (FailureConfig Sos) :=
  jsonStruct
    [fld "error" (jsonOpt (jsonSos cx)) (fun s a => { s with error := a }),
     fld "cause" (jsonOpt (jsonSos cx)) (fun s a => { s with cause := a })]
    [] {}

/-- `CelerityWorkflowRetryConfigWithSubs`, blueprint_with_subs.rs 412-429. -/
def jsonRetry : Doc F → Outcome Err (Retry Sos (Node F) (Node F) (Node F)) :=
  jsonStruct
    [fld "matchErrors" (jsonSosVec cx) (fun s a => { s with matchErrors := a }),
     fld "interval" (jsonOpt (jsonNode cx)) (fun s a => { s with interval := a }),
     fld "maxAttempts" (jsonOpt (jsonNode cx)) (fun s a => { s with maxAttempts := a }),
     fld "maxDelay" (jsonOpt (jsonNode cx)) (fun s a => { s with maxDelay := a }),
     fld "jitter" (jsonOpt (jsonNode cx)) (fun s a => { s with jitter := a }),
     fld "backoffRate" (jsonOpt (jsonNode cx)) (fun s a => { s with backoffRate := a })]
    ["matchErrors".toList] { matchErrors := [] }

/-- `CelerityWorkflowCatchConfigWithSubs`, blueprint_with_subs.rs 431-439. -/
def jsonCatch : Doc F → Outcome Err (Catch Sos) :=
  jsonStruct
    [fld "matchErrors" (jsonSosVec cx) (fun s a => { s with matchErrors := a }),
     fld "next" (jsonSos cx) (fun s a => { s with next := a }),
     fld "resultPath" (jsonOpt (jsonSos cx)) (fun s a => { s with resultPath := a })]
    ["matchErrors".toList, "next".toList] { matchErrors := [], next := [] }

/-- `CelerityWorkflowStateWithSubs`, blueprint_with_subs.rs 327-368, in the order of declaration;
`parallelBranches` is read by `jsonBranchesOf`. -/
def jsonStateFields : Doc F → Outcome Err (RawFields F) :=
  jsonStruct
    [fld "type" (jsonSos cx) (fun s a => { s with stateType := a }),
     fld "description" (jsonOpt (jsonSos cx)) (fun s a => { s with description := a }),
     fld "inputPath" (jsonOpt (jsonSos cx)) (fun s a => { s with inputPath := a }),
     fld "resultPath" (jsonOpt (jsonSos cx)) (fun s a => { s with resultPath := a }),
     fld "outputPath" (jsonOpt (jsonSos cx)) (fun s a => { s with outputPath := a }),
     fld "payloadTemplate" (jsonOpt (jsonNodeMap cx)) (fun s a => { s with payloadTemplate := a }),
     fld "next" (jsonOpt (jsonSos cx)) (fun s a => { s with next := a }),
     fld "end" (jsonOpt (jsonNode cx)) (fun s a => { s with end_ := a }),
     fld "decisions" (jsonOpt (readVec (jsonRule cx))) (fun s a => { s with decisions := a }),
     fld "result" (jsonOpt (jsonNode cx)) (fun s a => { s with result := a }),
     fld "timeout" (jsonOpt (jsonNode cx)) (fun s a => { s with timeout := a }),
     fld "waitConfig" (jsonOpt (jsonWait cx)) (fun s a => { s with waitConfig := a }),
     fld "failureConfig" (jsonOpt (jsonFailure cx)) (fun s a => { s with failureConfig := a }),
     ("parallelBranches".toList, fun _ s => .ok s),
     fld "retry" (jsonOpt (readVec (jsonRetry cx))) (fun s a => { s with retry := a }),
     fld "catch" (jsonOpt (readVec (jsonCatch cx))) (fun s a => { s with catch_ := a })]
    ["type".toList] { stateType := [] }

/-- `startAt` of `CelerityWorkflowSpecWithSubs`, blueprint_with_subs.rs 320-325, and
`CelerityWorkflowParallelBranchWithSubs`, 405-410; `states` is read by `jsonStatesOf`. -/
def jsonStartAt : Doc F → Outcome Err Sos :=
  jsonStruct [fld "startAt" (jsonSos cx) (fun _ a => a), ("states".toList, fun _ s => .ok s)]
    ["startAt".toList, "states".toList] []

mutual
/-- `CelerityWorkflowStateWithSubs`, blueprint_with_subs.rs 327-368. -/
def jsonState : Doc F → Outcome Err (RawState F)
  | .obj m => do
    let f ← jsonStateFields cx (.obj m)
    let b ← jsonBranchesOf m
    pure (.mk f b)
  | .arr l => do
    let f ← jsonStateFields cx (.arr l)
    let b ← jsonBranchesAt 13 l
    pure (.mk f b)
  | _ => .err .format
/-- The `parallelBranches` key of a state given as a mapping (in which it occurs at most once). -/
def jsonBranchesOf : List (Str × Doc F) →
    Outcome Err (Option (List (Sos × List (Str × RawState F))))
  | [] => .ok none
  | (k, v) :: rest =>
    if k = "parallelBranches".toList then jsonBranchOpt v else jsonBranchesOf rest
/-- The element for `parallelBranches` of a state given as a sequence. -/
def jsonBranchesAt : Nat → List (Doc F) →
    Outcome Err (Option (List (Sos × List (Str × RawState F))))
  | _, [] => .ok none
  | 0, v :: _ => jsonBranchOpt v
  | n + 1, _ :: rest => jsonBranchesAt n rest
/-- `Option<Vec<CelerityWorkflowParallelBranchWithSubs>>`. -/
def jsonBranchOpt : Doc F → Outcome Err (Option (List (Sos × List (Str × RawState F))))
  | .null => .ok none
  | .arr l => do
    let bs ← jsonBranches l
    pure (some bs)
  | _ => .err .format
/-- The elements of that vector. -/
def jsonBranches : List (Doc F) → Outcome Err (List (Sos × List (Str × RawState F)))
  | [] => .ok []
  | v :: rest => do
    let b ← jsonBranch v
    let bs ← jsonBranches rest
    pure (b :: bs)
/-- `CelerityWorkflowParallelBranchWithSubs`, blueprint_with_subs.rs 405-410. -/
def jsonBranch : Doc F → Outcome Err (Sos × List (Str × RawState F))
  | .obj m => do
    let st ← jsonStartAt cx (.obj m)
    let ss ← jsonStatesOf m
    pure (st, ss)
  | .arr l => do
    let st ← jsonStartAt cx (.arr l)
    let ss ← jsonStatesAt 1 l
    pure (st, ss)
  | _ => .err .format
/-- The `states` key of a branch or workflow given as a mapping (in which it occurs exactly
once). -/
def jsonStatesOf : List (Str × Doc F) → Outcome Err (List (Str × RawState F))
  | [] => .ok []
  | (k, v) :: rest => if k = "states".toList then jsonStateMap v else jsonStatesOf rest
/-- The element for `states` of a branch or workflow given as a sequence. -/
def jsonStatesAt : Nat → List (Doc F) → Outcome Err (List (Str × RawState F))
  | _, [] => .ok []
  | 0, v :: _ => jsonStateMap v
  | n + 1, _ :: rest => jsonStatesAt n rest
/-- `HashMap<String, CelerityWorkflowStateWithSubs>`. -/
def jsonStateMap : Doc F → Outcome Err (List (Str × RawState F))
  | .obj m => jsonStates m []
  | _ => .err .format
/-- The entries of that map. -/
def jsonStates : List (Str × Doc F) → List (Str × RawState F) → Outcome Err (List (Str × RawState F))
  | [], acc => .ok acc
  | (k, v) :: rest, acc => do
    let s ← jsonState v
    jsonStates rest (hmInsert acc k s)
end

/-- `CelerityWorkflowSpecWithSubs`, blueprint_with_subs.rs 320-325: the same two fields as a
branch. -/
def jsonWorkflow (v : Doc F) :
    Outcome Err (WorkflowSpec Sos (Node F) (Node F) (Node F) (Node F) Sos) := do
  let b ← jsonBranch cx v
  pure { startAt := b.1, states := b.2 }

/-! ## Resources and the blueprint -/

/-- `CelerityConfigSpecWithSubs`, blueprint_with_subs.rs 441-447. -/
def jsonConfigSpec : Doc F → Outcome Err (ConfigSpec Sos) :=
  jsonStruct
    [fld "name" (jsonOpt (jsonSos cx)) (fun s a => { s with name := a }),
     fld "plaintext" (jsonOpt (jsonSosVec cx)) (fun s a => { s with plaintext := a })]
    [] {}

/-- `CelerityBucketSpecWithSubs`, blueprint_with_subs.rs 449-453. -/
def jsonBucket : Doc F → Outcome Err (Option Sos) :=
  jsonStruct [fld "name" (jsonOpt (jsonSos cx)) (fun _ a => a)] [] none

/-- `CelerityTopicSpecWithSubs`, blueprint_with_subs.rs 455-461. -/
def jsonTopic : Doc F → Outcome Err (TopicSpec Sos (Node F)) :=
  jsonStruct
    [fld "name" (jsonOpt (jsonSos cx)) (fun s a => { s with name := a }),
     fld "fifo" (jsonOpt (jsonNode cx)) (fun s a => { s with fifo := a })]
    [] {}

/-- `CelerityQueueSpecWithSubs`, blueprint_with_subs.rs 472-481. -/
def jsonQueue : Doc F → Outcome Err (QueueSpec Sos (Node F) (Node F)) :=
  jsonStruct
    [fld "name" (jsonOpt (jsonSos cx)) (fun s a => { s with name := a }),
     fld "fifo" (jsonOpt (jsonNode cx)) (fun s a => { s with fifo := a }),
     fld "visibilityTimeout" (jsonOpt (jsonNode cx)) (fun s a => { s with visibilityTimeout := a })]
    [] {}

/-- `spec_from_resource_type_map`, parse_blueprint_resource.rs 44-96. -/
def jsonSpec (t : RType) (v : Doc F) : Outcome Err (RawSpec F) :=
  match t with
  | .api => do let s ← jsonApi cx v; pure (.api s)
  | .consumer => do let s ← jsonConsumer cx v; pure (.consumer s)
  | .schedule => do let s ← jsonSchedule cx v; pure (.schedule s)
  | .handler => do let s ← jsonHandler cx v; pure (.handler s)
  | .handlerConfig => do let s ← jsonShared cx v; pure (.handlerConfig s)
  | .workflow => do let s ← jsonWorkflow cx v; pure (.workflow s)
  | .config => do let s ← jsonConfigSpec cx v; pure (.config s)
  | .bucket => do let s ← jsonBucket cx v; pure (.bucket s)
  | .topic => do let s ← jsonTopic cx v; pure (.topic s)
  | .queue => do let s ← jsonQueue cx v; pure (.queue s)

/-- `BlueprintResourceMetadataWithSubs`, blueprint_with_subs.rs 51-59. -/
def jsonMeta : Doc F → Outcome Err (Meta Sos (Node F)) :=
  jsonStruct
    [fld "displayName" (jsonSos cx) (fun s a => { s with displayName := a }),
     fld "annotations" (jsonOpt (jsonNodeMap cx)) (fun s a => { s with annotations := a }),
     fld "labels" (jsonOpt (readMap readStr)) (fun s a => { s with labels := a })]
    ["displayName".toList] { displayName := [] }

/-- `BlueprintLinkSelector`, blueprint.rs 210-214. -/
def jsonLinkSelector : Doc F → Outcome Err (List (Str × Str)) :=
  jsonStruct [fld "byLabel" (readMap readStr) (fun _ a => a)] ["byLabel".toList] []

/-- All resource types, blueprint.rs 163-184. -/
def allTypes : List RType :=
  [.handler, .api, .consumer, .schedule, .handlerConfig, .workflow, .config, .bucket, .topic, .queue]

/-- The variant of `CelerityResourceType` with the given name. -/
def typeOfName (s : Str) : Option RType := allTypes.find? fun t => decide (t.name = s)

/-- The local variables of `visit_map`, parse_blueprint_resource.rs 110-115; `unsupported` tells
whether `unsupported_resource_type_err` is set. -/
structure JRes (F : Type) where
  type : Option RType := none
  metadata : Meta Sos (Node F) := { displayName := [] }
  spec : Option (RawSpec F) := none
  description : Option Str := none
  linkSelector : Option (List (Str × Str)) := none
  unsupported : Bool := false

/-- `ResourceField::ResourceType`, parse_blueprint_resource.rs 122-156. A mapping from a known name
to null is accepted by serde_json; for an unknown name in that form the reader is left inside the
mapping, and the next read fails. -/
def jsonResType (v : Doc F) (s : JRes F) : Outcome Err (JRes F) :=
  if s.type.isSome then .err .format
  else
    match v with
    | .str n =>
      match typeOfName n with
      | some t => .ok { s with type := some t }
      | none => .ok { s with unsupported := true }
    | .obj [(k, .null)] =>
      match typeOfName k with
      | some t => .ok { s with type := some t }
      | none => .err .format
    | _ => .err .format

/-- `ResourceField::Spec`, parse_blueprint_resource.rs 160-172. -/
def jsonResSpec (v : Doc F) (s : JRes F) : Outcome Err (JRes F) :=
  if s.spec.isSome then .err .format
  else
    match s.type with
    | some t => do
      let sp ← jsonSpec cx t v
      pure { s with spec := some sp }
    | none => .err .format

/-- The known fields, parse_blueprint_resource.rs 121-185. -/
def jsonResTable : List (Field F (JRes F)) :=
  [("type".toList, jsonResType),
   fld "metadata" (jsonMeta cx) (fun s a => { s with metadata := a }),
   ("spec".toList, jsonResSpec cx),
   ("description".toList, fun v s =>
     if s.description.isSome then .err .format
     else do
       let d ← readStr v
       pure { s with description := some d }),
   ("linkSelector".toList, fun v s =>
     if s.linkSelector.isSome then .err .format
     else do
       let l ← jsonLinkSelector v
       pure { s with linkSelector := some l })]

/-- The fields once the resource type is known to be unsupported: values are skipped
(parse_blueprint_resource.rs 117-119), but keys are still read as `ResourceField`s. -/
def skipFields (table : List (Field F (JRes F))) : List (Field F (JRes F)) :=
  table.map fun f => (f.1, fun v s => if s.unsupported then .ok s else f.2 v s)

/-- `visit_map`, parse_blueprint_resource.rs 106-200: an unknown key is an error. -/
def jsonResource : Doc F → Outcome Err (RawResource F)
  | .obj m => do
    let s ← fill true (skipFields (jsonResTable cx)) m {}
    if s.unsupported then .err .unsupportedType
    else
      match s.type with
      | none => .err .format
      | some t =>
        pure { type := t, metadata := s.metadata, linkSelector := s.linkSelector,
               description := s.description, spec := s.spec }
  | _ => .err .format

/-- One entry of the resources, `deserialize_resource_map`, parse_helpers.rs 84-99. -/
def jsonResourceEntry : Doc F → Outcome Err (Option (RawResource F))
  | .null => .ok none
  | v =>
    match jsonResource cx v with
    | .ok r => .ok (some r)
    | .err .unsupportedType => .ok none
    | .err e => .err e
    | .panic => .panic

/-- `BlueprintVariable`, blueprint.rs 70-83. -/
def jsonVariable : Doc F → Outcome Err (Variable F) :=
  jsonStruct
    [fld "type" readStr (fun s a => { s with type := a }),
     fld "allowedValues" (jsonOpt (readVec (jsonScalar cx)))
       (fun s a => { s with allowedValues := a }),
     fld "default" (jsonOpt (jsonScalar cx)) (fun s a => { s with default := a }),
     fld "secret" (jsonOpt jsonBool) (fun s a => { s with secret := a }),
     fld "description" (jsonOpt readStr) (fun s a => { s with description := a })]
    ["type".toList] {}

/-- `deserialize_version`, parse_helpers.rs 12-24. -/
def jsonVersion : Doc F → Outcome Err Str
  | .str s => if s = supportedVersion then .ok s else .err .format
  | _ => .err .format

/-- `deserialize_optional_string_or_vec`, parse_helpers.rs 29-58. -/
def jsonTransform : Doc F → Outcome Err (List Str)
  | .str s => .ok [s]
  | v => readVec readStr v

/-- `BlueprintMetadataWithSubs`, blueprint_with_subs.rs 61-66. -/
def jsonBlueprintMeta : Doc F → Outcome Err (Option (Shared Sos (Node F) (Node F))) :=
  jsonStruct [fld "sharedHandlerConfig" (jsonOpt (jsonShared cx)) (fun _ a => a)] [] none

/-- `BlueprintConfigWithSubs`, blueprint_with_subs.rs 12-27. `transform` is an `Option`, but a
field with `deserialize_with` and no `default` must be present. -/
def jsonBlueprint : Doc F → Outcome Err (RawConfig F) :=
  jsonStruct
    [fld "version" jsonVersion (fun s a => { s with version := a }),
     fld "transform" jsonTransform (fun s a => { s with transform := some a }),
     fld "variables" (jsonOpt (readMap (jsonVariable cx))) (fun s a => { s with variables := a }),
     fld "resources" (readObj (fun m => fillMap (jsonResourceEntry cx) m []))
       (fun s a => { s with resources := a }),
     fld "metadata" (jsonOpt (jsonBlueprintMeta cx)) (fun s a => { s with metadata := a })]
    ["version".toList, "transform".toList, "resources".toList] {}

end Verif.Blueprint
