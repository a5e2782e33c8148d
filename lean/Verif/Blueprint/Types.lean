import Verif.Subst.Model

/-!
# Blueprint documents and the configuration read from them

Types of `libs/runtime/blueprint-config-parser/src/blueprint_with_subs.rs` and `blueprint.rs`.

The code has every configuration struct twice: once as read, holding unresolved `${..}`
substitutions (`…WithSubs`, blueprint_with_subs.rs), and once resolved (blueprint.rs). Here each
struct is written once, with type parameters for the parts that differ: `S` for strings
(`StringOrSubstitutions` / `String`), `I`, `B`, `R` for integers, booleans and floats
(`MappingNode` / `i64`, `bool`, `f64`), `N` for free-form values (`MappingNode` /
`ResolvedMappingNode`), `P` for API protocols, and so on.

A `HashMap` is an association list.
-/

namespace Verif.Blueprint

open Verif Verif.Subst

/-- A document: what the JSON reader (`serde_json`, after `json_strip_comments::strip`) and the
YAML reader (`YamlLoader::load_from_str`) both deliver for equivalent texts. The lexical readers
are not modelled. YAML mapping keys that are not strings have no JSON counterpart and are left out.
An integer literal is an unbounded integer here; what each reader makes of one that is too large
is modelled. -/
inductive Doc (F : Type) where
  | null
  | bool (b : Bool)
  | int (n : Int)
  | float (x : F)
  | str (s : Str)
  | arr (l : List (Doc F))
  | obj (m : List (Str × Doc F))

/-- The outside functions used by the loaders: character classes, `str::parse::<f64>`, the nearest
float of an integer literal, and `jsonString`: the contents of a text that is one JSON string
literal (what `serde_json::from_str` delivers to a visitor that only accepts strings). The fields
are the only facts assumed of `jsonString`. -/
structure Ctx (F : Type) where
  cls : CharClass
  parseF : Str → Option F
  ofInt : Int → F
  jsonString : Str → Option Str
  /-- A JSON string literal starts with a quotation mark, after blanks. -/
  jsonString_start : ∀ s t, jsonString s = some t →
    ∃ b r, s = b ++ '"' :: r ∧ ∀ c ∈ b, c = ' ' ∨ c = '\t' ∨ c = '\n' ∨ c = '\r'
  /-- A literal without escapes and control characters stands for its contents. -/
  jsonString_plain : ∀ t, (∀ c ∈ t, c ≠ '"' ∧ c ≠ '\\' ∧ 32 ≤ c.toNat) →
    jsonString ('"' :: (t ++ ['"'])) = some t

/-- A JSON string literal contains a quotation mark. -/
theorem Ctx.jsonString_quote {F : Type} (cx : Ctx F) (s t : Str) (h : cx.jsonString s = some t) :
    '"' ∈ s := by
  obtain ⟨b, r, rfl, _⟩ := cx.jsonString_start s t h
  exact List.mem_append_right _ (List.mem_cons_self ..)

/-- Why loading fails. `BlueprintParseError`, parse.rs 86-96: the messages are not modelled;
`unsupportedType` is `BlueprintParseError::UnsupportedResourceType`, and for JSON the error whose
text starts with "unsupported resource type:". -/
inductive Err where
  | unsupportedType
  | format
  | resolve (e : ResolveError)
  deriving Repr, DecidableEq

/-- Unresolved strings, `StringOrSubstitutions` (blueprint_with_subs.rs 509-511). -/
abbrev Sos := List Piece

/-- `enum CelerityResourceType` (blueprint.rs 163-184). -/
inductive RType where
  | handler | api | consumer | schedule | handlerConfig | workflow | config | bucket | topic | queue
  deriving Repr, DecidableEq

/-- The names of the resource types, blueprint.rs 9-37 and the serde names 163-184. -/
def RType.name : RType → Str
  | .handler => "celerity/handler".toList
  | .api => "celerity/api".toList
  | .consumer => "celerity/consumer".toList
  | .schedule => "celerity/schedule".toList
  | .handlerConfig => "celerity/handlerConfig".toList
  | .workflow => "celerity/workflow".toList
  | .config => "celerity/config".toList
  | .bucket => "celerity/bucket".toList
  | .topic => "celerity/topic".toList
  | .queue => "celerity/queue".toList

/-- `SharedHandlerConfigWithSubs` (blueprint_with_subs.rs 69-85). -/
structure Shared (S I B : Type) where
  codeLocation : Option S := none
  runtime : Option S := none
  memory : Option I := none
  timeout : Option I := none
  tracingEnabled : Option B := none
  environmentVariables : Option (List (Str × S)) := none

/-- `CelerityHandlerSpecWithSubs` (blueprint_with_subs.rs 104-124). -/
structure HandlerSpec (S I B : Type) where
  handlerName : Option S := none
  codeLocation : Option S := none
  handler : S
  runtime : Option S := none
  memory : Option I := none
  timeout : Option I := none
  tracingEnabled : Option B := none
  environmentVariables : Option (List (Str × S)) := none

/-- `enum EventSourceType` (blueprint.rs 549-556). -/
inductive EvType where
  | objectStorage | dbStream | dataStream
  deriving Repr, DecidableEq

/-- `DatabaseStreamSourceConfigurationWithSubs` (blueprint_with_subs.rs 286-298) and `DataStreamSourceConfigurationWithSubs` (blueprint_with_subs.rs 301-313). -/
structure Stream (S I B : Type) where
  batchSize : Option I := none
  streamId : S
  partialFailures : Option B := none
  startFromBeginning : Option B := none

/-- `EventSourceConfigurationWithSubs` (blueprint_with_subs.rs 273-277); `E` is the type of object storage events. -/
inductive EvConfig (S I B E : Type) where
  | objectStorage (bucket : S) (events : List E)
  | dbStream (c : Stream S I B)
  | dataStream (c : Stream S I B)

/-- `ExternalEventConfigurationWithSubs` (blueprint_with_subs.rs 253-258). -/
structure ExternalEvent (S I B E : Type) where
  sourceType : EvType
  config : EvConfig S I B E

/-- `CelerityConsumerSpecWithSubs` (blueprint_with_subs.rs 228-250). -/
structure ConsumerSpec (S I B E : Type) where
  sourceId : Option S := none
  batchSize : Option I := none
  visibilityTimeout : Option I := none
  waitTimeSeconds : Option I := none
  partialFailures : Option B := none
  routingKey : Option S := none
  externalEvents : Option (List (Str × ExternalEvent S I B E)) := none

/-- `CelerityConfigSpecWithSubs` (blueprint_with_subs.rs 442-447). -/
structure ConfigSpec (S : Type) where
  name : Option S := none
  plaintext : Option (List S) := none

/-- `CelerityTopicSpecWithSubs` (blueprint_with_subs.rs 456-461). -/
structure TopicSpec (S B : Type) where
  name : Option S := none
  fifo : Option B := none

/-- `CelerityQueueSpecWithSubs` (blueprint_with_subs.rs 473-481). -/
structure QueueSpec (S I B : Type) where
  name : Option S := none
  fifo : Option B := none
  visibilityTimeout : Option I := none

/-- `CelerityApiCorsConfigurationWithSubs` (blueprint_with_subs.rs 148-161). -/
structure CorsConfig (S I B : Type) where
  allowCredentials : Option B := none
  allowOrigins : Option (List S) := none
  allowMethods : Option (List S) := none
  allowHeaders : Option (List S) := none
  exposeHeaders : Option (List S) := none
  maxAge : Option I := none

/-- `CelerityApiCorsWithSubs` (blueprint_with_subs.rs 142-145). -/
inductive Cors (S I B : Type) where
  | str (s : S)
  | config (c : CorsConfig S I B)

/-- `ValueSourceConfigurationWithSubs` (blueprint_with_subs.rs 222-225) and `CelerityApiBasePathConfigurationWithSubs` (blueprint_with_subs.rs 187-191): a protocol
and a string. -/
structure ProtocolAnd (S P : Type) where
  protocol : P
  value : S

/-- `CelerityApiBasePathWithSubs` (blueprint_with_subs.rs 181-184) and `CelerityApiAuthGuardValueSourceWithSubs` (blueprint_with_subs.rs 216-219): a string, or a
protocol and a string. -/
inductive StrOrConfig (S P : Type) where
  | str (s : S)
  | config (c : ProtocolAnd S P)

/-- `CelerityApiDomainWithSubs` (blueprint_with_subs.rs 164-177); `Sec` is the type of the security policy. -/
structure Domain (S B P Sec : Type) where
  domainName : S
  basePaths : List (StrOrConfig S P)
  normalizeBasePath : Option B := none
  certificateId : S
  securityPolicy : Option Sec := none

/-- `CelerityApiAuthGuardWithSubs` (blueprint_with_subs.rs 202-212); `G` is the guard type. -/
structure Guard (S P G : Type) where
  guardType : G
  issuer : Option S := none
  tokenSource : Option (StrOrConfig S P) := none
  audience : Option (List S) := none

/-- `CelerityApiAuthWithSubs` (blueprint_with_subs.rs 194-199). -/
structure Auth (S P G : Type) where
  defaultGuard : Option S := none
  guards : List (Str × Guard S P G)

/-- `CelerityApiSpecWithSubs` (blueprint_with_subs.rs 127-138). -/
structure ApiSpec (S I B P Sec G : Type) where
  protocols : List P
  cors : Option (Cors S I B) := none
  domain : Option (Domain S B P Sec) := none
  auth : Option (Auth S P G) := none
  tracingEnabled : Option B := none

/-- `CelerityWorkflowConditionWithSubs` (blueprint_with_subs.rs 384-387). -/
structure Cond (S N : Type) where
  inputs : List N
  function : S

/-- `CelerityWorkflowDecisionRuleWithSubs` (blueprint_with_subs.rs 371-381). -/
structure Rule (S N : Type) where
  and : Option (List (Cond S N)) := none
  or : Option (List (Cond S N)) := none
  not : Option (Cond S N) := none
  condition : Option (Cond S N) := none
  next : S

/-- `CelerityWorkflowWaitConfigWithSubs` (blueprint_with_subs.rs 390-395). -/
structure WaitConfig (S : Type) where
  seconds : Option S := none
  timestamp : Option S := none

/-- `CelerityWorkflowFailureConfigWithSubs` (blueprint_with_subs.rs 398-403). -/
structure FailureConfig (S : Type) where
  error : Option S := none
  cause : Option S := none

/-- `CelerityWorkflowRetryConfigWithSubs` (blueprint_with_subs.rs 413-429). -/
structure Retry (S I B R : Type) where
  matchErrors : List S
  interval : Option I := none
  maxAttempts : Option I := none
  maxDelay : Option I := none
  jitter : Option B := none
  backoffRate : Option R := none

/-- `CelerityWorkflowCatchConfigWithSubs` (blueprint_with_subs.rs 432-439). -/
structure Catch (S : Type) where
  matchErrors : List S
  next : S
  resultPath : Option S := none

/-- The fields of `CelerityWorkflowStateWithSubs` (blueprint_with_subs.rs 328-368) other than `parallelBranches`; `T` is the type
of the state type. -/
structure StateFields (S I B R N T : Type) where
  stateType : T
  description : Option S := none
  inputPath : Option S := none
  resultPath : Option S := none
  outputPath : Option S := none
  payloadTemplate : Option (List (Str × N)) := none
  next : Option S := none
  end_ : Option B := none
  decisions : Option (List (Rule S N)) := none
  result : Option N := none
  timeout : Option I := none
  waitConfig : Option (WaitConfig S) := none
  failureConfig : Option (FailureConfig S) := none
  retry : Option (List (Retry S I B R)) := none
  catch_ : Option (List (Catch S)) := none

/-- `CelerityWorkflowStateWithSubs` (blueprint_with_subs.rs 328-368); a parallel branch (`CelerityWorkflowParallelBranchWithSubs` (blueprint_with_subs.rs 406-410))
is the name of its first state with its states. -/
inductive WState (S I B R N T : Type) where
  | mk (fields : StateFields S I B R N T)
      (branches : Option (List (S × List (Str × WState S I B R N T))))

/-- `CelerityWorkflowSpecWithSubs` (blueprint_with_subs.rs 321-325). -/
structure WorkflowSpec (S I B R N T : Type) where
  startAt : S
  states : List (Str × WState S I B R N T)

/-- `CelerityResourceSpecWithSubs` (blueprint_with_subs.rs 89-101) without `NoSpec`, which is `none` in `Resource`. -/
inductive RSpec (S I B R N P Sec G E T : Type) where
  | handler (s : HandlerSpec S I B)
  | api (s : ApiSpec S I B P Sec G)
  | consumer (s : ConsumerSpec S I B E)
  | schedule (s : S)
  | handlerConfig (s : Shared S I B)
  | workflow (s : WorkflowSpec S I B R N T)
  | config (s : ConfigSpec S)
  | bucket (name : Option S)
  | topic (s : TopicSpec S B)
  | queue (s : QueueSpec S I B)

/-- `BlueprintResourceMetadataWithSubs` (blueprint_with_subs.rs 52-59); `A` is the type of annotation values. -/
structure Meta (S A : Type) where
  displayName : S
  annotations : Option (List (Str × A)) := none
  labels : Option (List (Str × Str)) := none

/-- `RuntimeBlueprintResourceWithSubs` (blueprint_with_subs.rs 30-37). -/
structure Resource (S I B R N P Sec G E T A : Type) where
  type : RType
  metadata : Meta S A
  linkSelector : Option (List (Str × Str)) := none
  description : Option Str := none
  spec : Option (RSpec S I B R N P Sec G E T) := none

/-- `BlueprintVariable` (blueprint.rs 71-83). -/
structure Variable (F : Type) where
  type : Str := []
  allowedValues : Option (List (Scalar F)) := none
  default : Option (Scalar F) := none
  secret : Option Bool := none
  description : Option Str := none

/-- `BlueprintConfigWithSubs` (blueprint_with_subs.rs 13-27) / `BlueprintConfig` (blueprint.rs 42-51); the metadata is the optional
`sharedHandlerConfig` it holds. -/
structure Config (F S I B R N P Sec G E T A : Type) where
  version : Str := []
  transform : Option (List Str) := none
  variables : Option (List (Str × Variable F)) := none
  resources : List (Str × Resource S I B R N P Sec G E T A) := []
  metadata : Option (Option (Shared S I B)) := none

/-! ## The two instances -/

/-- A specification as read. -/
abbrev RawSpec (F : Type) := RSpec Sos (Node F) (Node F) (Node F) (Node F) (Node F) Sos Sos Sos Sos
/-- A resource as read. -/
abbrev RawResource (F : Type) :=
  Resource Sos (Node F) (Node F) (Node F) (Node F) (Node F) Sos Sos Sos Sos (Node F)
/-- A blueprint as read, `BlueprintConfigWithSubs` (blueprint_with_subs.rs 13-27). -/
abbrev RawConfig (F : Type) :=
  Config F Sos (Node F) (Node F) (Node F) (Node F) (Node F) Sos Sos Sos Sos (Node F)
/-- A workflow state as read. -/
abbrev RawState (F : Type) := WState Sos (Node F) (Node F) (Node F) (Node F) Sos
/-- The fields of a workflow state as read. -/
abbrev RawFields (F : Type) := StateFields Sos (Node F) (Node F) (Node F) (Node F) Sos

/-- `enum WebSocketAuthStrategy` (blueprint.rs 359-364). -/
inductive WsAuth where
  | authMessage | connect
  deriving Repr, DecidableEq

/-- `enum CelerityApiProtocol` (blueprint.rs 336-343). -/
inductive Protocol where
  | http
  | websocket
  | websocketConfig (routeKey : Option Str) (auth : Option WsAuth)
  deriving Repr, DecidableEq

/-- `enum CelerityApiDomainSecurityPolicy` (blueprint.rs 440-445). -/
inductive SecPolicy where
  | tls10 | tls12
  deriving Repr, DecidableEq

/-- `enum CelerityApiAuthGuardType` (blueprint.rs 485-492). -/
inductive GuardType where
  | jwt | custom
  deriving Repr, DecidableEq

/-- `enum ObjectStorageEventType` (blueprint.rs 588-595). -/
inductive ObjEvent where
  | created | deleted | metadataUpdated
  deriving Repr, DecidableEq

/-- `enum CelerityWorkflowStateType` (blueprint.rs 945-974). -/
inductive StateType where
  | executeStep | pass | parallel | wait | decision | failure | success | unknown
  deriving Repr, DecidableEq

/-- A specification after resolution, `CelerityResourceSpec` (blueprint.rs 222-234). -/
abbrev ResSpec (F : Type) :=
  RSpec Str Int Bool F (RNode F) Protocol SecPolicy GuardType ObjEvent StateType
/-- A resource after resolution, `RuntimeBlueprintResource` (blueprint.rs 130-140). -/
abbrev ResResource (F : Type) :=
  Resource Str Int Bool F (RNode F) Protocol SecPolicy GuardType ObjEvent StateType (Scalar F)
/-- A blueprint after resolution, `BlueprintConfig` (blueprint.rs 42-51). -/
abbrev ResConfig (F : Type) :=
  Config F Str Int Bool F (RNode F) Protocol SecPolicy GuardType ObjEvent StateType (Scalar F)
/-- A workflow state after resolution. -/
abbrev ResState (F : Type) := WState Str Int Bool F (RNode F) StateType

end Verif.Blueprint
