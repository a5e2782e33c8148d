import Verif.Blueprint.Rel

/-!
# What a blueprint document says

A blueprint as an author writes it (`Source.Blueprint`), the document it is written as (`write`), and
what it means in an environment (`BlueprintM`). A source has the same structs as a configuration,
with other leaves: a string is a template, a number or a boolean is a literal or one
`${variables.name}`, a free-form value is a tree of literals and templates.

The meaning is stated field by field, and says nothing about how documents are read. Where the two
formats differ, the meaning says so: `f` is the format.
-/

namespace Verif.Blueprint.Source

open Verif Verif.Subst Verif.Subst.Spec

/-- The two formats. -/
inductive Format where
  | json | yaml
  deriving DecidableEq

variable {F : Type}

/-! ## Leaves -/

/-- A text with `${..}` references. -/
abbrev Text (cls : CharClass) := { t : List Tmpl // WF cls t }

/-- The text starts with a quotation mark, after blanks. -/
def Quoted (s : Str) : Prop :=
  ∃ b r, s = b ++ '"' :: r ∧ ∀ c ∈ b, c = ' ' ∨ c = '\t' ∨ c = '\n' ∨ c = '\r'

/-- A text in a free-form value, which must not look like a JSON literal (there the JSON loader
would look for a second JSON document inside the text). -/
abbrev FreeText (cls : CharClass) := { t : List Tmpl // WF cls t ∧ ¬ Quoted (render t) }

/-- A 64-bit signed integer. -/
abbrev I64 := { n : Int // -(2 ^ 63) ≤ n ∧ n < 2 ^ 63 }

/-- The name of a variable that can be written after a dot. -/
abbrev VarName (cls : CharClass) := { n : Str // DotName cls n }

/-- A literal, or `${variables.name}`. -/
inductive Val (cls : CharClass) (A : Type) where
  | lit (a : A)
  | ref (n : VarName cls)

/-- A value in a free-form tree. -/
inductive Leaf (cls : CharClass) (F : Type) where
  | bool (b : Bool)
  | int (n : I64)
  | float (x : F)
  | text (t : FreeText cls)

/-- A free-form tree. -/
inductive Tree (cls : CharClass) (F : Type) where
  | leaf (s : Leaf cls F)
  | list (l : List (Tree cls F))
  | map (m : List (Str × Tree cls F))

/-- The protocol of an API. -/
inductive Proto (cls : CharClass) where
  | http
  | websocket
  | config (routeKey auth : Option (FreeText cls))

/-- The blueprint as written. -/
abbrev Blueprint (cls : CharClass) (F : Type) :=
  Config F (Text cls) (Val cls I64) (Val cls Bool) (Val cls F) (Tree cls F) (Proto cls) (Text cls)
    (Text cls) (Text cls) (Text cls) (Leaf cls F)
/-- A resource as written. -/
abbrev SResource (cls : CharClass) (F : Type) :=
  Resource (Text cls) (Val cls I64) (Val cls Bool) (Val cls F) (Tree cls F) (Proto cls) (Text cls)
    (Text cls) (Text cls) (Text cls) (Leaf cls F)
/-- A specification as written. -/
abbrev SSpec (cls : CharClass) (F : Type) :=
  RSpec (Text cls) (Val cls I64) (Val cls Bool) (Val cls F) (Tree cls F) (Proto cls) (Text cls)
    (Text cls) (Text cls) (Text cls)
/-- A workflow state as written. -/
abbrev SState (cls : CharClass) (F : Type) :=
  WState (Text cls) (Val cls I64) (Val cls Bool) (Val cls F) (Tree cls F) (Text cls)
/-- The fields of a workflow state as written. -/
abbrev SFields (cls : CharClass) (F : Type) :=
  StateFields (Text cls) (Val cls I64) (Val cls Bool) (Val cls F) (Tree cls F) (Text cls)

variable {cls : CharClass}

/-! ## The document -/

/-- A field that is written when it is there. -/
def opt (k : String) (o : Option (Doc F)) : List (Str × Doc F) :=
  match o with
  | none => []
  | some v => [(k.toList, v)]

/-- A field that is always written. -/
def req (k : String) (v : Doc F) : List (Str × Doc F) := [(k.toList, v)]

def wText (t : Text cls) : Doc F := .str (render t.1)
def wFree (t : FreeText cls) : Doc F := .str (render t.1)
def wVal {A : Type} (w : A → Doc F) : Val cls A → Doc F
  | .lit a => w a
  | .ref n => .str (render [.dot n.1])
def wInt : Val cls I64 → Doc F := wVal fun n => .int n.1
def wBool : Val cls Bool → Doc F := wVal .bool
def wFloat : Val cls F → Doc F := wVal .float
def wList {A : Type} (w : A → Doc F) (l : List A) : Doc F := .arr (l.map w)
def wMap {A : Type} (w : A → Doc F) (m : List (Str × A)) : Doc F :=
  .obj (m.map fun e => (e.1, w e.2))

def wLeaf : Leaf cls F → Doc F
  | .bool b => .bool b
  | .int n => .int n.1
  | .float x => .float x
  | .text t => wFree t

mutual
def wTree : Tree cls F → Doc F
  | .leaf s => wLeaf s
  | .list l => .arr (wTrees l)
  | .map m => .obj (wEntries m)
def wTrees : List (Tree cls F) → List (Doc F)
  | [] => []
  | n :: l => wTree n :: wTrees l
def wEntries : List (Str × Tree cls F) → List (Str × Doc F)
  | [] => []
  | e :: m => wEntry e :: wEntries m
def wEntry : Str × Tree cls F → Str × Doc F
  | (k, n) => (k, wTree n)
end

def wProto : Proto cls → Doc F
  | .http => .str "http".toList
  | .websocket => .str "websocket".toList
  | .config routeKey auth =>
    .obj (req "websocketConfig"
      (.obj (opt "routeKey" (routeKey.map wFree) ++ opt "authStrategy" (auth.map wFree))))

def wShared (x : Shared (Text cls) (Val cls I64) (Val cls Bool)) : Doc F :=
  .obj (opt "codeLocation" (x.codeLocation.map wText) ++
    (opt "runtime" (x.runtime.map wText) ++
    (opt "memory" (x.memory.map wInt) ++
    (opt "timeout" (x.timeout.map wInt) ++
    (opt "tracingEnabled" (x.tracingEnabled.map wBool) ++
    (opt "environmentVariables" (x.environmentVariables.map (wMap wText)) ++ []))))))

def wHandler (x : HandlerSpec (Text cls) (Val cls I64) (Val cls Bool)) : Doc F :=
  .obj (opt "handlerName" (x.handlerName.map wText) ++
    (opt "codeLocation" (x.codeLocation.map wText) ++
    (req "handler" (wText x.handler) ++
    (opt "runtime" (x.runtime.map wText) ++
    (opt "memory" (x.memory.map wInt) ++
    (opt "timeout" (x.timeout.map wInt) ++
    (opt "tracingEnabled" (x.tracingEnabled.map wBool) ++
    (opt "environmentVariables" (x.environmentVariables.map (wMap wText)) ++ []))))))))

def wSchedule (x : Text cls) : Doc F := .obj (req "schedule" (wText x) ++ [])

/-- The names of the event source types. -/
def evTypeName : EvType → Str
  | .objectStorage => "objectStorage".toList
  | .dbStream => "dbStream".toList
  | .dataStream => "dataStream".toList

def wStream (key : String) (x : Stream (Text cls) (Val cls I64) (Val cls Bool)) : Doc F :=
  .obj (req key (wText x.streamId) ++
    (opt "batchSize" (x.batchSize.map wInt) ++
    (opt "partialFailures" (x.partialFailures.map wBool) ++
    (opt "startFromBeginning" (x.startFromBeginning.map wBool) ++ []))))

def wEvConfig : EvConfig (Text cls) (Val cls I64) (Val cls Bool) (Text cls) → Doc F
  | .objectStorage bucket events =>
    .obj (req "bucket" (wText bucket) ++ (req "events" (wList wText events) ++ []))
  | .dbStream c => wStream "dbStreamId" c
  | .dataStream c => wStream "dataStreamId" c

def wEvent (x : ExternalEvent (Text cls) (Val cls I64) (Val cls Bool) (Text cls)) : Doc F :=
  .obj (req "sourceType" (.str (evTypeName x.sourceType)) ++
    (req "sourceConfiguration" (wEvConfig x.config) ++ []))

def wConsumer (x : ConsumerSpec (Text cls) (Val cls I64) (Val cls Bool) (Text cls)) : Doc F :=
  .obj (opt "sourceId" (x.sourceId.map wText) ++
    (opt "batchSize" (x.batchSize.map wInt) ++
    (opt "visibilityTimeout" (x.visibilityTimeout.map wInt) ++
    (opt "waitTimeSeconds" (x.waitTimeSeconds.map wInt) ++
    (opt "partialFailures" (x.partialFailures.map wBool) ++
    (opt "routingKey" (x.routingKey.map wText) ++
    (opt "externalEvents" (x.externalEvents.map (wMap wEvent)) ++ [])))))))

def wCorsConfig (x : CorsConfig (Text cls) (Val cls I64) (Val cls Bool)) : Doc F :=
  .obj (opt "allowCredentials" (x.allowCredentials.map wBool) ++
    (opt "allowOrigins" (x.allowOrigins.map (wList wText)) ++
    (opt "allowMethods" (x.allowMethods.map (wList wText)) ++
    (opt "allowHeaders" (x.allowHeaders.map (wList wText)) ++
    (opt "exposeHeaders" (x.exposeHeaders.map (wList wText)) ++
    (opt "maxAge" (x.maxAge.map wInt) ++ []))))))

def wCors : Cors (Text cls) (Val cls I64) (Val cls Bool) → Doc F
  | .str s => wText s
  | .config c => wCorsConfig c

def wProtocolAnd (key : String) (x : ProtocolAnd (Text cls) (Proto cls)) : Doc F :=
  .obj (req "protocol" (wProto x.protocol) ++ (req key (wText x.value) ++ []))

def wStrOrConfig (key : String) : StrOrConfig (Text cls) (Proto cls) → Doc F
  | .str s => wText s
  | .config c => wProtocolAnd key c

def wDomain (x : Domain (Text cls) (Val cls Bool) (Proto cls) (Text cls)) : Doc F :=
  .obj (req "domainName" (wText x.domainName) ++
    (req "basePaths" (wList (wStrOrConfig "basePath") x.basePaths) ++
    (opt "normalizeBasePath" (x.normalizeBasePath.map wBool) ++
    (req "certificateId" (wText x.certificateId) ++
    (opt "securityPolicy" (x.securityPolicy.map wText) ++ [])))))

def wGuard (x : Guard (Text cls) (Proto cls) (Text cls)) : Doc F :=
  .obj (req "type" (wText x.guardType) ++
    (opt "issuer" (x.issuer.map wText) ++
    (opt "tokenSource" (x.tokenSource.map (wStrOrConfig "source")) ++
    (opt "audience" (x.audience.map (wList wText)) ++ []))))

def wAuth (x : Auth (Text cls) (Proto cls) (Text cls)) : Doc F :=
  .obj (opt "defaultGuard" (x.defaultGuard.map wText) ++
    (req "guards" (wMap wGuard x.guards) ++ []))

def wApi (x : ApiSpec (Text cls) (Val cls I64) (Val cls Bool) (Proto cls) (Text cls) (Text cls)) :
    Doc F :=
  .obj (req "protocols" (wList wProto x.protocols) ++
    (opt "cors" (x.cors.map wCors) ++
    (opt "domain" (x.domain.map wDomain) ++
    (opt "auth" (x.auth.map wAuth) ++
    (opt "tracingEnabled" (x.tracingEnabled.map wBool) ++ [])))))

def wCond (x : Cond (Text cls) (Tree cls F)) : Doc F :=
  .obj (req "inputs" (.arr (wTrees x.inputs)) ++ (req "function" (wText x.function) ++ []))

def wRule (x : Rule (Text cls) (Tree cls F)) : Doc F :=
  .obj (opt "and" (x.and.map (wList wCond)) ++
    (opt "or" (x.or.map (wList wCond)) ++
    (opt "not" (x.not.map wCond) ++
    (opt "condition" (x.condition.map wCond) ++
    (req "next" (wText x.next) ++ [])))))

def wWait (x : WaitConfig (Text cls)) : Doc F :=
  .obj (opt "seconds" (x.seconds.map wText) ++ (opt "timestamp" (x.timestamp.map wText) ++ []))

def wFailure (x : FailureConfig (Text cls)) : Doc F :=
  .obj (opt "error" (x.error.map wText) ++ (opt "cause" (x.cause.map wText) ++ []))

def wRetry (x : Retry (Text cls) (Val cls I64) (Val cls Bool) (Val cls F)) : Doc F :=
  .obj (req "matchErrors" (wList wText x.matchErrors) ++
    (opt "interval" (x.interval.map wInt) ++
    (opt "maxAttempts" (x.maxAttempts.map wInt) ++
    (opt "maxDelay" (x.maxDelay.map wInt) ++
    (opt "jitter" (x.jitter.map wBool) ++
    (opt "backoffRate" (x.backoffRate.map wFloat) ++ []))))))

def wCatch (x : Catch (Text cls)) : Doc F :=
  .obj (req "matchErrors" (wList wText x.matchErrors) ++
    (req "next" (wText x.next) ++
    (opt "resultPath" (x.resultPath.map wText) ++ [])))

/-- The fields of a state; the parallel branches are written after them. -/
def wFields (x : SFields cls F) (branches : List (Str × Doc F)) : List (Str × Doc F) :=
  req "type" (wText x.stateType) ++
    (opt "description" (x.description.map wText) ++
    (opt "inputPath" (x.inputPath.map wText) ++
    (opt "resultPath" (x.resultPath.map wText) ++
    (opt "outputPath" (x.outputPath.map wText) ++
    (opt "payloadTemplate" (x.payloadTemplate.map fun m => .obj (wEntries m)) ++
    (opt "next" (x.next.map wText) ++
    (opt "end" (x.end_.map wBool) ++
    (opt "decisions" (x.decisions.map (wList wRule)) ++
    (opt "result" (x.result.map wTree) ++
    (opt "timeout" (x.timeout.map wInt) ++
    (opt "waitConfig" (x.waitConfig.map wWait) ++
    (opt "failureConfig" (x.failureConfig.map wFailure) ++
    (opt "retry" (x.retry.map (wList wRetry)) ++
    (opt "catch" (x.catch_.map (wList wCatch)) ++ branches))))))))))))))

mutual
def wState : SState cls F → Doc F
  | .mk f b => .obj (wFields f (wBranches b))
def wBranches : Option (List (Text cls × List (Str × SState cls F))) → List (Str × Doc F)
  | none => []
  | some l => req "parallelBranches" (.arr (wBranchList l))
def wBranchList : List (Text cls × List (Str × SState cls F)) → List (Doc F)
  | [] => []
  | b :: l => wBranch b :: wBranchList l
def wBranch : Text cls × List (Str × SState cls F) → Doc F
  | (s, m) => .obj (req "startAt" (wText s) ++ (req "states" (.obj (wStates m)) ++ []))
def wStates : List (Str × SState cls F) → List (Str × Doc F)
  | [] => []
  | e :: m => wStateEntry e :: wStates m
def wStateEntry : Str × SState cls F → Str × Doc F
  | (k, s) => (k, wState s)
end

def wWorkflow (x : WorkflowSpec (Text cls) (Val cls I64) (Val cls Bool) (Val cls F) (Tree cls F)
    (Text cls)) : Doc F := wBranch (x.startAt, x.states)

def wConfigSpec (x : ConfigSpec (Text cls)) : Doc F :=
  .obj (opt "name" (x.name.map wText) ++
    (opt "plaintext" (x.plaintext.map (wList wText)) ++ []))

def wBucket (x : Option (Text cls)) : Doc F := .obj (opt "name" (x.map wText) ++ [])

def wTopic (x : TopicSpec (Text cls) (Val cls Bool)) : Doc F :=
  .obj (opt "name" (x.name.map wText) ++ (opt "fifo" (x.fifo.map wBool) ++ []))

def wQueue (x : QueueSpec (Text cls) (Val cls I64) (Val cls Bool)) : Doc F :=
  .obj (opt "name" (x.name.map wText) ++
    (opt "fifo" (x.fifo.map wBool) ++
    (opt "visibilityTimeout" (x.visibilityTimeout.map wInt) ++ [])))

def wSpec : SSpec cls F → Doc F
  | .handler s => wHandler s
  | .api s => wApi s
  | .consumer s => wConsumer s
  | .schedule s => wSchedule s
  | .handlerConfig s => wShared s
  | .workflow s => wWorkflow s
  | .config s => wConfigSpec s
  | .bucket s => wBucket s
  | .topic s => wTopic s
  | .queue s => wQueue s

def wMeta (x : Meta (Text cls) (Leaf cls F)) : Doc F :=
  .obj (req "displayName" (wText x.displayName) ++
    (opt "annotations" (x.annotations.map (wMap wLeaf)) ++
    (opt "labels" (x.labels.map (wMap .str)) ++ [])))

def wLinkSelector (x : List (Str × Str)) : Doc F := .obj (req "byLabel" (wMap .str x) ++ [])

/-- The name of the type of a resource. -/
def typeName : RType → Str
  | .handler => "celerity/handler".toList
  | .api => "celerity/api".toList
  | .consumer => "celerity/consumer".toList
  | .schedule => "celerity/schedule".toList
  | .handlerConfig => "celerity/handlerConfig".toList
  | .workflow => "celerity/workflow".toList
  | .config => "celerity/config".toList
  | .bucket => "celerity/bucket".toList
  | .topic => "celerity/topic".toList
  | .queue => "celerity/queue".toList

def wResource (x : SResource cls F) : Doc F :=
  .obj (req "type" (.str (typeName x.type)) ++
    (req "metadata" (wMeta x.metadata) ++
    (opt "linkSelector" (x.linkSelector.map wLinkSelector) ++
    (opt "description" (x.description.map .str) ++
    (opt "spec" (x.spec.map wSpec) ++ [])))))

def wScalar : Scalar F → Doc F
  | .str s => .str s
  | .int n => .int n
  | .float x => .float x
  | .bool b => .bool b

def wVariable (x : Variable F) : Doc F :=
  .obj (req "type" (.str x.type) ++
    (opt "allowedValues" (x.allowedValues.map (wList wScalar)) ++
    (opt "default" (x.default.map wScalar) ++
    (opt "secret" (x.secret.map .bool) ++
    (opt "description" (x.description.map .str) ++ [])))))

/-- One transform is written as a text, several as a list. -/
def wTransform : List Str → Doc F
  | [t] => .str t
  | ts => wList .str ts

def wMetadata (x : Option (Shared (Text cls) (Val cls I64) (Val cls Bool))) : Doc F :=
  .obj (opt "sharedHandlerConfig" (x.map wShared) ++ [])

/-- The document of a blueprint. -/
def write (x : Blueprint cls F) : Doc F :=
  .obj (req "version" (.str x.version) ++
    (opt "transform" (x.transform.map wTransform) ++
    (opt "variables" (x.variables.map (wMap wVariable)) ++
    (req "resources" (wMap wResource x.resources) ++
    (opt "metadata" (x.metadata.map wMetadata) ++ [])))))

/-- No mapping has a key twice. -/
inductive Distinct : Doc F → Prop
  | null : Distinct .null
  | bool (b : Bool) : Distinct (.bool b)
  | int (n : Int) : Distinct (.int n)
  | float (x : F) : Distinct (.float x)
  | str (s : Str) : Distinct (.str s)
  | arr (l : List (Doc F)) : (∀ v ∈ l, Distinct v) → Distinct (.arr l)
  | obj (m : List (Str × Doc F)) : (m.map (·.1)).Nodup → (∀ e ∈ m, Distinct e.2) →
      Distinct (.obj m)

/-! ## The meaning -/

section
variable (cx : Ctx F) (env : Env) (f : Format)

/-- A string is the expansion of its template. -/
def TextM (t : Text cls) (s : Str) : Prop := expand env t.1 = some s

/-- A literal is itself. A reference is the value of its variable, in YAML; in JSON it is not a
number or boolean (the JSON loader leaves it as it is). -/
def ValM {A B : Type} (L : A → B → Prop) (mk : B → Scalar F) : Val cls A → B → Prop
  | .lit a, b => L a b
  | .ref n, b => f = .yaml ∧ ∃ v, env (varEnvName n.1) = some v ∧ Typed cx.parseF v (mk b)

def IntM : Val cls I64 → Int → Prop := ValM cx env f (fun a b => b = a.1) .int
def BoolM : Val cls Bool → Bool → Prop := ValM cx env f (fun a b => b = a) .bool
def FloatM : Val cls F → F → Prop := ValM cx env f (fun a b => b = a) .float

/-- A text in a free-form value: expanded and typed in YAML, left as it is in JSON. -/
def FreeM (t : FreeText cls) (x : Scalar F) : Prop :=
  match f with
  | .json => x = .str (render t.1)
  | .yaml => ScalarOf cx.parseF env (expected t.1) x

def LeafM : Leaf cls F → Scalar F → Prop
  | .bool b, x => x = .bool b
  | .int n, x => x = .int n.1
  | .float y, x => x = .float y
  | .text t, x => FreeM cx env f t x

mutual
/-- The same tree, with the meanings of its leaves. -/
inductive TreeM : Tree cls F → RNode F → Prop
  | leaf {s x} : LeafM cx env f s x → TreeM (.leaf s) (.scalar x)
  | list {l l'} : TreesM l l' → TreeM (.list l) (.sequence l')
  | map {m m'} : EntriesM m m' → TreeM (.map m) (.mapping m')
inductive TreesM : List (Tree cls F) → List (RNode F) → Prop
  | nil : TreesM [] []
  | cons {n r l l'} : TreeM n r → TreesM l l' → TreesM (n :: l) (r :: l')
inductive EntriesM : List (Str × Tree cls F) → List (Str × RNode F) → Prop
  | nil : EntriesM [] []
  | cons {k n r m m'} : TreeM n r → EntriesM m m' → EntriesM ((k, n) :: m) ((k, r) :: m')
end

end

mutual
/-- How deep a tree is nested. -/
def depth : Tree cls F → Nat
  | .leaf _ => 0
  | .list l => depths l
  | .map m => depthEntries m
def depths : List (Tree cls F) → Nat
  | [] => 0
  | n :: l => max (depth n + 1) (depths l)
def depthEntries : List (Str × Tree cls F) → Nat
  | [] => 0
  | e :: m => max (depthEntry e + 1) (depthEntries m)
def depthEntry : Str × Tree cls F → Nat
  | (_, n) => depth n
end

section
variable (cx : Ctx F) (env : Env) (f : Format)

/-- The names of the authentication strategies. -/
def wsAuthName : WsAuth → Str
  | .authMessage => "authMessage".toList
  | .connect => "connect".toList

def WsAuthM (t : FreeText cls) (a : WsAuth) : Prop :=
  match f with
  | .json => render t.1 = wsAuthName a
  | .yaml => expand env t.1 = some (wsAuthName a)

inductive ProtoM : Proto cls → Protocol → Prop
  | http : ProtoM .http .http
  | websocket : ProtoM .websocket .websocket
  | config {r a r' a'} : ORel (fun t s => FreeM cx env f t (.str s)) r r' → ORel (WsAuthM env f) a a' →
      ProtoM (.config r a) (.websocketConfig r' a')

structure SharedM (x : Shared (Text cls) (Val cls I64) (Val cls Bool)) (y : Shared Str Int Bool) :
    Prop where
  codeLocation : ORel (TextM env) x.codeLocation y.codeLocation
  runtime : ORel (TextM env) x.runtime y.runtime
  memory : ORel (IntM cx env f) x.memory y.memory
  timeout : ORel (IntM cx env f) x.timeout y.timeout
  tracingEnabled : ORel (BoolM cx env f) x.tracingEnabled y.tracingEnabled
  environmentVariables : ORel (MRel (TextM env)) x.environmentVariables y.environmentVariables

structure HandlerM (x : HandlerSpec (Text cls) (Val cls I64) (Val cls Bool))
    (y : HandlerSpec Str Int Bool) : Prop where
  handlerName : ORel (TextM env) x.handlerName y.handlerName
  codeLocation : ORel (TextM env) x.codeLocation y.codeLocation
  handler : TextM env x.handler y.handler
  runtime : ORel (TextM env) x.runtime y.runtime
  memory : ORel (IntM cx env f) x.memory y.memory
  timeout : ORel (IntM cx env f) x.timeout y.timeout
  tracingEnabled : ORel (BoolM cx env f) x.tracingEnabled y.tracingEnabled
  environmentVariables : ORel (MRel (TextM env)) x.environmentVariables y.environmentVariables

structure StreamM (x : Stream (Text cls) (Val cls I64) (Val cls Bool)) (y : Stream Str Int Bool) :
    Prop where
  batchSize : ORel (IntM cx env f) x.batchSize y.batchSize
  streamId : TextM env x.streamId y.streamId
  partialFailures : ORel (BoolM cx env f) x.partialFailures y.partialFailures
  startFromBeginning : ORel (BoolM cx env f) x.startFromBeginning y.startFromBeginning

def objEventName : ObjEvent → Str
  | .created => "created".toList
  | .deleted => "deleted".toList
  | .metadataUpdated => "metadataUpdated".toList

def ObjEventM (t : Text cls) (e : ObjEvent) : Prop := expand env t.1 = some (objEventName e)

inductive EvConfigM : EvConfig (Text cls) (Val cls I64) (Val cls Bool) (Text cls) →
    EvConfig Str Int Bool ObjEvent → Prop
  | objectStorage {b b' e e'} : TextM env b b' → LRel (ObjEventM env) e e' →
      EvConfigM (.objectStorage b e) (.objectStorage b' e')
  | dbStream {c c'} : StreamM cx env f c c' → EvConfigM (.dbStream c) (.dbStream c')
  | dataStream {c c'} : StreamM cx env f c c' → EvConfigM (.dataStream c) (.dataStream c')

/-- The configuration is one for the source type. -/
def Fitting {S I B E : Type} : EvType → EvConfig S I B E → Prop
  | .objectStorage, .objectStorage _ _ => True
  | .dbStream, .dbStream _ => True
  | .dataStream, .dataStream _ => True
  | _, _ => False

/-- YAML wants the configuration to be one for the source type. -/
structure EventM (x : ExternalEvent (Text cls) (Val cls I64) (Val cls Bool) (Text cls))
    (y : ExternalEvent Str Int Bool ObjEvent) : Prop where
  sourceType : y.sourceType = x.sourceType
  config : EvConfigM cx env f x.config y.config
  fitting : f = .yaml → Fitting x.sourceType x.config

structure ConsumerM (x : ConsumerSpec (Text cls) (Val cls I64) (Val cls Bool) (Text cls))
    (y : ConsumerSpec Str Int Bool ObjEvent) : Prop where
  sourceId : ORel (TextM env) x.sourceId y.sourceId
  batchSize : ORel (IntM cx env f) x.batchSize y.batchSize
  visibilityTimeout : ORel (IntM cx env f) x.visibilityTimeout y.visibilityTimeout
  waitTimeSeconds : ORel (IntM cx env f) x.waitTimeSeconds y.waitTimeSeconds
  partialFailures : ORel (BoolM cx env f) x.partialFailures y.partialFailures
  routingKey : ORel (TextM env) x.routingKey y.routingKey
  externalEvents : ORel (MRel (EventM cx env f)) x.externalEvents y.externalEvents

structure CorsConfigM (x : CorsConfig (Text cls) (Val cls I64) (Val cls Bool))
    (y : CorsConfig Str Int Bool) : Prop where
  allowCredentials : ORel (BoolM cx env f) x.allowCredentials y.allowCredentials
  allowOrigins : ORel (LRel (TextM env)) x.allowOrigins y.allowOrigins
  allowMethods : ORel (LRel (TextM env)) x.allowMethods y.allowMethods
  allowHeaders : ORel (LRel (TextM env)) x.allowHeaders y.allowHeaders
  exposeHeaders : ORel (LRel (TextM env)) x.exposeHeaders y.exposeHeaders
  maxAge : ORel (IntM cx env f) x.maxAge y.maxAge

inductive CorsM : Cors (Text cls) (Val cls I64) (Val cls Bool) → Cors Str Int Bool → Prop
  | str {s s'} : TextM env s s' → CorsM (.str s) (.str s')
  | config {c c'} : CorsConfigM cx env f c c' → CorsM (.config c) (.config c')

/-- YAML wants the name of a protocol here. -/
structure ProtocolAndM (x : ProtocolAnd (Text cls) (Proto cls)) (y : ProtocolAnd Str Protocol) :
    Prop where
  protocol : ProtoM cx env f x.protocol y.protocol
  value : TextM env x.value y.value
  named : f = .yaml → x.protocol = .http ∨ x.protocol = .websocket

inductive StrOrConfigM : StrOrConfig (Text cls) (Proto cls) → StrOrConfig Str Protocol → Prop
  | str {s s'} : TextM env s s' → StrOrConfigM (.str s) (.str s')
  | config {c c'} : ProtocolAndM cx env f c c' → StrOrConfigM (.config c) (.config c')

def secPolicyName : SecPolicy → Str
  | .tls10 => "TLS_1_0".toList
  | .tls12 => "TLS_1_2".toList

def SecPolicyM (t : Text cls) (s : SecPolicy) : Prop := expand env t.1 = some (secPolicyName s)

/-- The text is not empty. -/
def Filled (t : Text cls) : Prop := render t.1 ≠ []

/-- YAML wants the required fields not to be empty. -/
structure DomainM (x : Domain (Text cls) (Val cls Bool) (Proto cls) (Text cls))
    (y : Domain Str Bool Protocol SecPolicy) : Prop where
  domainName : TextM env x.domainName y.domainName
  basePaths : LRel (StrOrConfigM cx env f) x.basePaths y.basePaths
  normalizeBasePath : ORel (BoolM cx env f) x.normalizeBasePath y.normalizeBasePath
  certificateId : TextM env x.certificateId y.certificateId
  securityPolicy : ORel (SecPolicyM env) x.securityPolicy y.securityPolicy
  filled : f = .yaml → Filled x.domainName ∧ x.basePaths ≠ [] ∧ Filled x.certificateId

def guardTypeName : GuardType → Str
  | .jwt => "jwt".toList
  | .custom => "custom".toList

/-- YAML does not want a reference here. -/
def GuardTypeM (t : Text cls) (g : GuardType) : Prop :=
  match f with
  | .json => expand env t.1 = some (guardTypeName g)
  | .yaml => render t.1 = guardTypeName g

structure GuardM (x : Guard (Text cls) (Proto cls) (Text cls)) (y : Guard Str Protocol GuardType) :
    Prop where
  guardType : GuardTypeM env f x.guardType y.guardType
  issuer : ORel (TextM env) x.issuer y.issuer
  tokenSource : ORel (StrOrConfigM cx env f) x.tokenSource y.tokenSource
  audience : ORel (LRel (TextM env)) x.audience y.audience

structure AuthM (x : Auth (Text cls) (Proto cls) (Text cls)) (y : Auth Str Protocol GuardType) :
    Prop where
  defaultGuard : ORel (TextM env) x.defaultGuard y.defaultGuard
  guards : MRel (GuardM cx env f) x.guards y.guards

/-- YAML wants at least one protocol. -/
structure ApiM (x : ApiSpec (Text cls) (Val cls I64) (Val cls Bool) (Proto cls) (Text cls) (Text cls))
    (y : ApiSpec Str Int Bool Protocol SecPolicy GuardType) : Prop where
  protocols : LRel (ProtoM cx env f) x.protocols y.protocols
  cors : ORel (CorsM cx env f) x.cors y.cors
  domain : ORel (DomainM cx env f) x.domain y.domain
  auth : ORel (AuthM cx env f) x.auth y.auth
  tracingEnabled : ORel (BoolM cx env f) x.tracingEnabled y.tracingEnabled
  filled : f = .yaml → x.protocols ≠ []

/-- Values nested more than 20 deep are refused; the inputs of a condition start at depth 4. -/
structure CondM (x : Cond (Text cls) (Tree cls F)) (y : Cond Str (RNode F)) : Prop where
  inputs : LRel (fun n r => TreeM cx env f n r ∧ 4 + depth n ≤ 20) x.inputs y.inputs
  function : TextM env x.function y.function

structure RuleM (x : Rule (Text cls) (Tree cls F)) (y : Rule Str (RNode F)) : Prop where
  and : ORel (LRel (CondM cx env f)) x.and y.and
  or : ORel (LRel (CondM cx env f)) x.or y.or
  not : ORel (CondM cx env f) x.not y.not
  condition : ORel (CondM cx env f) x.condition y.condition
  next : TextM env x.next y.next
  filled : f = .yaml → Filled x.next

structure WaitM (x : WaitConfig (Text cls)) (y : WaitConfig Str) : Prop where
  seconds : ORel (TextM env) x.seconds y.seconds
  timestamp : ORel (TextM env) x.timestamp y.timestamp

structure FailureM (x : FailureConfig (Text cls)) (y : FailureConfig Str) : Prop where
  error : ORel (TextM env) x.error y.error
  cause : ORel (TextM env) x.cause y.cause

structure RetryM (x : Retry (Text cls) (Val cls I64) (Val cls Bool) (Val cls F))
    (y : Retry Str Int Bool F) : Prop where
  matchErrors : LRel (TextM env) x.matchErrors y.matchErrors
  interval : ORel (IntM cx env f) x.interval y.interval
  maxAttempts : ORel (IntM cx env f) x.maxAttempts y.maxAttempts
  maxDelay : ORel (IntM cx env f) x.maxDelay y.maxDelay
  jitter : ORel (BoolM cx env f) x.jitter y.jitter
  backoffRate : ORel (FloatM cx env f) x.backoffRate y.backoffRate

structure CatchM (x : Catch (Text cls)) (y : Catch Str) : Prop where
  matchErrors : LRel (TextM env) x.matchErrors y.matchErrors
  next : TextM env x.next y.next
  resultPath : ORel (TextM env) x.resultPath y.resultPath

/-- The names of the state types; the last is the result for any other name. -/
def stateTypeName : StateType → Option Str
  | .executeStep => some "executeStep".toList
  | .pass => some "pass".toList
  | .parallel => some "parallel".toList
  | .wait => some "wait".toList
  | .decision => some "decision".toList
  | .failure => some "failure".toList
  | .success => some "success".toList
  | .unknown => none

def StateTypeM (t : Text cls) (s : StateType) : Prop :=
  ∃ n, expand env t.1 = some n ∧
    match stateTypeName s with
    | some m => n = m
    | none => ∀ s' m, stateTypeName s' = some m → n ≠ m

structure FieldsM (x : SFields cls F) (y : StateFields Str Int Bool F (RNode F) StateType) :
    Prop where
  stateType : StateTypeM env x.stateType y.stateType
  description : ORel (TextM env) x.description y.description
  inputPath : ORel (TextM env) x.inputPath y.inputPath
  resultPath : ORel (TextM env) x.resultPath y.resultPath
  outputPath : ORel (TextM env) x.outputPath y.outputPath
  payloadTemplate : ORel (fun m m' => EntriesM cx env f m m' ∧ depthEntries m ≤ 20)
    x.payloadTemplate y.payloadTemplate
  next : ORel (TextM env) x.next y.next
  end_ : ORel (BoolM cx env f) x.end_ y.end_
  decisions : ORel (LRel (RuleM cx env f)) x.decisions y.decisions
  result : ORel (fun n r => TreeM cx env f n r ∧ depth n ≤ 20) x.result y.result
  timeout : ORel (IntM cx env f) x.timeout y.timeout
  waitConfig : ORel (WaitM env) x.waitConfig y.waitConfig
  failureConfig : ORel (FailureM env) x.failureConfig y.failureConfig
  retry : ORel (LRel (RetryM cx env f)) x.retry y.retry
  catch_ : ORel (LRel (CatchM env)) x.catch_ y.catch_
  filled : f = .yaml → Filled x.stateType

mutual
inductive StateM : SState cls F → ResState F → Prop
  | mk {x y b b'} : FieldsM cx env f x y → BranchesM b b' → StateM (.mk x b) (.mk y b')
inductive BranchesM : Option (List (Text cls × List (Str × SState cls F))) →
    Option (List (Str × List (Str × ResState F))) → Prop
  | none : BranchesM none none
  | some {l l'} : BranchListM l l' → BranchesM (some l) (some l')
inductive BranchListM : List (Text cls × List (Str × SState cls F)) →
    List (Str × List (Str × ResState F)) → Prop
  | nil : BranchListM [] []
  | cons {s s' m m' l l'} : TextM env s s' → StatesM m m' → BranchListM l l' →
      BranchListM ((s, m) :: l) ((s', m') :: l')
inductive StatesM : List (Str × SState cls F) → List (Str × ResState F) → Prop
  | nil : StatesM [] []
  | cons {k s s' m m'} : StateM s s' → StatesM m m' → StatesM ((k, s) :: m) ((k, s') :: m')
end

structure WorkflowM
    (x : WorkflowSpec (Text cls) (Val cls I64) (Val cls Bool) (Val cls F) (Tree cls F) (Text cls))
    (y : WorkflowSpec Str Int Bool F (RNode F) StateType) : Prop where
  startAt : TextM env x.startAt y.startAt
  states : StatesM cx env f x.states y.states

structure ConfigSpecM (x : ConfigSpec (Text cls)) (y : ConfigSpec Str) : Prop where
  name : ORel (TextM env) x.name y.name
  plaintext : ORel (LRel (TextM env)) x.plaintext y.plaintext

structure TopicM (x : TopicSpec (Text cls) (Val cls Bool)) (y : TopicSpec Str Bool) : Prop where
  name : ORel (TextM env) x.name y.name
  fifo : ORel (BoolM cx env f) x.fifo y.fifo

structure QueueM (x : QueueSpec (Text cls) (Val cls I64) (Val cls Bool)) (y : QueueSpec Str Int Bool) :
    Prop where
  name : ORel (TextM env) x.name y.name
  fifo : ORel (BoolM cx env f) x.fifo y.fifo
  visibilityTimeout : ORel (IntM cx env f) x.visibilityTimeout y.visibilityTimeout

inductive SpecM : SSpec cls F → ResSpec F → Prop
  | handler {x y} : HandlerM cx env f x y → SpecM (.handler x) (.handler y)
  | api {x y} : ApiM cx env f x y → SpecM (.api x) (.api y)
  | consumer {x y} : ConsumerM cx env f x y → SpecM (.consumer x) (.consumer y)
  | schedule {x y} : TextM env x y → SpecM (.schedule x) (.schedule y)
  | handlerConfig {x y} : SharedM cx env f x y → SpecM (.handlerConfig x) (.handlerConfig y)
  | workflow {x y} : WorkflowM cx env f x y → SpecM (.workflow x) (.workflow y)
  | config {x y} : ConfigSpecM env x y → SpecM (.config x) (.config y)
  | bucket {x y} : ORel (TextM env) x y → SpecM (.bucket x) (.bucket y)
  | topic {x y} : TopicM cx env f x y → SpecM (.topic x) (.topic y)
  | queue {x y} : QueueM cx env f x y → SpecM (.queue x) (.queue y)

structure MetaM (x : Meta (Text cls) (Leaf cls F)) (y : Meta Str (Scalar F)) : Prop where
  displayName : TextM env x.displayName y.displayName
  annotations : ORel (MRel (LeafM cx env f)) x.annotations y.annotations
  labels : y.labels = x.labels
  filled : f = .yaml → Filled x.displayName

structure ResourceM (x : SResource cls F) (y : ResResource F) : Prop where
  type : y.type = x.type
  metadata : MetaM cx env f x.metadata y.metadata
  linkSelector : y.linkSelector = x.linkSelector
  description : y.description = x.description
  spec : ORel (SpecM cx env f) x.spec y.spec

/-- The resource types of the two formats. -/
def Supported (t : RType) : Prop :=
  match f with
  | .json => True
  | .yaml => t = .api ∨ t = .consumer ∨ t = .schedule ∨ t = .handler ∨ t = .handlerConfig ∨
      t = .workflow

/-- The resources in order, under their names, but for those of a type that YAML does not support,
and in JSON those without a specification. YAML wants a specification. -/
inductive ResourcesM : List (Str × SResource cls F) → List (Str × ResResource F) → Prop
  | nil : ResourcesM [] []
  | keep {k x y m m'} : Supported f x.type → x.spec ≠ none → ResourceM cx env f x y →
      ResourcesM m m' → ResourcesM ((k, x) :: m) ((k, y) :: m')
  | unsupported {k x m m'} : ¬ Supported f x.type → ResourcesM m m' → ResourcesM ((k, x) :: m) m'
  | noSpec {k x y m m'} : f = .json → x.spec = none → ResourceM cx env f x y →
      ResourcesM m m' → ResourcesM ((k, x) :: m) m'

/-- An integer literal that is not a 64-bit integer is the nearest float. -/
def ScalarM : Scalar F → Scalar F → Prop
  | .int n, y => y = if -(2 ^ 63) ≤ n ∧ n < 2 ^ 63 then .int n else .float (cx.ofInt n)
  | x, y => y = x

structure VariableM (x y : Variable F) : Prop where
  type : y.type = x.type
  allowedValues : ORel (LRel (ScalarM cx)) x.allowedValues y.allowedValues
  default : ORel (ScalarM cx) x.default y.default
  secret : y.secret = x.secret
  description : y.description = x.description
  filled : x.type ≠ []

/-- The transform is required in JSON; in YAML a list of transforms is ignored. -/
def TransformM (x y : Option (List Str)) : Prop :=
  match f with
  | .json => x ≠ none ∧ y = x
  | .yaml => y = match x with
    | some [t] => some [t]
    | _ => none

/-- Metadata without a shared handler configuration is no metadata in YAML. -/
def MetadataM (x : Option (Option (Shared (Text cls) (Val cls I64) (Val cls Bool))))
    (y : Option (Option (Shared Str Int Bool))) : Prop :=
  match f with
  | .json => ORel (ORel (SharedM cx env f)) x y
  | .yaml => match x with
    | some (some s) => ∃ s', SharedM cx env f s s' ∧ y = some (some s')
    | _ => y = none

/-- What a blueprint means. -/
structure BlueprintM (x : Blueprint cls F) (y : ResConfig F) : Prop where
  supported : x.version = "2025-05-12".toList
  version : y.version = x.version
  transform : TransformM f x.transform y.transform
  variables : ORel (MRel (VariableM cx)) x.variables y.variables
  resources : ResourcesM cx env f x.resources y.resources
  metadata : MetadataM cx env f x.metadata y.metadata
  filled : y.resources ≠ []

end

/-- The type that a specification is for. -/
def specType : SSpec cls F → RType
  | .handler _ => .handler
  | .api _ => .api
  | .consumer _ => .consumer
  | .schedule _ => .schedule
  | .handlerConfig _ => .handlerConfig
  | .workflow _ => .workflow
  | .config _ => .config
  | .bucket _ => .bucket
  | .topic _ => .topic
  | .queue _ => .queue

/-- Every specification is of the type of its resource, and no mapping has a key twice. -/
structure Good (x : Blueprint cls F) : Prop where
  types : ∀ e ∈ x.resources, ∀ s, e.2.spec = some s → specType s = e.2.type
  distinct : Distinct (write x)

end Verif.Blueprint.Source
