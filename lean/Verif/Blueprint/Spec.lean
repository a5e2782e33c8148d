import Verif.Blueprint.Types

/-!
# Specification: portable blueprints

A grammar of blueprint documents on which the JSON and YAML readers are meant to agree, written
down as shapes of documents. It does not refer to either reader.
-/

namespace Verif.Blueprint.Spec

open Verif Verif.Subst

variable {F : Type}

/-- A set of documents. -/
abbrev Shape (F : Type) := Doc F → Prop

/-- Any text. -/
def text : Shape F := fun d => ∃ s, d = .str s

/-- Any text but the empty one. -/
def someText : Shape F := fun d => ∃ s, s ≠ [] ∧ d = .str s

/-- One of the given texts. -/
def oneOf (names : List String) : Shape F := fun d => ∃ s ∈ names, d = .str s.toList

/-- True or false. -/
def boolean : Shape F := fun d => ∃ b, d = .bool b

/-- An integer of 64 bits. -/
def integer : Shape F := fun d => ∃ n : Int, -(2 ^ 63) ≤ n ∧ n < 2 ^ 63 ∧ d = .int n

/-- A number written with a decimal point or exponent. -/
def real : Shape F := fun d => ∃ x, d = .float x

/-- A sequence. -/
def listOf (a : Shape F) : Shape F := fun d => ∃ l, d = .arr l ∧ ∀ x ∈ l, a x

/-- A sequence that is not empty. -/
def someOf (a : Shape F) : Shape F := fun d => ∃ l, l ≠ [] ∧ d = .arr l ∧ ∀ x ∈ l, a x

/-- A mapping with values of one shape. -/
def mapOf (a : Shape F) : Shape F := fun d => ∃ m, d = .obj m ∧ ∀ e ∈ m, a e.2

/-- One or the other. -/
def either (a b : Shape F) : Shape F := fun d => a d ∨ b d

/-- A field of a mapping. -/
structure FieldSpec (F : Type) where
  name : Str
  required : Bool
  shape : Shape F

/-- A field that may be absent. -/
def opt (name : String) (a : Shape F) : FieldSpec F := ⟨name.toList, false, a⟩

/-- A field that must be present. -/
def req (name : String) (a : Shape F) : FieldSpec F := ⟨name.toList, true, a⟩

/-- The entries of a mapping fit the fields: no key twice, the values of the fields have the right
shape, required fields are present. -/
structure Fits (fs : List (FieldSpec F)) (m : List (Str × Doc F)) : Prop where
  nodup : (m.map (·.1)).Nodup
  shapes : ∀ e ∈ m, ∀ f ∈ fs, f.name = e.1 → f.shape e.2
  required : ∀ f ∈ fs, f.required = true → ∃ e ∈ m, e.1 = f.name

/-- There are no other keys. -/
def OnlyFields (fs : List (FieldSpec F)) (m : List (Str × Doc F)) : Prop :=
  ∀ e ∈ m, ∃ f ∈ fs, f.name = e.1

/-- A mapping with the given fields, and possibly others. -/
def object (fs : List (FieldSpec F)) : Shape F := fun d => ∃ m, d = .obj m ∧ Fits fs m

/-- A mapping with the given fields only. -/
def closedObject (fs : List (FieldSpec F)) : Shape F :=
  fun d => ∃ m, d = .obj m ∧ Fits fs m ∧ OnlyFields fs m

/-- Free-form values without substitutions: no null, no `"` or `${` in texts, integers of 64
bits. -/
inductive Plain : Doc F → Prop
  | str (s : Str) : '"' ∉ s → (∀ a b, s ≠ a ++ '$' :: '{' :: b) → Plain (.str s)
  | bool (b : Bool) : Plain (.bool b)
  | int (n : Int) : -(2 ^ 63) ≤ n → n < 2 ^ 63 → Plain (.int n)
  | float (x : F) : Plain (.float x)
  | arr (l : List (Doc F)) : (∀ x ∈ l, Plain x) → Plain (.arr l)
  | obj (m : List (Str × Doc F)) : (∀ e ∈ m, Plain e.2) → Plain (.obj m)

/-- A free-form text without substitutions. -/
def plainText : Shape F := fun d => text d ∧ Plain d

/-! ## Specifications of resources -/

/-- The fields of `sharedHandlerConfig` and of handler configurations. -/
def sharedFields : List (FieldSpec F) :=
  [opt "codeLocation" text, opt "runtime" text, opt "memory" integer, opt "timeout" integer,
   opt "tracingEnabled" boolean, opt "environmentVariables" (mapOf text)]

/-- The fields of a handler. -/
def handlerFields : List (FieldSpec F) :=
  [opt "handlerName" text, opt "codeLocation" text, req "handler" text, opt "runtime" text,
   opt "memory" integer, opt "timeout" integer, opt "tracingEnabled" boolean,
   opt "environmentVariables" (mapOf text)]

/-- The fields of a schedule. -/
def scheduleFields : List (FieldSpec F) := [req "schedule" text]

/-- The source of events from an object store. -/
def objectStorageFields : List (FieldSpec F) := [req "bucket" text, req "events" (listOf text)]

/-- The source of events from a stream; `key` is `dbStreamId` or `dataStreamId`. -/
def streamFields (key : String) : List (FieldSpec F) :=
  [opt "batchSize" integer, req key text, opt "partialFailures" boolean,
   opt "startFromBeginning" boolean]

/-- An external event, whose source has the fields that belong to its type and no others. -/
def event : Shape F :=
  either
    (object [req "sourceType" (oneOf ["objectStorage"]),
      req "sourceConfiguration" (closedObject objectStorageFields)])
    (either
      (object [req "sourceType" (oneOf ["dbStream"]),
        req "sourceConfiguration" (closedObject (streamFields "dbStreamId"))])
      (object [req "sourceType" (oneOf ["dataStream"]),
        req "sourceConfiguration" (closedObject (streamFields "dataStreamId"))]))

/-- The fields of a consumer. -/
def consumerFields : List (FieldSpec F) :=
  [opt "sourceId" text, opt "batchSize" integer, opt "visibilityTimeout" integer,
   opt "waitTimeSeconds" integer, opt "partialFailures" boolean, opt "routingKey" text,
   opt "externalEvents" (mapOf event)]

/-- A configuration of the WebSocket protocol. -/
def wsConfig : Shape F := closedObject [opt "routeKey" plainText, opt "authStrategy" plainText]

/-- A protocol of an API. -/
def protocol : Shape F :=
  either (oneOf ["http", "websocket"]) (closedObject [req "websocketConfig" wsConfig])

/-- The fields of a CORS configuration. -/
def corsFields : List (FieldSpec F) :=
  [opt "allowCredentials" boolean, opt "allowOrigins" (listOf text),
   opt "allowMethods" (listOf text), opt "allowHeaders" (listOf text),
   opt "exposeHeaders" (listOf text), opt "maxAge" integer]

/-- A text, or a protocol with a text. -/
def strOrConfig (key : String) : Shape F :=
  either text (object [req "protocol" (oneOf ["http", "websocket"]), req key text])

/-- The fields of a domain. -/
def domainFields : List (FieldSpec F) :=
  [req "domainName" someText, req "basePaths" (someOf (strOrConfig "basePath")),
   opt "normalizeBasePath" boolean, req "certificateId" someText, opt "securityPolicy" text]

/-- The fields of a guard. -/
def guardFields : List (FieldSpec F) :=
  [req "type" (oneOf ["jwt", "custom"]), opt "issuer" text,
   opt "tokenSource" (strOrConfig "source"), opt "audience" (listOf text)]

/-- The fields of the authentication settings. -/
def authFields : List (FieldSpec F) :=
  [opt "defaultGuard" text, req "guards" (mapOf (object guardFields))]

/-- The fields of an API. -/
def apiFields : List (FieldSpec F) :=
  [req "protocols" (someOf protocol), opt "cors" (either text (object corsFields)),
   opt "domain" (object domainFields), opt "auth" (object authFields),
   opt "tracingEnabled" boolean]

/-! ## Workflows -/

/-- The fields of a condition. -/
def condFields : List (FieldSpec F) := [req "inputs" (listOf Plain), req "function" text]

/-- The fields of a decision rule. -/
def ruleFields : List (FieldSpec F) :=
  [opt "and" (listOf (object condFields)), opt "or" (listOf (object condFields)),
   opt "not" (object condFields), opt "condition" (object condFields), req "next" someText]

/-- The fields of a wait configuration. -/
def waitFields : List (FieldSpec F) := [opt "seconds" text, opt "timestamp" text]

/-- The fields of a failure configuration. -/
def failureFields : List (FieldSpec F) := [opt "error" text, opt "cause" text]

/-- The fields of a retry configuration. -/
def retryFields : List (FieldSpec F) :=
  [req "matchErrors" (listOf text), opt "interval" integer, opt "maxAttempts" integer,
   opt "maxDelay" integer, opt "jitter" boolean, opt "backoffRate" real]

/-- The fields of a catch configuration. -/
def catchFields : List (FieldSpec F) :=
  [req "matchErrors" (listOf text), req "next" text, opt "resultPath" text]

/-- The fields of a state, with the shape of parallel branches left open. -/
def stateFields (branches : Shape F) : List (FieldSpec F) :=
  [req "type" someText, opt "description" text, opt "inputPath" text, opt "resultPath" text,
   opt "outputPath" text, opt "payloadTemplate" (mapOf Plain), opt "next" text,
   opt "end" boolean, opt "decisions" (listOf (object ruleFields)), opt "result" Plain,
   opt "timeout" integer, opt "waitConfig" (object waitFields),
   opt "failureConfig" (object failureFields), opt "parallelBranches" branches,
   opt "retry" (listOf (object retryFields)), opt "catch" (listOf (object catchFields))]

/-- The fields of a workflow or branch, with the shape of states left open. -/
def workflowFields (states : Shape F) : List (FieldSpec F) :=
  [req "startAt" text, req "states" states]

mutual
/-- A state of a workflow. -/
inductive State : Doc F → Prop
  | mk (m : List (Str × Doc F)) : Fits (stateFields fun _ => True) m →
      OnlyFields (stateFields fun _ => True) m →
      (∀ v, ("parallelBranches".toList, v) ∈ m → Branches v) → State (.obj m)
/-- Parallel branches. -/
inductive Branches : Doc F → Prop
  | mk (l : List (Doc F)) : (∀ b ∈ l, Branch b) → Branches (.arr l)
/-- A branch, or a workflow. -/
inductive Branch : Doc F → Prop
  | mk (m : List (Str × Doc F)) : Fits (workflowFields fun _ => True) m →
      OnlyFields (workflowFields fun _ => True) m →
      (∀ v, ("states".toList, v) ∈ m → States v) → Branch (.obj m)
/-- The states of a workflow or branch. -/
inductive States : Doc F → Prop
  | mk (m : List (Str × Doc F)) : (∀ e ∈ m, State e.2) → States (.obj m)
end

/-! ## Resources and blueprints -/

/-- The shape of the specification of a resource, for the types that both readers know. -/
def specOf : List (String × Shape F) :=
  [("celerity/handler", object handlerFields), ("celerity/api", object apiFields),
   ("celerity/consumer", object consumerFields), ("celerity/schedule", object scheduleFields),
   ("celerity/handlerConfig", object sharedFields), ("celerity/workflow", Branch)]

/-- The resource types there are. -/
def typeNames : List String :=
  ["celerity/handler", "celerity/api", "celerity/consumer", "celerity/schedule",
   "celerity/handlerConfig", "celerity/workflow", "celerity/config", "celerity/bucket",
   "celerity/topic", "celerity/queue"]

/-- The metadata of a resource. -/
def metaFields : List (FieldSpec F) :=
  [req "displayName" someText, opt "annotations" (mapOf Plain), opt "labels" (mapOf text)]

/-- The fields of a resource after its type. -/
def resourceFields (spec : Shape F) : List (FieldSpec F) :=
  [opt "metadata" (object metaFields), req "spec" spec, opt "description" text,
   opt "linkSelector" (object [req "byLabel" (mapOf text)])]

/-- A resource: first its type, then the other fields and no unknown ones. Resources of foreign
types may have anything in these fields. -/
inductive Resource : Doc F → Prop
  | known (t : String) (sh : Shape F) (m : List (Str × Doc F)) : (t, sh) ∈ specOf →
      Fits (resourceFields sh) m → OnlyFields (resourceFields sh) m →
      Resource (.obj (("type".toList, .str t.toList) :: m))
  | foreign (t : Str) (m : List (Str × Doc F)) : (∀ n ∈ typeNames, t ≠ n.toList) →
      OnlyFields (resourceFields fun _ => True) m →
      Resource (.obj (("type".toList, .str t) :: m))

/-- A scalar. -/
def scalar : Shape F := either text (either boolean (either integer real))

/-- A variable. -/
def variableFields : List (FieldSpec F) :=
  [req "type" someText, opt "allowedValues" (listOf scalar), opt "default" scalar,
   opt "secret" boolean, opt "description" text]

/-- A portable blueprint. -/
def Portable : Shape F :=
  object [req "version" text, req "transform" text, opt "variables" (mapOf (object variableFields)),
    req "resources" (mapOf Resource),
    opt "metadata" (object [req "sharedHandlerConfig" (object sharedFields)])]

/-! ## What a document declares -/

/-- A resource of a type that the runtime does not know. -/
def Foreign (d : Doc F) : Prop :=
  ∃ m t, d = .obj m ∧ (m.map (·.1)).Nodup ∧ ("type".toList, .str t) ∈ m ∧
    ∀ n ∈ typeNames, t ≠ n.toList

/-- The type of a resource, if it is one of the given ones. -/
def kindOf (names : List String) : Doc F → Option Str
  | .obj m =>
    match m.lookup "type".toList with
    | some (.str t) => if t ∈ names.map (·.toList) then some t else none
    | _ => none
  | _ => none

/-- A resource that has a specification. -/
def hasSpec : Doc F → Bool
  | .obj m => m.any fun e => decide (e.1 = "spec".toList)
  | _ => false

/-- A resource entry whose type, if any, is a text. -/
def TextType : Doc F → Prop
  | .obj m => (m.map (·.1)).Nodup ∧ ∀ v, ("type".toList, v) ∈ m → ∃ t, v = .str t
  | _ => True

/-- The names and types of the declared resources of the given types. -/
def declared (names : List String) (rs : List (Str × Doc F)) : List (Str × Str) :=
  rs.filterMap fun e => (kindOf names e.2).map fun t => (e.1, t)

/-- The transforms that are written: one text or a sequence of texts. -/
inductive Transforms : Doc F → List Str → Prop
  | one (s : Str) : Transforms (.str s) [s]
  | many (l : List Str) : Transforms (.arr (l.map .str)) l

/-- A mapping with distinct keys. -/
def Distinct (m : List (Str × Doc F)) : Prop := (m.map (·.1)).Nodup

/-- The document is a mapping, with distinct keys, in which the resources are the given mapping. -/
def Resources (d : Doc F) (rs : List (Str × Doc F)) : Prop :=
  ∃ m, d = .obj m ∧ Distinct m ∧ ("resources".toList, .obj rs) ∈ m ∧ Distinct rs

/-- The document has a resource with the given name and fields. -/
def Declares (d : Doc F) (name : Str) (fields : List (Str × Doc F)) : Prop :=
  ∃ rs, Resources d rs ∧ (name, .obj fields) ∈ rs ∧ Distinct fields

/-- The mapping at a field of a mapping. -/
def Inside (fields : List (Str × Doc F)) (key : String) (inner : List (Str × Doc F)) : Prop :=
  (key.toList, .obj inner) ∈ fields ∧ Distinct inner

/-- A text without the opener of a substitution. -/
def Literal (s : Str) : Prop := ∀ a b, s ≠ a ++ '$' :: '{' :: b

end Verif.Blueprint.Spec
