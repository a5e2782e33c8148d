import Verif.Blueprint.Types

/-!
# Specification: the fields of a blueprint and the variables they refer to

A field is given by the names on the way to it in the document, without positions in lists; fields
that hold arbitrary values (payload templates, results, inputs of conditions) are not divided
further.
-/

namespace Verif.Blueprint.Field.Spec

open Verif Verif.Subst Verif.Blueprint

/-- A field, and the names of the variables its value refers to. -/
abbrev Leaf := List Str × List Str

/-- The path of a field as text. -/
def joined (keys : List Str) : Str := ['.'].intercalate keys

/-- The environment variable of a variable. -/
def variableOf (name : Str) : Str := "CELERITY_VARIABLE_".toList ++ name

/-- The variables a text refers to. -/
def refs (s : Sos) : List Str := s.filterMap fun
  | .str _ => none
  | .sub r => some r.name

mutual
/-- The variables a value refers to. -/
def nodeRefs {F : Type} : Node F → List Str
  | .scalar _ => []
  | .mapping m => entriesRefs m
  | .sequence l => listRefs l
  | .subst v => refs v
  | .null => []
def entriesRefs {F : Type} : List (Str × Node F) → List Str
  | [] => []
  | (_, v) :: rest => nodeRefs v ++ entriesRefs rest
def listRefs {F : Type} : List (Node F) → List Str
  | [] => []
  | v :: rest => nodeRefs v ++ listRefs rest
end

/-- The variables of a field that must have a single value. -/
def scalarRefs {F : Type} : Node F → List Str
  | .subst v => refs v
  | _ => []

variable {F : Type}

def text (ks : List Str) (k : String) (s : Sos) : List Leaf := [(ks ++ [k.toList], refs s)]

def optText (ks : List Str) (k : String) (s : Option Sos) : List Leaf :=
  [(ks ++ [k.toList], (s.map refs).getD [])]

def texts (ks : List Str) (k : String) (l : List Sos) : List Leaf :=
  [(ks ++ [k.toList], l.flatMap refs)]

def optTexts (ks : List Str) (k : String) (l : Option (List Sos)) : List Leaf :=
  [(ks ++ [k.toList], (l.getD []).flatMap refs)]

def single (ks : List Str) (k : String) (n : Option (Node F)) : List Leaf :=
  [(ks ++ [k.toList], (n.map scalarRefs).getD [])]

/-- A map of texts: every entry is a field. -/
def textMap (ks : List Str) (k : String) (m : Option (List (Str × Sos))) : List Leaf :=
  (m.getD []).map fun e => (ks ++ [k.toList] ++ [e.1], refs e.2)

/-- The names of fields and levels that the code does not call by their names. -/
structure Naming where
  schedule : String
  domainName : String
  guard : Str → List Str
  guardType : List Str
  condition : List Str

/-- The names in the document (`blueprint_with_subs.rs`). -/
def documented : Naming where
  schedule := "schedule"
  domainName := "domainName"
  guard := fun name => [name]
  guardType := ["type".toList]
  condition := ["condition".toList]

def ofShared (ks : List Str) (s : Shared Sos (Node F) (Node F)) : List Leaf :=
  optText ks "codeLocation" s.codeLocation ++ optText ks "runtime" s.runtime ++
  single ks "memory" s.memory ++ single ks "timeout" s.timeout ++
  single ks "tracingEnabled" s.tracingEnabled ++
  textMap ks "environmentVariables" s.environmentVariables

def ofHandler (ks : List Str) (s : HandlerSpec Sos (Node F) (Node F)) : List Leaf :=
  optText ks "handlerName" s.handlerName ++ optText ks "codeLocation" s.codeLocation ++
  text ks "handler" s.handler ++ optText ks "runtime" s.runtime ++ single ks "memory" s.memory ++
  single ks "timeout" s.timeout ++ single ks "tracingEnabled" s.tracingEnabled ++
  textMap ks "environmentVariables" s.environmentVariables

def ofStream (ks : List Str) (id : String) (s : Stream Sos (Node F) (Node F)) : List Leaf :=
  single ks "batchSize" s.batchSize ++ text ks id s.streamId ++
  single ks "partialFailures" s.partialFailures ++ single ks "startFromBeginning" s.startFromBeginning

def ofEvConfig (ks : List Str) : EvConfig Sos (Node F) (Node F) Sos → List Leaf
  | .objectStorage bucket events => text ks "bucket" bucket ++ texts ks "events" events
  | .dbStream c => ofStream ks "dbStreamId" c
  | .dataStream c => ofStream ks "dataStreamId" c

def ofEvent (ks : List Str) (e : ExternalEvent Sos (Node F) (Node F) Sos) : List Leaf :=
  ofEvConfig (ks ++ ["sourceConfiguration".toList]) e.config

def ofConsumer (ks : List Str) (s : ConsumerSpec Sos (Node F) (Node F) Sos) : List Leaf :=
  optText ks "sourceId" s.sourceId ++ single ks "batchSize" s.batchSize ++
  single ks "visibilityTimeout" s.visibilityTimeout ++ single ks "waitTimeSeconds" s.waitTimeSeconds ++
  single ks "partialFailures" s.partialFailures ++ optText ks "routingKey" s.routingKey ++
  (s.externalEvents.getD []).flatMap (fun e => ofEvent (ks ++ ["externalEvents".toList] ++ [e.1]) e.2)

def ofConfigSpec (ks : List Str) (s : ConfigSpec Sos) : List Leaf :=
  optText ks "name" s.name ++ optTexts ks "plaintext" s.plaintext

def ofTopic (ks : List Str) (s : TopicSpec Sos (Node F)) : List Leaf :=
  optText ks "name" s.name ++ single ks "fifo" s.fifo

def ofQueue (ks : List Str) (s : QueueSpec Sos (Node F) (Node F)) : List Leaf :=
  optText ks "name" s.name ++ single ks "fifo" s.fifo ++
  single ks "visibilityTimeout" s.visibilityTimeout

/-- The value of a key of an object. -/
def valueOf (n : Node F) (k : String) : Option (Node F) :=
  match n with
  | .mapping m => m.lookup k.toList
  | _ => none

/-- A protocol is a text or an object with a `websocketConfig`. -/
def ofProtocol (ks : List Str) (n : Node F) : List Leaf :=
  (ks, scalarRefs n) ::
  match valueOf n "websocketConfig" with
  | some c =>
    let ks := ks ++ ["websocketConfig".toList]
    (ks, []) :: (single ks "routeKey" (valueOf c "routeKey") ++
      single ks "authStrategy" (valueOf c "authStrategy"))
  | none => []

def ofCors (ks : List Str) : Cors Sos (Node F) (Node F) → List Leaf
  | .str s => [(ks, refs s)]
  | .config c =>
    single ks "allowCredentials" c.allowCredentials ++ optTexts ks "allowOrigins" c.allowOrigins ++
    optTexts ks "allowMethods" c.allowMethods ++ optTexts ks "allowHeaders" c.allowHeaders ++
    optTexts ks "exposeHeaders" c.exposeHeaders ++ single ks "maxAge" c.maxAge

def ofStrOrConfig (ks : List Str) (k : String) : StrOrConfig Sos (Node F) → List Leaf
  | .str s => [(ks, refs s)]
  | .config c => ofProtocol (ks ++ ["protocol".toList]) c.protocol ++ text ks k c.value

def ofDomain (nm : Naming) (ks : List Str) (s : Domain Sos (Node F) (Node F) Sos) : List Leaf :=
  text ks nm.domainName s.domainName ++
  s.basePaths.flatMap (ofStrOrConfig (ks ++ ["basePaths".toList]) "basePath") ++
  single ks "normalizeBasePath" s.normalizeBasePath ++ text ks "certificateId" s.certificateId ++
  optText ks "securityPolicy" s.securityPolicy

def ofGuard (nm : Naming) (ks : List Str) (s : Guard Sos (Node F) Sos) : List Leaf :=
  [(ks ++ nm.guardType, refs s.guardType)] ++ optText ks "issuer" s.issuer ++
  (s.tokenSource.map (ofStrOrConfig (ks ++ ["tokenSource".toList]) "source")).getD [] ++
  optTexts ks "audience" s.audience

def ofAuth (nm : Naming) (ks : List Str) (s : Auth Sos (Node F) Sos) : List Leaf :=
  optText ks "defaultGuard" s.defaultGuard ++
  s.guards.flatMap (fun e => ofGuard nm (ks ++ ["guards".toList] ++ nm.guard e.1) e.2)

def ofApi (nm : Naming) (ks : List Str) (s : ApiSpec Sos (Node F) (Node F) (Node F) Sos Sos) :
    List Leaf :=
  s.protocols.flatMap (ofProtocol (ks ++ ["protocols".toList])) ++
  (s.cors.map (ofCors (ks ++ ["cors".toList]))).getD [] ++
  (s.domain.map (ofDomain nm (ks ++ ["domain".toList]))).getD [] ++
  (s.auth.map (ofAuth nm (ks ++ ["auth".toList]))).getD [] ++
  single ks "tracingEnabled" s.tracingEnabled

def ofCond (ks : List Str) (s : Cond Sos (Node F)) : List Leaf :=
  [(ks ++ ["inputs".toList], listRefs s.inputs)] ++ text ks "function" s.function

def ofRule (nm : Naming) (ks : List Str) (s : Rule Sos (Node F)) : List Leaf :=
  (s.condition.map (ofCond (ks ++ nm.condition))).getD [] ++
  (s.and.getD []).flatMap (ofCond (ks ++ ["and".toList])) ++
  (s.or.getD []).flatMap (ofCond (ks ++ ["or".toList])) ++
  (s.not.map (ofCond (ks ++ ["not".toList]))).getD [] ++
  text ks "next" s.next

def ofWait (ks : List Str) (s : WaitConfig Sos) : List Leaf :=
  optText ks "seconds" s.seconds ++ optText ks "timestamp" s.timestamp

def ofFailure (ks : List Str) (s : FailureConfig Sos) : List Leaf :=
  optText ks "error" s.error ++ optText ks "cause" s.cause

def ofRetry (ks : List Str) (s : Retry Sos (Node F) (Node F) (Node F)) : List Leaf :=
  texts ks "matchErrors" s.matchErrors ++ single ks "interval" s.interval ++
  single ks "maxAttempts" s.maxAttempts ++ single ks "maxDelay" s.maxDelay ++
  single ks "jitter" s.jitter ++ single ks "backoffRate" s.backoffRate

def ofCatch (ks : List Str) (s : Catch Sos) : List Leaf :=
  texts ks "matchErrors" s.matchErrors ++ text ks "next" s.next ++
  optText ks "resultPath" s.resultPath

def ofStateFields (nm : Naming) (ks : List Str) (s : RawFields F) : List Leaf :=
  text ks "type" s.stateType ++ optText ks "inputPath" s.inputPath ++
  optText ks "resultPath" s.resultPath ++ optText ks "outputPath" s.outputPath ++
  [(ks ++ ["payloadTemplate".toList], entriesRefs (s.payloadTemplate.getD []))] ++
  optText ks "next" s.next ++ single ks "end" s.end_ ++
  (s.decisions.getD []).flatMap (ofRule nm (ks ++ ["decisions".toList])) ++
  optText ks "description" s.description ++
  [(ks ++ ["result".toList], (s.result.map nodeRefs).getD [])] ++
  single ks "timeout" s.timeout ++
  (s.waitConfig.map (ofWait (ks ++ ["waitConfig".toList]))).getD [] ++
  (s.failureConfig.map (ofFailure (ks ++ ["failureConfig".toList]))).getD [] ++
  (s.retry.getD []).flatMap (ofRetry (ks ++ ["retry".toList])) ++
  (s.catch_.getD []).flatMap (ofCatch (ks ++ ["catch".toList]))

mutual
def ofState (nm : Naming) (ks : List Str) : RawState F → List Leaf
  | .mk f b => ofStateFields nm ks f ++ ofBranches nm (ks ++ ["parallelBranches".toList]) b
def ofBranches (nm : Naming) (ks : List Str) :
    Option (List (Sos × List (Str × RawState F))) → List Leaf
  | none => []
  | some l => ofBranchList nm ks l
def ofBranchList (nm : Naming) (ks : List Str) : List (Sos × List (Str × RawState F)) → List Leaf
  | [] => []
  | b :: rest => ofBranch nm ks b ++ ofBranchList nm ks rest
def ofBranch (nm : Naming) (ks : List Str) : Sos × List (Str × RawState F) → List Leaf
  | (startAt, states) => text ks "startAt" startAt ++ ofStates nm (ks ++ ["states".toList]) states
def ofStates (nm : Naming) (ks : List Str) : List (Str × RawState F) → List Leaf
  | [] => []
  | e :: rest => ofStateEntry nm ks e ++ ofStates nm ks rest
def ofStateEntry (nm : Naming) (ks : List Str) : Str × RawState F → List Leaf
  | (k, s) => ofState nm (ks ++ [k]) s
end

def ofSpec (nm : Naming) (ks : List Str) : RawSpec F → List Leaf
  | .handler s => ofHandler ks s
  | .api s => ofApi nm ks s
  | .consumer s => ofConsumer ks s
  | .schedule s => text ks nm.schedule s
  | .handlerConfig s => ofShared ks s
  | .workflow s => text ks "startAt" s.startAt ++ ofStates nm (ks ++ ["states".toList]) s.states
  | .config s => ofConfigSpec ks s
  | .bucket s => optText ks "name" s
  | .topic s => ofTopic ks s
  | .queue s => ofQueue ks s

def ofMeta (ks : List Str) (s : Meta Sos (Node F)) : List Leaf :=
  text ks "displayName" s.displayName ++
  (s.annotations.getD []).map (fun e => (ks ++ ["annotations".toList] ++ [e.1], scalarRefs e.2))

def ofResource (nm : Naming) (name : Str) (s : RawResource F) : List Leaf :=
  ofMeta ["resources".toList, name, "metadata".toList] s.metadata ++
  (s.spec.map (ofSpec nm ["resources".toList, name, "spec".toList])).getD []

/-- The fields of a blueprint in which variables are replaced. -/
def fields (nm : Naming) (b : RawConfig F) : List Leaf :=
  b.resources.flatMap (fun e => ofResource nm e.1 e.2) ++
  ((b.metadata.bind id).map (ofShared ["metadata".toList, "sharedHandlerConfig".toList])).getD []

/-- The variables a blueprint refers to. -/
def referred (b : RawConfig F) : List Str := (fields documented b).flatMap (·.2)

mutual
/-- Workflow states all of whose rules combine conditions with `and`, `or` or `not`. -/
def PlainState : RawState F → Prop
  | .mk f b => (∀ r ∈ f.decisions.getD [], r.condition = none) ∧ PlainBranches b
def PlainBranches : Option (List (Sos × List (Str × RawState F))) → Prop
  | none => True
  | some l => PlainBranchList l
def PlainBranchList : List (Sos × List (Str × RawState F)) → Prop
  | [] => True
  | b :: rest => PlainBranch b ∧ PlainBranchList rest
def PlainBranch : Sos × List (Str × RawState F) → Prop
  | (_, states) => PlainStates states
def PlainStates : List (Str × RawState F) → Prop
  | [] => True
  | e :: rest => PlainStateEntry e ∧ PlainStates rest
def PlainStateEntry : Str × RawState F → Prop
  | (_, s) => PlainState s
end

/-- Specifications without the fields that errors call by other names: schedules, domains, guards
and single conditions. -/
def PlainSpec : RawSpec F → Prop
  | .api s => s.domain = none ∧ ∀ a, s.auth = some a → a.guards = []
  | .schedule _ => False
  | .workflow s => PlainStates s.states
  | _ => True

/-- A blueprint with such specifications. -/
def PlainBlueprint (b : RawConfig F) : Prop :=
  ∀ e ∈ b.resources, ∀ s, e.2.spec = some s → PlainSpec s

end Verif.Blueprint.Field.Spec
