import Verif.FlowApi.RouteModel

/-!
# The documented operations of the workflow API

`libs/runtime/api-docs/workflow-api/workflow-api-v1.yaml` 28-157 and
`workflow-stream-api-v1.yaml` 25-27; who may call them: `workflow-api/README.md` 7.
-/

namespace Verif.FlowApi.RouteSpec

open Verif Verif.FlowApi Verif.Wire

/-- An operation. -/
inductive Op where
  | runWorkflow
  | getExecution (id : Str)
  | getExecutions
  | streamEvents (id : Str)

/-- An id as it is in a path: one segment. -/
def IsId (id : Str) : Prop := id ≠ [] ∧ '/' ∉ id

/-- The request calls the operation. -/
inductive Calls : String → Str → Op → Prop
  | run : Calls "POST" "/run".toList .runWorkflow
  | execution {id} : IsId id → Calls "GET" ("/executions/".toList ++ id) (.getExecution id)
  | executions : Calls "GET" "/executions".toList .getExecutions
  | stream {id} : IsId id →
      Calls "GET" ("/executions/".toList ++ id ++ "/stream".toList) (.streamEvents id)

/-- The handler of an operation. -/
def handler : Op → Endpoint
  | .runWorkflow => .run
  | .getExecution _ => .execution
  | .getExecutions => .executions
  | .streamEvents _ => .stream

/-- The path of the check whether the runtime is well. -/
def healthCheck : Str := "/runtime/health/check".toList

/-- The request comes without any of the documented credentials. -/
def Anonymous {F : Type} (q : ApiRequest F) : Prop :=
  q.headers.lookup "celerity-api-key" = none ∧ q.headers.lookup "authorization" = none ∧
    q.headers.lookup "celerity-signature-v1" = none

end Verif.FlowApi.RouteSpec
