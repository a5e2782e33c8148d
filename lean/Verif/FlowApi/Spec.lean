import Verif.FlowApi.Model

/-!
# Specification: the documented format

`libs/runtime/api-docs/workflow-api/workflow-stream-api-v1.yaml` and
`libs/runtime/api-docs/workflow-api/workflow-api-v1.yaml`, as predicates on JSON.
-/

namespace Verif.FlowApi

open Verif

variable {F : Type}

/-- A required property. -/
def Has (m : List (List Char × Json F)) (k : String) (P : Json F → Prop) : Prop :=
  ∃ v, m.lookup k.toList = some v ∧ P v

/-- Another property. -/
def May (m : List (List Char × Json F)) (k : String) (P : Json F → Prop) : Prop :=
  ∀ v, m.lookup k.toList = some v → P v

/-- `type: string` -/
def IsStr (v : Json F) : Prop := ∃ s, v = .str s

/-- `type: number` -/
def IsNum (v : Json F) : Prop := (∃ i, v = .int i) ∨ ∃ f, v = .float f

/-- With `null` among the types. -/
def OrNull (P : Json F → Prop) (v : Json F) : Prop := v = .null ∨ P v

/-- `enum` and `const` of texts. -/
def OneOf (names : List String) (v : Json F) : Prop := ∃ s ∈ names, v = .str s.toList

/-- `type: ["object", "array", "string", "number", "null"]` -/
def DocValue (v : Json F) : Prop := ∀ b, v ≠ .bool b

/-- What the documentation says of inputs and outputs, of errors and of the types of states. -/
structure Format (F : Type) where
  value : Json F → Prop
  error : Json F → Prop
  types : List String

/-- As documented. -/
def documented : Format F :=
  ⟨DocValue, IsStr, ["executeStep", "pass", "parallel", "wait", "decision", "failure", "success"]⟩

/-- With any inputs and outputs, null in place of an error, and states of unknown type. -/
def relaxed : Format F :=
  ⟨fun _ => True, OrNull IsStr,
    ["executeStep", "pass", "parallel", "wait", "decision", "failure", "success", "Unknown"]⟩

/-- The documented statuses. -/
def statuses : List String := ["PREPARING", "IN_PROGRESS", "FAILED", "SUCCEEDED"]

/-- The schema `executionState`. -/
inductive IsState (fm : Format F) : Json F → Prop
  | mk (m : List (List Char × Json F)) (bs : List (List (Json F))) :
    Has m "name" IsStr → Has m "type" (OneOf fm.types) → May m "parent" (OrNull IsStr) →
    Has m "input" fm.value → Has m "started" IsNum → Has m "completed" (OrNull IsNum) →
    Has m "duration" (OrNull IsNum) → Has m "status" (OneOf statuses) → Has m "attempt" IsNum →
    May m "error" fm.error →
    (m.lookup "parallel".toList = none ∨ m.lookup "parallel".toList = some (.arr (bs.map .arr))) →
    (∀ b ∈ bs, ∀ s ∈ b, IsState fm s) →
    Has m "rawOutput" fm.value → Has m "output" fm.value → IsState fm (.obj m)

/-- The schema `execution`. -/
def IsExecution (fm : Format F) (v : Json F) : Prop :=
  ∃ m, v = .obj m ∧ Has m "id" IsStr ∧ Has m "input" fm.value ∧ Has m "started" IsNum ∧
    Has m "completed" (OrNull IsNum) ∧ Has m "duration" (OrNull IsNum) ∧
    Has m "status" (OneOf statuses) ∧ Has m "statusDetail" IsStr ∧
    Has m "currentState" (OrNull IsStr) ∧
    Has m "states" (fun v => ∃ l, v = .arr l ∧ ∀ s ∈ l, IsState fm s) ∧ May m "output" fm.value

/-- The schemas of the four events. The properties are taken to be required: the value of `event` is
what distinguishes them. -/
def IsEvent (fm : Format F) (v : Json F) : Prop :=
  ∃ m, v = .obj m ∧
    (Has m "event" (OneOf ["stateTransition"]) ∧ Has m "prevState" (OrNull (IsState fm)) ∧
        Has m "newState" (IsState fm) ∨
      Has m "event" (OneOf ["stateRetry"]) ∧ Has m "retryState" (IsState fm) ∧
        Has m "prevAttemptStates" (fun v => ∃ l, v = .arr l ∧ ∀ s ∈ l, IsState fm s) ∨
      Has m "event" (OneOf ["stateFailed"]) ∧ Has m "failedState" (IsState fm) ∨
      Has m "event" (OneOf ["workflowExecutionComplete"]) ∧
        Has m "completeExecution" (IsExecution fm))

/-- All states inside a state have a property, and itself. -/
inductive Within (P : State F → Prop) : State F → Prop
  | mk (s : State F) : P s → (∀ b ∈ s.parallel, ∀ c ∈ b, Within P c) → Within P s

/-- The numbers of a state fit into their types. -/
def Fits (s : State F) : Prop :=
  s.started < 2 ^ 64 ∧ (∀ t, s.completed = some t → t < 2 ^ 64) ∧ s.attempt < 2 ^ 32

/-- No output is null. -/
def NoNull (s : State F) : Prop := s.rawOutput ≠ some .null ∧ s.output ≠ some .null

/-- The numbers of an execution fit into their types. -/
def ExecFits (e : Execution F) : Prop :=
  e.started < 2 ^ 64 ∧ (∀ t, e.completed = some t → t < 2 ^ 64) ∧ ∀ s ∈ e.states, Within Fits s

/-- No output of an execution is null. -/
def ExecNoNull (e : Execution F) : Prop := e.output ≠ some .null ∧ ∀ s ∈ e.states, Within NoNull s

/-- `RunWorkflowBody`: the documented requests to start an execution, with the name and the input. -/
def IsRunRequest (v : Json F) (name : Option (List Char)) (input : Json F) : Prop :=
  ∃ m, v = .obj m ∧ (m.map (·.1)).Nodup ∧ m.lookup "input".toList = some input ∧
    (∃ fields, input = .obj fields) ∧
    m.lookup "executionName".toList = name.map .str

/-- The documented answers to such a request: 201 with the id, or 500 with an object. -/
def IsRunAnswer (a : Answer F) (id : List Char) : Prop :=
  a.status = 201 ∧ (∃ m, a.body = .inl (.obj m) ∧ m.lookup "id".toList = some (.str id)) ∨
  a.status = 500 ∧ ∃ m, a.body = .inl (.obj m) ∧ May m "message" IsStr

end Verif.FlowApi
