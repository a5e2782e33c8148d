import Verif.Wire.Model
import Verif.Workflow.Model
import Verif.ExecStore.Model

/-!
# Model of what goes over the wire between the workflow runtime and its clients

The derived code of the types in `libs/runtime/workflow/src/workflow_executions.rs` and of the events
in `libs/runtime/workflow/src/types.rs`, the events that the state machine sends
(`libs/runtime/workflow/src/state_machine.rs`), and the requests and answers of `run_handler` in
`libs/runtime/workflow/src/application.rs`.

Derived code is modelled as in `Verif.Wire`. An `f64` is written as a floating point number and read
from any number; `ofInt` is the conversion of integers. Not modelled: JSON as text, the framing of
server-sent events, the content type of requests.
-/

namespace Verif.FlowApi

open Verif Wire
open Verif.Workflow (Kind Status)

variable {G F : Type}

/-! ## Executions -/

/-- `struct WorkflowExecutionState`, workflow_executions.rs 137-157. -/
structure State (F : Type) where
  name : Str
  kind : Kind
  parent : Option Str
  input : Json F
  started : Nat
  completed : Option Nat
  duration : Option F
  status : Status
  attempt : Nat
  error : Option Str
  parallel : List (List (State F))
  rawOutput : Option (Json F)
  output : Option (Json F)

/-- `struct WorkflowExecution`, workflow_executions.rs 120-133. -/
structure Execution (F : Type) where
  id : Str
  input : Json F
  output : Option (Json F)
  started : Nat
  completed : Option Nat
  duration : Option F
  status : Status
  statusDetail : Str
  currentState : Option Str
  states : List (State F)

/-- The names in the `rename` attributes of `WorkflowExecutionStatus`, workflow_executions.rs
162-171. -/
def statusName : Status → Str
  | .preparing => "PREPARING".toList
  | .inProgress => "IN_PROGRESS".toList
  | .failed => "FAILED".toList
  | .succeeded => "SUCCEEDED".toList

/-- `Deserialize for WorkflowExecutionStatus`, workflow_executions.rs 161-171. -/
def decodeStatus (v : Json F) : Option Status :=
  match variant v with
  | some s => [Status.preparing, .inProgress, .failed, .succeeded].find? fun t =>
      decide (statusName t = s)
  | none => none

/-- The names of `CelerityWorkflowStateType`, blueprint.rs 945-974. -/
def kindName : Kind → Str
  | .executeStep => "executeStep".toList
  | .pass => "pass".toList
  | .parallel => "parallel".toList
  | .wait => "wait".toList
  | .decision => "decision".toList
  | .failure => "failure".toList
  | .success => "success".toList
  | .unknown => "Unknown".toList

/-- `Deserialize for CelerityWorkflowStateType`, blueprint.rs 944-974. -/
def decodeKind (v : Json F) : Option Kind :=
  match variant v with
  | some s => [Kind.executeStep, .pass, .parallel, .wait, .decision, .failure, .success,
      .unknown].find? fun t => decide (kindName t = s)
  | none => none

/-- `Option<T>`, written. -/
def orNull {A : Type} (w : A → Json F) : Option A → Json F
  | none => .null
  | some a => w a

/-- `u64` and `u32`, written. -/
def nat (n : Nat) : Json F := .int n

/-- `f64`, read. -/
def float (ofInt : Int → F) : Json F → Option F
  | .float f => some f
  | .int i => some (ofInt i)
  | _ => none

mutual
/-- `Serialize for WorkflowExecutionState`, workflow_executions.rs 136-157. -/
def State.encode : State F → Json F
  | ⟨name, kind, parent, input, started, completed, duration, status, attempt, error, parallel,
      rawOutput, output⟩ =>
    .obj [("name".toList, .str name), ("type".toList, .str (kindName kind)),
      ("parent".toList, orNull .str parent), ("input".toList, input),
      ("started".toList, nat started), ("completed".toList, orNull nat completed),
      ("duration".toList, orNull .float duration), ("status".toList, .str (statusName status)),
      ("attempt".toList, nat attempt), ("error".toList, orNull .str error),
      ("parallel".toList, .arr (encodeBranches parallel)),
      ("rawOutput".toList, orNull (fun v => v) rawOutput),
      ("output".toList, orNull (fun v => v) output)]

/-- The elements of `Vec<Vec<WorkflowExecutionState>>`, written: line 153. -/
def encodeBranches : List (List (State F)) → List (Json F)
  | [] => []
  | b :: bs => .arr (encodeStates b) :: encodeBranches bs

/-- The elements of `Vec<WorkflowExecutionState>`, written: lines 132 and 153. -/
def encodeStates : List (State F) → List (Json F)
  | [] => []
  | s :: rest => s.encode :: encodeStates rest
end

/-- The fields of `WorkflowExecutionState` in the order of declaration, lines 138-156. -/
def stateFields : List Str :=
  ["name".toList, "type".toList, "parent".toList, "input".toList, "started".toList,
    "completed".toList, "duration".toList, "status".toList, "attempt".toList, "error".toList,
    "parallel".toList, "rawOutput".toList, "output".toList]

/-- The fields of a state, read, where those of the branches were read before: lines 138-156. -/
def State.build (ofInt : Int → F) (m : List (Str × Json F))
    (branches : Option (List (List (State F)))) : Option (State F) := do
  let name ← req m "name" str
  let kind ← req m "type" decodeKind
  let parent ← opt m "parent" str
  let input ← req m "input" any
  let started ← req m "started" (uint 64)
  let completed ← opt m "completed" (uint 64)
  let duration ← opt m "duration" (float ofInt)
  let status ← req m "status" decodeStatus
  let attempt ← req m "attempt" (uint 32)
  let error ← opt m "error" str
  let parallel ← branches
  let rawOutput ← opt m "rawOutput" any
  let output ← opt m "output" any
  pure { name, kind, parent, input, started, completed, duration, status, attempt, error, parallel,
         rawOutput, output }

/-- The name of the field, workflow_executions.rs 153. -/
def parallelName : Str := "parallel".toList

mutual
/-- `Deserialize for WorkflowExecutionState`, workflow_executions.rs 136-157. -/
def State.decode (ofInt : Int → F) : Json F → Option (State F)
  | .obj m =>
    if stateFields.all fun k => decide ((m.filter fun e => decide (e.1 = k)).length ≤ 1) then
      State.build ofInt m (parallelIn ofInt m)
    else none
  | .arr l =>
    if l.length = stateFields.length then
      State.build ofInt (stateFields.zip l) (parallelAt ofInt 10 l)
    else none
  | _ => none

/-- The field `parallel` of an object: line 153. -/
def parallelIn (ofInt : Int → F) : List (Str × Json F) → Option (List (List (State F)))
  | [] => none
  | (k, v) :: rest =>
    if parallelName = k then decodeBranches ofInt v else parallelIn ofInt rest

/-- The field `parallel` of a sequence: line 153. -/
def parallelAt (ofInt : Int → F) : Nat → List (Json F) → Option (List (List (State F)))
  | _, [] => none
  | 0, v :: _ => decodeBranches ofInt v
  | n + 1, _ :: rest => parallelAt ofInt n rest

/-- `Vec<Vec<WorkflowExecutionState>>`: line 153. -/
def decodeBranches (ofInt : Int → F) : Json F → Option (List (List (State F)))
  | .arr l => decodeBranchList ofInt l
  | _ => none

/-- The elements of `Vec<Vec<WorkflowExecutionState>>`: line 153. -/
def decodeBranchList (ofInt : Int → F) : List (Json F) → Option (List (List (State F)))
  | [] => some []
  | .arr l :: rest =>
    match decodeStates ofInt l, decodeBranchList ofInt rest with
    | some b, some bs => some (b :: bs)
    | _, _ => none
  | _ :: _ => none

/-- The elements of `Vec<WorkflowExecutionState>`: lines 132 and 153. -/
def decodeStates (ofInt : Int → F) : List (Json F) → Option (List (State F))
  | [] => some []
  | v :: rest =>
    match State.decode ofInt v, decodeStates ofInt rest with
    | some s, some ss => some (s :: ss)
    | _, _ => none
end

/-- `Serialize for WorkflowExecution`, workflow_executions.rs 119-133. -/
def Execution.encode (e : Execution F) : Json F :=
  .obj [("id".toList, .str e.id), ("input".toList, e.input),
    ("output".toList, orNull (fun v => v) e.output), ("started".toList, nat e.started),
    ("completed".toList, orNull nat e.completed), ("duration".toList, orNull .float e.duration),
    ("status".toList, .str (statusName e.status)), ("statusDetail".toList, .str e.statusDetail),
    ("currentState".toList, orNull .str e.currentState),
    ("states".toList, .arr (encodeStates e.states))]

/-- `Deserialize for WorkflowExecution`, workflow_executions.rs 119-133. -/
def Execution.decode (ofInt : Int → F) (v : Json F) : Option (Execution F) := do
  let m ← entries ["id".toList, "input".toList, "output".toList, "started".toList,
    "completed".toList, "duration".toList, "status".toList, "statusDetail".toList,
    "currentState".toList, "states".toList] v
  let id ← req m "id" str
  let input ← req m "input" any
  let output ← opt m "output" any
  let started ← req m "started" (uint 64)
  let completed ← opt m "completed" (uint 64)
  let duration ← opt m "duration" (float ofInt)
  let status ← req m "status" decodeStatus
  let statusDetail ← req m "statusDetail" str
  let currentState ← opt m "currentState" str
  let states ← req m "states" (list (State.decode ofInt))
  pure { id, input, output, started, completed, duration, status, statusDetail, currentState,
         states }

/-! ## Events -/

/-- `struct StateTransitionEvent`, types.rs 99-105. -/
structure Transition (F : Type) where
  event : Str
  prevState : Option (State F)
  newState : State F

/-- `struct StateFailureEvent`, types.rs 110-114. -/
structure Failure (F : Type) where
  event : Str
  failedState : State F

/-- `struct StateRetryEvent`, types.rs 119-125. -/
structure Retry (F : Type) where
  event : Str
  retryState : State F
  prevAttemptStates : List (State F)

/-- `struct ExecutionCompleteEvent`, types.rs 129-133. -/
structure Complete (F : Type) where
  event : Str
  completeExecution : Execution F

/-- `enum WorkflowExecutionEvent`, types.rs 89-94. -/
inductive Event (F : Type)
  | stateTransition (e : Transition F)
  | stateFailure (e : Failure F)
  | stateRetry (e : Retry F)
  | executionComplete (e : Complete F)

/-- `Serialize for StateTransitionEvent`, types.rs 98-105. -/
def Transition.encode (e : Transition F) : Json F :=
  .obj [("event".toList, .str e.event), ("prevState".toList, orNull State.encode e.prevState),
    ("newState".toList, e.newState.encode)]

/-- `Deserialize for StateTransitionEvent`, types.rs 98-105. -/
def Transition.decode (ofInt : Int → F) (v : Json F) : Option (Transition F) := do
  let m ← entries ["event".toList, "prevState".toList, "newState".toList] v
  let event ← req m "event" str
  let prevState ← opt m "prevState" (State.decode ofInt)
  let newState ← req m "newState" (State.decode ofInt)
  pure { event, prevState, newState }

/-- `Serialize for StateFailureEvent`, types.rs 109-114. -/
def Failure.encode (e : Failure F) : Json F :=
  .obj [("event".toList, .str e.event), ("failedState".toList, e.failedState.encode)]

/-- `Deserialize for StateFailureEvent`, types.rs 109-114. -/
def Failure.decode (ofInt : Int → F) (v : Json F) : Option (Failure F) := do
  let m ← entries ["event".toList, "failedState".toList] v
  let event ← req m "event" str
  let failedState ← req m "failedState" (State.decode ofInt)
  pure { event, failedState }

/-- `Serialize for StateRetryEvent`, types.rs 118-125. -/
def Retry.encode (e : Retry F) : Json F :=
  .obj [("event".toList, .str e.event), ("retryState".toList, e.retryState.encode),
    ("prevAttemptStates".toList, .arr (encodeStates e.prevAttemptStates))]

/-- `Deserialize for StateRetryEvent`, types.rs 118-125. -/
def Retry.decode (ofInt : Int → F) (v : Json F) : Option (Retry F) := do
  let m ← entries ["event".toList, "retryState".toList, "prevAttemptStates".toList] v
  let event ← req m "event" str
  let retryState ← req m "retryState" (State.decode ofInt)
  let prevAttemptStates ← req m "prevAttemptStates" (list (State.decode ofInt))
  pure { event, retryState, prevAttemptStates }

/-- `Serialize for ExecutionCompleteEvent`, types.rs 128-133. -/
def Complete.encode (e : Complete F) : Json F :=
  .obj [("event".toList, .str e.event), ("completeExecution".toList, e.completeExecution.encode)]

/-- `Deserialize for ExecutionCompleteEvent`, types.rs 128-133. -/
def Complete.decode (ofInt : Int → F) (v : Json F) : Option (Complete F) := do
  let m ← entries ["event".toList, "completeExecution".toList] v
  let event ← req m "event" str
  let completeExecution ← req m "completeExecution" (Execution.decode ofInt)
  pure { event, completeExecution }

/-- `Serialize for WorkflowExecutionEvent`, types.rs 88-94: an object with the name of the variant. It is
the data of the server-sent event, application.rs 260-263. -/
def Event.encode : Event F → Json F
  | .stateTransition e => .obj [("StateTransition".toList, e.encode)]
  | .stateFailure e => .obj [("StateFailure".toList, e.encode)]
  | .stateRetry e => .obj [("StateRetry".toList, e.encode)]
  | .executionComplete e => .obj [("ExecutionComplete".toList, e.encode)]

/-! ## What the state machine sends -/

/-- What the topic `Workflow` leaves out of records: the id and the time of the start of the
execution, and durations. -/
structure Rest (F : Type) where
  id : Str
  started : Nat
  duration : Workflow.Rec F → Option F
  seconds : Nat → F

/-- The text of an error, state_machine.rs 1185-1186. -/
def errorText (env : Workflow.Env G F) (e : Str × Str × Workflow.Msg) : Str :=
  "Error executing state \"".toList ++ e.1 ++ "\" [".toList ++ e.2.1 ++ "]: ".toList ++ env.text e.2.2

/-- `status_detail`: application.rs 195, state_machine.rs 695 and 1183-1184. -/
def detailText (env : Workflow.Env G F) : Workflow.Detail → Str
  | .preparing => "The execution is currently being prepared".toList
  | .executing s => "Executing state: ".toList ++ s
  | .error s n m => errorText env (s, n, m)

mutual
/-- A record as the type that is serialised: workflow_executions.rs 137-157. -/
def toState (env : Workflow.Env G F) (x : Rest F) : Workflow.Rec F → State F
  | ⟨name, kind, parent, input, status, attempt, error, parallel, rawOutput, output, started,
      completed⟩ =>
    ⟨name, kind, parent, input, started.toNat, completed.map Int.toNat,
      x.duration ⟨name, kind, parent, input, status, attempt, error, parallel, rawOutput, output,
        started, completed⟩, status, attempt, error.map (errorText env),
      toBranches env x parallel, rawOutput, output⟩

/-- The records of branches: line 153. -/
def toBranches (env : Workflow.Env G F) (x : Rest F) :
    List (List (Workflow.Rec F)) → List (List (State F))
  | [] => []
  | b :: bs => toStates env x b :: toBranches env x bs

/-- The records of one branch: line 153. -/
def toStates (env : Workflow.Env G F) (x : Rest F) : List (Workflow.Rec F) → List (State F)
  | [] => []
  | r :: rs => toState env x r :: toStates env x rs
end

/-- The execution as the type that is serialised: workflow_executions.rs 120-133. -/
def toExecution (env : Workflow.Env G F) (x : Rest F) (e : Workflow.Exec F) : Execution F where
  id := x.id
  input := e.input
  output := e.output
  started := x.started
  completed := e.completed.map Int.toNat
  duration := e.duration.map x.seconds
  status := e.status
  statusDetail := detailText env e.detail
  currentState := e.current
  states := e.states.map (toState env x)

/-- The events sent: state_machine.rs 732-741, 842-850, 1254-1260 and 1265-1270. -/
def toEvent (env : Workflow.Env G F) (x : Rest F) : Workflow.Event F → Event F
  | .transition prev r => .stateTransition
      ⟨"stateTransition".toList, prev.map (toState env x), toState env x r⟩
  | .failure r => .stateFailure ⟨"stateFailed".toList, toState env x r⟩
  | .complete e => .executionComplete ⟨"workflowExecutionComplete".toList, toExecution env x e⟩

/-! ## Starting executions -/

/-- `struct RunHandlerPayload`, application.rs 169-173. -/
structure RunRequest (F : Type) where
  executionName : Option Str
  input : Json F

/-- `Deserialize for RunHandlerPayload`, application.rs 168-173. -/
def RunRequest.decode (v : Json F) : Option (RunRequest F) := do
  let m ← entries ["executionName".toList, "input".toList] v
  let executionName ← opt m "executionName" str
  let input ← req m "input" any
  pure { executionName, input }

/-- An answer: the status and the body, as JSON or as another text. -/
structure Answer (F : Type) where
  status : Nat
  body : Json F ⊕ Str

/-- `run_handler`, application.rs 175-243: the answer and the store. `body` is the body if it is JSON;
the extractor of axum refuses everything else. `saves` is whether the store can save. -/
def run {D S : Type} (s : ExecStore.Store (Json F) D S) (saves : Bool) (uuid : String) (now : Nat)
    (body : Option (Json F)) : ExecStore.Store (Json F) D S × Answer F :=
  match body with
  | none => (s, ⟨400, .inr "Failed to parse the request body as JSON".toList⟩)
  | some v =>
    match RunRequest.decode v with
    | none => (s, ⟨422, .inr "Failed to deserialize the JSON body into the target type".toList⟩)
    | some r =>
      if saves then
        let x := ExecStore.runHandler s (r.executionName.map String.ofList) uuid now r.input
        (x.1, ⟨200, .inl (.obj [("id".toList, .str x.2.toList)])⟩)
      else (s, ⟨500, .inr "an unexpected error occurred".toList⟩)

end Verif.FlowApi
