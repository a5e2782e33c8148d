import Verif.Assoc

/-!
# Model of the in-memory store of workflow executions and of the workflow API around it

`libs/runtime/workflow/src/workflow_executions.rs` and the handlers in
`libs/runtime/workflow/src/application.rs`. `J` are JSON values, `D` durations and `S` the records of
single states. Hash maps are association lists. The run of the state machine itself is the topic
`Workflow`.
-/

namespace Verif.ExecStore

/-- `WorkflowExecutionStatus` (`workflow_executions.rs` 159-170). -/
inductive Status
  | preparing | inProgress | failed | succeeded
  deriving DecidableEq, Repr

/-- `SaveWorkflowExecutionPayload` (`workflow_executions.rs` 107-116). -/
structure Payload (J D S : Type) where
  input : J
  started : Nat
  completed : Option Nat
  duration : Option D
  status : Status
  statusDetail : String
  currentState : Option String
  states : List S
  deriving DecidableEq

/-- `WorkflowExecution` (`workflow_executions.rs` 117-132). -/
structure Execution (J D S : Type) where
  id : String
  input : J
  output : Option J
  started : Nat
  completed : Option Nat
  duration : Option D
  status : Status
  statusDetail : String
  currentState : Option String
  states : List S
  deriving DecidableEq

/-- `MemoryWorkflowExecutionService` (`workflow_executions.rs` 176-180). -/
structure Store (J D S : Type) where
  executions : List (String × Execution J D S)
  ids : List String

variable {J D S : Type}

/-- `new` (`workflow_executions.rs` 184-189). -/
def Store.new : Store J D S := ⟨[], []⟩

/-- The record that is saved (`workflow_executions.rs` 199-210). -/
def record (id : String) (p : Payload J D S) : Execution J D S where
  id := id
  input := p.input
  output := none
  started := p.started
  completed := p.completed
  duration := p.duration
  status := p.status
  statusDetail := p.statusDetail
  currentState := p.currentState
  states := p.states

/-- The first half of a save: the map, under its own lock (`workflow_executions.rs` 211-214). -/
def Store.insert (s : Store J D S) (id : String) (p : Payload J D S) : Store J D S :=
  { s with executions := (id, record id p) :: s.executions.filter fun kv => kv.1 != id }

/-- The second half: the list of ids, under another lock (`workflow_executions.rs` 216-224). -/
def Store.push (s : Store J D S) (id : String) : Store J D S :=
  if id ∈ s.ids then s else { s with ids := s.ids ++ [id] }

/-- `save_workflow_execution` (`workflow_executions.rs` 194-226) without interruption. -/
def Store.save (s : Store J D S) (id : String) (p : Payload J D S) : Store J D S × Execution J D S :=
  ((s.insert id p).push id, record id p)

/-- `get_workflow_execution` (`workflow_executions.rs` 228-241); `none` is `NotFound`. -/
def Store.get (s : Store J D S) (id : String) : Option (Execution J D S) := s.executions.lookup id

/-- `get_latest_workflow_executions` (`workflow_executions.rs` 243-274). -/
def Store.latest (s : Store J D S) (limit : Nat) : List (Execution J D S) :=
  let size := if limit > s.ids.length then s.ids.length else limit
  let resultIds := (s.ids.reverse.take size).reverse
  resultIds.filterMap fun id => s.executions.lookup id

/-! ## The API -/

/-- `run_handler` (`application.rs` 175-243) up to the start of the state machine: the id it answers
with and the store. `uuid` is the generated id. -/
def runHandler (s : Store J D S) (name : Option String) (uuid : String) (now : Nat) (input : J) :
    Store J D S × String :=
  let id := name.getD uuid
  let payload : Payload J D S :=
    ⟨input, now, none, none, .preparing, "The execution is currently being prepared", none, []⟩
  ((s.save id payload).1, id)

/-- `get_execution_handler` (`application.rs` 245-250): the JSON value `null`. -/
def getExecutionHandler (_s : Store J D S) (_id : String) : Option (Execution J D S) := none

/-- `get_executions_handler` (`application.rs` 252-254): the JSON value `null`. -/
def getExecutionsHandler (_s : Store J D S) : Option (List (Execution J D S)) := none

/-! ## The stream of events -/

/-- What a subscriber gets: an event or the report that it missed some. -/
inductive Item (E : Type)
  | event (e : E)
  | lagged (n : Nat)
  deriving DecidableEq, Repr

/-- The broadcast channel of `tokio` with one subscriber: everything sent so far, the position of the
subscriber and what it got. -/
structure Stream (E : Type) where
  log : List E
  pos : Nat
  out : List (Item E)

/-- `execution_stream_handler` (`application.rs` 256-269): subscribes; the id in the path is not
used. -/
def openStream {E : Type} (log : List E) (_id : String) : Stream E := ⟨log, log.length, []⟩

/-- The broadcaster sends (`state_machine.rs`). -/
def Stream.send {E : Type} (s : Stream E) (e : E) : Stream E := { s with log := s.log ++ [e] }

/-- `Receiver::recv` of `tokio::sync::broadcast` for a channel that keeps `cap` events. -/
def Stream.recv {E : Type} (cap : Nat) (s : Stream E) : Stream E :=
  if s.log.length - s.pos > cap then
    { s with pos := s.log.length - cap, out := s.out ++ [.lagged (s.log.length - cap - s.pos)] }
  else
    match s.log[s.pos]? with
    | some e => { s with pos := s.pos + 1, out := s.out ++ [.event e] }
    | none => s

/-- What the client is sent (`application.rs` 260-268): a report of missed events is an error of the
stream, with which the body of the response ends (`axum::response::Sse`). -/
def clientSees {E : Type} : List (Item E) → List E
  | [] => []
  | .event e :: rest => e :: clientSees rest
  | .lagged _ :: _ => []

end Verif.ExecStore
