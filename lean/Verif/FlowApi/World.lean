import Verif.FlowApi.Model
import Verif.ExecStore.Model
import Verif.Workflow.Model

/-!
# Model of a server with any number of executions

`libs/runtime/workflow/src/application.rs` and `libs/runtime/workflow/src/state_machine.rs`: the store and
the channel of events are shared by all executions, everything else belongs to one of them. One step of
a state machine is as in the topic `Workflow`; the handlers and the clock of an execution may answer it
as they like. Left out: that a save takes two locks (the topic `ExecStore` has it), and the lock on the
handlers (`Verif.Workflow.Lock`).
-/

namespace Verif.FlowApi

open Verif

variable {G F : Type}

/-- A state machine that was started (`state_machine.rs` 40-76) with what it was started with. -/
structure Machine (G F : Type) where
  id : String
  env : Workflow.Env G F
  rest : Rest F
  input : Json F
  conf : Workflow.S F × Workflow.Proc G F

/-- The shared part of `WorkflowAppState` (`types.rs` 55-63): the store of executions and
everything that was sent to the channel of events, the oldest first. That the sender of an event is
remembered is only for the sake of the theorems. -/
structure World (G F : Type) where
  machines : List (Machine G F)
  store : ExecStore.Store (Json F) F (State F)
  sent : List (String × Event F)

/-- Nothing was started. -/
def World.new : World G F := ⟨[], .new, []⟩

/-- The statuses of the store are those of the state machine (`workflow_executions.rs` 161-171). -/
def storeStatus : Workflow.Status → ExecStore.Status
  | .preparing => .preparing
  | .inProgress => .inProgress
  | .failed => .failed
  | .succeeded => .succeeded

/-- What the state machine gives to the store (`state_machine.rs` 706-715, 774-783, 814-823 and
1221-1230). -/
def Machine.payload (m : Machine G F) (e : Workflow.Exec F) : ExecStore.Payload (Json F) F (State F) where
  input := e.input
  started := m.rest.started
  completed := e.completed.map Int.toNat
  duration := e.duration.map m.rest.seconds
  status := storeStatus e.status
  statusDetail := String.ofList (detailText m.env e.detail)
  currentState := e.current.map String.ofList
  states := e.states.map (toState m.env m.rest)

/-- What an action of a state machine does to what is shared. -/
def World.effect (m : Machine G F) (x : Workflow.Entry F) (w : World G F) : World G F :=
  match x with
  | .saved e => { w with store := (w.store.save m.id (m.payload e)).1 }
  | .event ev => { w with sent := w.sent ++ [(m.id, toEvent m.env m.rest ev)] }
  | _ => w

/-- `run_handler` (`application.rs` 175-243) when saving succeeds: the execution is stored and a state
machine is started with it. -/
def World.start (w : World G F) (name : Option String) (uuid : String) (now : Nat) (input : Json F)
    (env : Workflow.Env G F) (x : Rest F) : World G F :=
  let (store, id) := ExecStore.runHandler w.store name uuid now input
  { w with
    machines := w.machines ++
      [⟨id, env, { x with id := id.toList, started := now }, input, Workflow.start env input⟩]
    store }

/-- One step of the server. -/
inductive World.Step [DecidableEq F] : World G F → World G F → Prop
  | start (w : World G F) (name : Option String) (uuid : String) (now : Nat) (input : Json F)
    (env : Workflow.Env G F) (x : Rest F) : World.Step w (w.start name uuid now input env x)
  | machine (w : World G F) (before after : List (Machine G F)) (m : Machine G F)
    (c : Workflow.S F × Workflow.Proc G F) (new : List (Workflow.Entry F)) :
    w.machines = before ++ m :: after → Workflow.Step m.env m.conf c → c.1.log = new ++ m.conf.1.log →
    World.Step w { new.foldr (World.effect m) w with machines := before ++ { m with conf := c } :: after }

/-- What can happen. -/
inductive World.Reach [DecidableEq F] : World G F → Prop
  | new : World.Reach .new
  | step (w w' : World G F) : World.Reach w → World.Step w w' → World.Reach w'

end Verif.FlowApi
