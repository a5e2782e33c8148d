import Verif.Base

/-!
# Model of the lock on the handlers of workflow states

`execute_step` (`libs/runtime/workflow/src/state_machine.rs` lines 325-401) takes the read lock of
`state_handlers` (line 335) and keeps the guard until it returns. It returns after
`handle_state_success` (lines 404-454) has executed all of the states that follow (lines 433-441), so
that the guards of all successful steps of an execution are held until its end; the guard of a step
that failed is dropped before the retry or the catch rule (`execute_state_and_handle_error`, lines
86-187).

The lock is the `RwLock` of tokio (`libs/runtime/workflow/src/types.rs` line 58): who has to wait
stands in a queue, and nobody gets the lock before those that stand in the queue already. The guards
are counted per thread instead of in the lock. An execution with the branches of a parallel state is
left out: a thread executes one state after the other. Handlers and the store take any number of steps
of the other threads, but return.
-/

namespace Verif.Workflow.Lock

/-- The states that an execution comes by, as the handlers make them. -/
inductive Run
  /-- The end of the execution. -/
  | stop
  /-- A step whose handler succeeds, and what follows: lines 375-388 and 433-441. -/
  | step (rest : Run)
  /-- A step that fails (lines 340-373 and 389-400) and what follows it: lines 108-187. -/
  | failed (rest : Run)
  /-- A state that calls no handler, and what follows. -/
  | other (rest : Run)

/-- What threads do with the lock. -/
inductive Act
  | read
  | write
  | work
  | dropRead
  | dropWrite
  deriving DecidableEq

/-- What an execution does with the lock. -/
def script : Run → List Act
  | .stop => []
  | .step rest => .read :: .work :: (script rest ++ [.dropRead])
  | .failed rest => .read :: .work :: .dropRead :: script rest
  | .other rest => .work :: script rest

/-- The registration of a handler: what `register_workflow_state_handler` (application.rs lines
156-165) does, with the lock that the state machine uses. -/
def registration : List Act := [.write, .work, .dropWrite]

/-- A thread: what is left to do, the read guards it holds, whether it holds the write guard, whether
it waits in the queue. -/
structure Thread where
  todo : List Act
  held : Nat
  writing : Bool
  waiting : Bool
  deriving DecidableEq

/-- All threads and the queue of the lock. -/
structure Conf where
  threads : List Thread
  queue : List Nat

/-- Whether the lock can be had at once: readers need no writer, a writer needs nobody. -/
def Conf.free (c : Conf) : Act → Bool
  | .read => c.threads.all (fun t => !t.writing)
  | .write => c.threads.all (fun t => !t.writing && t.held == 0)
  | _ => true

/-- Whether something takes the lock. -/
def Act.takes : Act → Bool
  | .read => true
  | .write => true
  | _ => false

/-- A thread after its next action, with the rest that is left. -/
def Thread.did (t : Thread) (a : Act) (rest : List Act) : Thread :=
  match a with
  | .read => ⟨rest, t.held + 1, t.writing, false⟩
  | .write => ⟨rest, t.held, true, false⟩
  | .work => ⟨rest, t.held, t.writing, false⟩
  | .dropRead => ⟨rest, t.held - 1, t.writing, false⟩
  | .dropWrite => ⟨rest, t.held, false, false⟩

/-- What can happen next: an action that takes no lock; the lock taken at once, as nobody waits; a place
in the queue; the lock given to the first of the queue. -/
inductive Step : Conf → Conf → Prop
  | act (c : Conf) (i : Nat) (t : Thread) (a : Act) (rest : List Act) : c.threads[i]? = some t →
    t.waiting = false → t.todo = a :: rest → a.takes = false →
    Step c ⟨c.threads.set i (t.did a rest), c.queue⟩
  | take (c : Conf) (i : Nat) (t : Thread) (a : Act) (rest : List Act) : c.threads[i]? = some t →
    t.waiting = false → t.todo = a :: rest → a.takes = true → c.queue = [] → c.free a = true →
    Step c ⟨c.threads.set i (t.did a rest), []⟩
  | wait (c : Conf) (i : Nat) (t : Thread) (a : Act) (rest : List Act) : c.threads[i]? = some t →
    t.waiting = false → t.todo = a :: rest → a.takes = true →
    ¬(c.queue = [] ∧ c.free a = true) →
    Step c ⟨c.threads.set i { t with waiting := true }, c.queue ++ [i]⟩
  | grant (c : Conf) (i : Nat) (queue : List Nat) (t : Thread) (a : Act) (rest : List Act) :
    c.queue = i :: queue → c.threads[i]? = some t → t.todo = a :: rest → c.free a = true →
    Step c ⟨c.threads.set i (t.did a rest), queue⟩

/-- A thread that has done nothing yet. -/
def Thread.new (todo : List Act) : Thread := ⟨todo, 0, false, false⟩

/-- Executions and registrations at the beginning. -/
def start (runs : List Run) (registrations : Nat) : Conf :=
  ⟨runs.map (fun r => .new (script r)) ++ List.replicate registrations (.new registration), []⟩

/-- What can be reached. -/
inductive Reach (runs : List Run) (registrations : Nat) : Conf → Prop
  | start : Reach runs registrations (start runs registrations)
  | step (c c' : Conf) : Reach runs registrations c → Step c c' → Reach runs registrations c'

end Verif.Workflow.Lock
