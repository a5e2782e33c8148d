import Verif.Base
import Verif.Json
import Verif.Text
import Verif.Payload.Model

/-!
# Model of the workflow state machine

`libs/runtime/workflow/src/state_machine.rs` and `libs/runtime/workflow/src/helpers.rs` lines 9-32.

The asynchronous functions are cut into atomic steps at the places where they release the lock on
the execution or wait for something: a task is what is left to do of a call of
`execute_state_and_handle_error`. Nothing is done with the result of the recursive calls for the
next state, a retry or a caught error, so that a task needs no stack; the value that the outermost
call is going to return is kept in the task. The branches of a parallel state are tasks of their own,
which run interleaved in any order.

Handlers, the store and the clock may respond in any way that depends on everything that happened
before: they are functions of the log. Payload templates are those of `Verif.Payload`. The time of
the start of the execution and the durations of states are left out. Floating point numbers of retry delays are exact rational
numbers with infinities. Attempt numbers are not bounded to 32 bits, intervals not to 64 bits.
-/

namespace Verif.Workflow

open Payload (Node)

/-- Names of states and errors, paths, texts. -/
abbrev Name := List Char

/-- `CelerityWorkflowStateType`: blueprint.rs lines 945-974. -/
inductive Kind
  | executeStep
  | pass
  | parallel
  | wait
  | decision
  | failure
  | success
  | unknown
  deriving DecidableEq

/-- `CelerityWorkflowRetryConfig`: blueprint.rs lines 914-930. -/
structure Retry where
  matchErrors : List Name
  interval : Option Int := none
  maxAttempts : Option Int := none
  maxDelay : Option Int := none
  jitter : Option Bool := none
  backoffRate : Option Rat := none
  deriving DecidableEq

/-- `CelerityWorkflowCatchConfig`: blueprint.rs lines 934-941. -/
structure Catch where
  matchErrors : List Name
  next : Name
  resultPath : Option Name := none
  deriving DecidableEq

/-- `CelerityWorkflowWaitConfig`: blueprint.rs lines 879-890. -/
structure Wait where
  seconds : Option Name := none
  timestamp : Option Name := none
  deriving DecidableEq

/-- `CelerityWorkflowState`: blueprint.rs lines 789-829, without the fields that the state machine does
not read. A branch (lines 906-910) is a pair of `startAt` and `states`. -/
structure State (G : Type) where
  kind : Kind
  inputPath : Option Name := none
  resultPath : Option Name := none
  outputPath : Option Name := none
  template : Option (List (Name × Node G)) := none
  next : Option Name := none
  isEnd : Option Bool := none
  waitConfig : Option Wait := none
  branches : Option (List (Name × List (Name × State G))) := none
  retry : Option (List Retry) := none
  catchers : Option (List Catch) := none

/-- `WorkflowExecutionStatus`: workflow_executions.rs lines 162-171. -/
inductive Status
  | preparing
  | inProgress
  | failed
  | succeeded
  deriving DecidableEq

/-- The messages of errors. -/
inductive Msg
  | text (t : List Char)
  | handler (name message : List Char)
  deriving DecidableEq

/-- `WorkflowExecutionState`: workflow_executions.rs lines 137-157. The text of an error is represented
by the names and the message it is made of. The duration is left out. -/
structure Rec (F : Type) where
  name : Name
  kind : Kind
  parent : Option Name
  input : Json F
  status : Status
  attempt : Nat
  error : Option (Name × Name × Msg)
  parallel : List (List (Rec F))
  rawOutput : Option (Json F)
  output : Option (Json F)
  started : Int
  completed : Option Int

/-- `status_detail`. -/
inductive Detail
  | preparing
  | executing (state : Name)
  | error (state name : Name) (msg : Msg)
  deriving DecidableEq

/-- `WorkflowExecution`: workflow_executions.rs lines 120-133. -/
structure Exec (F : Type) where
  input : Json F
  output : Option (Json F)
  status : Status
  detail : Detail
  current : Option Name
  states : List (Rec F)
  completed : Option Int
  /-- In milliseconds. -/
  duration : Option Nat

/-- `WorkflowExecutionEvent`: types.rs lines 89-94. -/
inductive Event (F : Type)
  | transition (prev : Option (Rec F)) (new : Rec F)
  | failure (state : Rec F)
  | complete (exec : Exec F)

/-- What can be observed from outside. -/
inductive Entry (F : Type)
  | called (state : Name) (payload : Json F)
  | saved (e : Exec F)
  | notSaved (e : Exec F)
  | event (e : Event F)
  | slept (ms : Nat)

/-- `WorkflowStateHandlerError`: handlers.rs lines 62-65. -/
structure HandlerErr where
  name : Name
  message : List Char

/-- The workflow and its environment. The log has the most recent entry first. -/
structure Env (G F : Type) where
  startAt : Name
  states : List (Name × State G)
  /-- `state_handlers` has a handler for the state. -/
  hasHandler : Name → Bool
  /-- What the handler of a state returns. -/
  handler : List (Entry F) → Name → Json F → Outcome HandlerErr (Json F)
  /-- Whether `save_workflow_execution` succeeds. -/
  save : List (Entry F) → Exec F → Bool
  template : Payload.Ext G F
  /-- `clock.now_millis()` -/
  now : List (Entry F) → Int
  /-- `full_duration_instant.elapsed()`, in milliseconds. -/
  elapsed : List (Entry F) → Nat
  /-- `DateTime::parse_from_rfc3339`, in nanoseconds. -/
  timestamp : List Char → Option Int
  /-- `gen_range(0.0..x)` -/
  rand : List (Entry F) → Rat → Rat
  /-- The text of a message. -/
  text : Msg → List Char

/-- `StateMachineError`: lines 1731-1742. -/
inductive ErrKind
  | persistFailed
  | stateNotFound
  | invalidState
  | handlerFailed
  | branchesFailed
  | inputPath
  | resultPath
  | outputPath
  | templateFailure
  | templateInvalid
  deriving DecidableEq

/-- `WorkflowStateErrorInfo`: lines 1819-1825. -/
structure Info where
  state : Name
  parent : Option Name
  name : Option Name
  msg : Msg
  deriving DecidableEq

/-- An error with its information. -/
structure Fail where
  kind : ErrKind
  info : Info
  deriving DecidableEq

/-- The execution and the log. -/
structure S (F : Type) where
  exec : Exec F
  log : List (Entry F)

variable {G F : Type}

/-! ## Configuration -/

/-- `find_parallel_child_state_config`: lines 1380-1424. The branches are searched in order. -/
def childConfig (parentName : Name) (parent : State G) (name : Name) : Except Fail (State G) :=
  match parent.kind with
  | .parallel =>
    match parent.branches with
    | some bs =>
      match bs.findSome? (fun b => b.2.lookup name) with
      | some c => .ok c
      | none => .error ⟨.stateNotFound, name, some parentName, none, .text ['s']⟩
    | none => .error ⟨.stateNotFound, name, some parentName, none, .text ['p']⟩
  | _ => .error ⟨.invalidState, name, some parentName, none, .text ['n']⟩

/-- `derive_state_config`: lines 641-682. -/
def config (env : Env G F) (name : Name) : Option Name → Except Fail (State G)
  | some parentName =>
    match env.states.lookup parentName with
    | some p => childConfig parentName p name
    | none => .error ⟨.stateNotFound, name, some parentName, none, .text ['q']⟩
  | none =>
    match env.states.lookup name with
    | some c => .ok c
    | none => .error ⟨.stateNotFound, name, none, none, .text ['r']⟩

/-- `error_matches`: lines 1650-1656. -/
def errorMatches (error : Name) (names : List Name) : Bool :=
  names.contains ['*'] || names.contains error

/-- `derive_final_error_name`: lines 1658-1673. -/
def finalName (info : Info) (fallback : Name) : Name :=
  match info.name with
  | some n => if n = [] then fallback else n
  | none => fallback

/-! ## Records -/

/-- `find_parallel_child_state`: lines 1480-1496. -/
def findChild (r : Rec F) (name : Name) : Option (Rec F) :=
  match r.kind with
  | .parallel => r.parallel.findSome? (fun b => b.find? (fun c => c.name = name))
  | _ => none

/-- `extract_state_from_workflow_execution`: lines 1444-1460. -/
def findRec (name : Name) : Option Name → List (Rec F) → Option (Rec F)
  | _, [] => none
  | none, r :: rs => if r.name = name then some r else findRec name none rs
  | some p, r :: rs => if p = r.name then findChild r name else findRec name (some p) rs

/-- Changes the first record with a name. -/
def updFirst (f : Rec F → Rec F) (name : Name) : List (Rec F) → Option (Rec F × List (Rec F))
  | [] => none
  | r :: rs =>
    if r.name = name then some (f r, f r :: rs)
    else (updFirst f name rs).map (fun x => (x.1, r :: x.2))

/-- Changes the first record with a name in the first branch that has one. -/
def updBranches (f : Rec F → Rec F) (name : Name) :
    List (List (Rec F)) → Option (Rec F × List (List (Rec F)))
  | [] => none
  | b :: bs =>
    match updFirst f name b with
    | some (r, b') => some (r, b' :: bs)
    | none => (updBranches f name bs).map (fun x => (x.1, b :: x.2))

/-- `find_parallel_child_state_mut`: lines 1462-1478. -/
def updChild (f : Rec F → Rec F) (name : Name) (r : Rec F) : Option (Rec F × Rec F) :=
  match r.kind with
  | .parallel =>
    (updBranches f name r.parallel).map (fun x => (x.1, { r with parallel := x.2 }))
  | _ => none

/-- `extract_state_from_workflow_execution_mut` (lines 1426-1442) and a change of the record: the
changed record and all records. -/
def updRec (f : Rec F → Rec F) (name : Name) :
    Option Name → List (Rec F) → Option (Rec F × List (Rec F))
  | none, rs => updFirst f name rs
  | some _, [] => none
  | some p, r :: rs =>
    if p = r.name then (updChild f name r).map (fun x => (x.1, x.2 :: rs))
    else (updRec f name (some p) rs).map (fun x => (x.1, r :: x.2))

/-! ## Observable actions -/

/-- `save_workflow_execution` -/
def S.save (env : Env G F) (s : S F) (e : Exec F) : Bool × S F :=
  if env.save s.log e then (true, { s with log := .saved e :: s.log })
  else (false, { s with log := .notSaved e :: s.log })

/-- `event_broadcaster.send` -/
def S.send (s : S F) (e : Event F) : S F := { s with log := .event e :: s.log }

/-! ## Delays -/

/-- The floating point numbers that can occur: lines 9-32 of helpers.rs. -/
inductive Delay
  | fin (q : Rat)
  | inf
  | negInf
  | nan

/-- `interval_ms as f64 * multiplier.powf(retry_attempt as f64)`: line 20 of helpers.rs. -/
def backoff (intervalMs : Int) (rate : Rat) (attempt : Int) : Delay :=
  if rate = 0 ∧ attempt < 0 then
    if intervalMs = 0 then .nan else if intervalMs < 0 then .negInf else .inf
  else .fin ((intervalMs : Rat) * rate ^ attempt)

/-- `f64::min` with a finite number. -/
def Delay.min (d : Delay) (m : Rat) : Delay :=
  match d with
  | .fin q => if q ≤ m then .fin q else .fin m
  | .inf => .fin m
  | .negInf => .negInf
  | .nan => .fin m

/-- `as u64` -/
def toU64 (q : Rat) : Nat := if q < 0 then 0 else Nat.min q.floor.toNat (2 ^ 64 - 1)

/-- `as u64` -/
def Delay.toU64 : Delay → Nat
  | .fin q => Workflow.toU64 q
  | .inf => 2 ^ 64 - 1
  | .negInf => 0
  | .nan => 0

/-- Lines 22-24 of helpers.rs. -/
def Delay.cap (d : Delay) : Option Int → Delay
  | some m => d.min ((m : Rat) * 1000)
  | none => d

/-- `calculate_retry_wait_time_ms` with the defaults of consts.rs lines 10 and 14: helpers.rs lines
9-32. `none` is a panic of `gen_range` for an empty or unbounded range. -/
def waitMs (rand : Rat → Rat) (c : Retry) (attempt : Int) : Option Nat :=
  let d := (backoff (c.interval.getD 3 * 1000) (c.backoffRate.getD 2) attempt).cap c.maxDelay
  if c.jitter.getD false then
    match d with
    | .fin q => if 0 < q then some (toU64 (rand q)) else none
    | _ => none
  else some d.toU64

/-! ## Waiting -/

/-- `wait_time_from_timestamp`: lines 1621-1648. -/
def waitUntil (env : Env G F) (now : Int) (t : List Char) : Except Fail Nat :=
  match env.timestamp t with
  | none => .error ⟨.invalidState, ['u', 'n', 'k', 'n', 'o', 'w', 'n'], none, none, .text ['t']⟩
  | some ns =>
    if (ns - now * 1000000).tdiv 1000000000 < 0 then
      .error ⟨.invalidState, ['u', 'n', 'k', 'n', 'o', 'w', 'n'], none, none, .text ['f']⟩
    else .ok ((ns - now * 1000000).tdiv 1000000000).toNat

/-- `derive_wait_time_from_seconds_field`: lines 1532-1581. -/
def waitSeconds (env : Env G F) (name : Name) (input : Json F) (secs : List Char) :
    Except Fail Nat :=
  if secs.head? = some '$' then
    match env.template.parser.path secs with
    | none => .error ⟨.templateInvalid, name, none, none, .text ['j']⟩
    | some p =>
      match TmplFuncs.asU64 (env.template.find p input) with
      | some n => .ok n
      | none => .error ⟨.invalidState, name, none, none, .text ['i']⟩
  else
    match Text.parseUnsigned (2 ^ 64) secs with
    | some n => .ok n
    | none => .error ⟨.invalidState, name, none, none, .text ['i']⟩

/-- `derive_wait_time_from_timestamp_field`: lines 1583-1619. -/
def waitTimestamp (env : Env G F) (name : Name) (input : Json F) (now : Int) (t : List Char) :
    Except Fail Nat :=
  if t.head? = some '$' then
    match env.template.parser.path t with
    | none => .error ⟨.templateInvalid, name, none, none, .text ['j']⟩
    | some p =>
      match env.template.find p input with
      | .str u => waitUntil env now u
      | _ => .error ⟨.invalidState, name, none, none, .text ['g']⟩
  else waitUntil env now t

/-- `derive_wait_time_seconds`: lines 1498-1530. -/
def waitTime (env : Env G F) (name : Name) (w : Wait) (input : Json F) (now : Int) :
    Except Fail Nat :=
  match w.seconds with
  | some secs => waitSeconds env name input secs
  | none =>
    match w.timestamp with
    | some t => waitTimestamp env name input now t
    | none => .error ⟨.invalidState, name, none, none, .text ['v']⟩

/-! ## Input and output -/

/-- `prepare_state_input`: lines 1308-1333. -/
def stateInput (env : Env G F) (name : Name) (parent : Option Name) (c : State G)
    (input : Json F) : Except Fail (Json F) :=
  match c.inputPath with
  | none => .ok input
  | some p =>
    match Payload.extract env.template input p with
    | .ok v => .ok v
    | _ => .error ⟨.inputPath, name, parent, some "InvalidInputPath".toList, .text ['e']⟩

/-- `prepare_state_output`: lines 1335-1378. -/
def stateOutput (env : Env G F) (name : Name) (parent : Option Name) (c : State G)
    (input output : Json F) : Except Fail (Json F) :=
  match c.resultPath with
  | some p =>
    match Payload.inject env.template input p output with
    | .ok v => .ok v
    | _ => .error ⟨.resultPath, name, parent, some "InvalidResultPath".toList, .text ['o']⟩
  | none =>
    match c.outputPath with
    | some p =>
      match Payload.extract env.template output p with
      | .ok v => .ok v
      | _ => .error ⟨.outputPath, name, parent, some "InvalidOutputPath".toList, .text ['x']⟩
    | none => .ok output

/-- The value injected for a caught error: lines 1286-1289. -/
def errorValue (env : Env G F) (info : Info) : Json F :=
  .obj [(['c', 'a', 'u', 's', 'e'], .str (env.text info.msg)),
    (['e', 'r', 'r', 'o', 'r'], match info.name with
      | some n => .str n
      | none => .null)]

/-- `prepare_input_from_catch`: lines 1274-1306. -/
def catchInput (env : Env G F) (c : Catch) (info : Info) (input : Json F) :
    Except Info (Json F) :=
  match c.resultPath with
  | none => .ok input
  | some p =>
    match Payload.inject env.template input p (errorValue env info) with
    | .ok v => .ok v
    | _ => .error ⟨info.state, info.parent, some "InvalidResultPath".toList, .text ['c']⟩

/-! ## Tasks -/

/-- What follows after an error was recorded. -/
inductive After (F : Type)
  | stop
  | retry (info : Info) (input : Json F) (rule : Retry) (attempts : Int)
  | catchErr (info : Info) (input : Json F) (rules : Option (List Catch))

/-- What is left to do. -/
inductive Task (G F : Type)
  /-- `execute_state`: lines 196-260. -/
  | run (name : Name) (input : Json F) (prev : Option (Rec F)) (parent : Option Name)
  /-- The `match` on the type of state: lines 262-322. -/
  | exec (name : Name) (r : Rec F) (c : State G) (input : Json F) (parent : Option Name)
  /-- `handle_state_success`: lines 404-454. -/
  | finish (name : Name) (parent : Option Name) (c : State G) (r : Rec F) (input output : Json F)
  /-- `record_completed_workflow_execution`: lines 798-853, called at line 443. -/
  | complete (input final : Json F)
  /-- The `match` on the error: lines 94-187. -/
  | fail (e : Fail) (input : Json F)
  /-- `record_error` up to line 1213. -/
  | record (info : Info) (name : Name) (persist continues : Bool) (after : After F)
  /-- `record_error`: lines 1215-1243. -/
  | persist (e : Exec F) (r : Rec F) (persist continues : Bool) (after : After F)
  /-- `record_error`: lines 1245-1271. -/
  | announce (e : Exec F) (r : Rec F) (continues : Bool) (after : After F)
  /-- `retry_or_catch`: lines 967-1014. -/
  | next (after : After F)

/-- A parallel state that waits for its branches. -/
structure Joining (G F : Type) where
  name : Name
  r : Rec F
  c : State G
  input : Json F
  ret : Option (Option (Json F))

/-- Tasks running concurrently. `ret` is the value that the outermost call is going to return, as
soon as it is known. -/
inductive Proc (G F : Type)
  | task (t : Task G F) (ret : Option (Option (Json F)))
  | join (j : Joining G F) (branches : List (Proc G F))
  | done (v : Option (Json F))
  | crashed

/-- Continue with an error. -/
def failWith (e : Fail) (input : Json F) (ret : Option (Option (Json F))) : Proc G F :=
  .task (.fail e input) ret

/-- Lines 207-216: the number of the attempt. -/
def attemptOf (name : Name) : Option (Rec F) → Nat
  | some p => if p.name = name then p.attempt + 1 else 1
  | none => 1

/-- Lines 239-256: the record of a state that starts. -/
def newRec (name : Name) (c : State G) (recorded : Json F) (prev : Option (Rec F)) (now : Int) :
    Rec F :=
  ⟨name, c.kind, none, recorded, .inProgress, attemptOf name prev, none, [], none, none, now, none⟩

/-- The change of `record_transition`: lines 692-695. -/
def Exec.enter (e : Exec F) (r : Rec F) : Exec F :=
  ⟨e.input, e.output, .inProgress, .executing r.name, some r.name, e.states ++ [r], e.completed,
    e.duration⟩

/-- Lines 202-260: `execute_state` up to the recorded transition, with `record_transition` (lines
684-744). -/
def stepRun (env : Env G F) (s : S F) (name : Name) (input : Json F) (prev : Option (Rec F))
    (parent : Option Name) (ret : Option (Option (Json F))) : S F × Proc G F :=
  match config env name parent with
  | .error e => (s, failWith e input ret)
  | .ok c =>
    match stateInput env name parent c input with
    | .error e => (s, failWith e input ret)
    | .ok recorded =>
      let r := newRec name c recorded prev (env.now s.log)
      match S.save env { s with exec := s.exec.enter r } (s.exec.enter r) with
      | (true, s) => (s.send (.transition prev r), .task (.exec name r c input parent) ret)
      | (false, s) =>
        (s, failWith ⟨.persistFailed, name, parent, none, .text ['w']⟩ input ret)

/-- `from_payload_template_engine_error`: lines 1675-1724. -/
def templateErr (name : Name) (parent : Option Name) : Payload.Err → Fail
  | .func _ => ⟨.templateFailure, name, parent, none, .text ['F']⟩
  | .notFound _ => ⟨.templateFailure, name, parent, none, .text ['N']⟩
  | .parse _ => ⟨.templateInvalid, name, parent, none, .text ['P']⟩
  | .jsonPath => ⟨.templateInvalid, name, parent, none, .text ['J']⟩

/-- The payload of a step: lines 353-373. -/
def payload [DecidableEq F] (env : Env G F) (c : State G) (input : Json F) :
    Outcome Payload.Err (Json F) :=
  match c.template with
  | some t => Payload.render env.template t input
  | none => .ok input

/-- `execute_step`: lines 325-401. -/
def stepStep [DecidableEq F] (env : Env G F) (s : S F) (name : Name) (r : Rec F) (c : State G)
    (input : Json F) (parent : Option Name) (ret : Option (Option (Json F))) : S F × Proc G F :=
  if env.hasHandler name then
    match payload env c input with
    | .err e => (s, failWith (templateErr name parent e) input ret)
    | .panic => (s, .crashed)
    | .ok v =>
      ({ s with log := .called name v :: s.log },
        match env.handler s.log name v with
        | .ok output => .task (.finish name parent c r input output) ret
        | .err e =>
          failWith ⟨.handlerFailed, name, parent, some e.name, .handler e.name e.message⟩ input ret
        | .panic => .crashed)
  else (s, failWith ⟨.invalidState, name, parent, none, .text ['h']⟩ input ret)

/-- `execute_parallel` up to line 532. A branch without its start state fails at once. -/
def stepParallel (s : S F) (name : Name) (r : Rec F) (c : State G) (input : Json F)
    (parent : Option Name) (ret : Option (Option (Json F))) : S F × Proc G F :=
  match c.branches with
  | none => (s, failWith ⟨.invalidState, name, parent, none, .text ['b']⟩ input ret)
  | some [] => (s, failWith ⟨.invalidState, name, parent, none, .text ['z']⟩ input ret)
  | some bs =>
    (s, .join ⟨name, r, c, input, ret⟩ (bs.map fun b =>
      match b.2.lookup b.1 with
      | some _ => .task (.run b.1 input none (some name)) none
      | none => .done none))

/-- `wait`: lines 545-585. -/
def stepWait (env : Env G F) (s : S F) (name : Name) (r : Rec F) (c : State G)
    (input : Json F) (parent : Option Name) (ret : Option (Option (Json F))) : S F × Proc G F :=
  match c.waitConfig with
  | none => (s, failWith ⟨.invalidState, name, parent, none, .text ['m']⟩ input ret)
  | some w =>
    match waitTime env name w input (env.now s.log) with
    | .error e => (s, failWith e input ret)
    | .ok secs =>
      ({ s with log := .slept (secs * 1000) :: s.log }, .task (.finish name parent c r input input) ret)

/-- Lines 262-322. The four types of states that are not implemented return `{}`. -/
def stepExec [DecidableEq F] (env : Env G F) (s : S F) (name : Name) (r : Rec F) (c : State G)
    (input : Json F) (parent : Option Name) (ret : Option (Option (Json F))) : S F × Proc G F :=
  match c.kind with
  | .executeStep => stepStep env s name r c input parent ret
  | .parallel => stepParallel s name r c input parent ret
  | .wait => stepWait env s name r c input parent ret
  | .decision => (s, .done (ret.getD (some (.obj []))))
  | .pass => (s, .done (ret.getD (some (.obj []))))
  | .success => (s, .done (ret.getD (some (.obj []))))
  | .failure => (s, .done (ret.getD (some (.obj []))))
  | .unknown => (s, failWith ⟨.invalidState, name, parent, none, .text ['u']⟩ input ret)

/-- The change of `record_completed_state`: lines 762-766. -/
def Rec.complete (now : Int) (raw final : Json F) (r : Rec F) : Rec F :=
  { r with status := .succeeded, rawOutput := some raw, output := some final, completed := some now }

/-- Lines 413-454 of `handle_state_success` with `record_completed_state` (lines 746-796). -/
def stepFinish (env : Env G F) (s : S F) (name : Name) (parent : Option Name) (c : State G)
    (r : Rec F) (input output : Json F) (ret : Option (Option (Json F))) : S F × Proc G F :=
  match stateOutput env name parent c input output with
  | .error e => (s, failWith e input ret)
  | .ok final =>
    match updRec (Rec.complete (env.now s.log) output final) name parent s.exec.states with
    | none => (s, .crashed)
    | some (_, states) =>
      match S.save env { s with exec := { s.exec with states := states } }
        { s.exec with states := states } with
      | (false, s) =>
        (s, failWith ⟨.persistFailed, name, parent, none, .text ['w']⟩ input ret)
      | (true, s) =>
        match c.next with
        | some n => (s, .task (.run n final (some r) parent) (some (ret.getD (some final))))
        | none =>
          if c.isEnd.getD false then (s, .task (.complete input final) ret)
          else (s, failWith ⟨.invalidState, name, parent, none, .text ['k']⟩ input ret)

/-- The change of `record_completed_workflow_execution`: lines 800-808. -/
def S.succeeded (env : Env G F) (s : S F) : Exec F :=
  { s.exec with
    status := .succeeded, completed := some (env.now s.log), duration := some (env.elapsed s.log) }

/-- `record_completed_workflow_execution`: lines 798-853. -/
def stepComplete (env : Env G F) (s : S F) (input final : Json F)
    (ret : Option (Option (Json F))) : S F × Proc G F :=
  let e := s.succeeded env
  match S.save env { s with exec := e } e with
  | (true, s) => (s.send (.complete e), .done (ret.getD (some final)))
  | (false, s) =>
    (s, failWith ⟨.persistFailed, ['u', 'n', 'k', 'n', 'o', 'w', 'n'], none, none, .text ['d']⟩ input ret)

/-- `check_exceeded_max_attempts`: lines 1109-1138. -/
def exceeded (s : S F) (info : Info) (rule : Option Retry) : Int × Bool :=
  match findRec info.state info.parent s.exec.states, rule with
  | some r, some c =>
    match c.maxAttempts with
    | some m => if m ≤ (r.attempt : Int) - 1 then ((r.attempt : Int), true) else (0, false)
    | none => (0, false)
  | _, _ => (0, false)

/-- `derive_state_config(..).map(|state| state.catch).unwrap_or(None)`: lines 872-879. -/
def catchersOf (env : Env G F) (info : Info) : Option (List Catch) :=
  match config env info.state info.parent with
  | .ok c => c.catchers
  | .error _ => none

/-- Lines 903-918: the first rule that matches. -/
def retryRule (env : Env G F) (info : Info) (name : Name) : Option Retry :=
  match config env info.state info.parent with
  | .ok c => (c.retry.getD []).find? (fun r => errorMatches name r.matchErrors)
  | .error _ => none

/-- `handle_retryable_error` up to the recording of the error: lines 888-945. What follows is decided
by lines 976-1013. -/
def retryable (env : Env G F) (s : S F) (info : Info) (input : Json F) (fallback : Name) :
    Task G F :=
  let name := finalName info fallback
  let rule := retryRule env info name
  let a := exceeded s info rule
  .record info name true (rule.isSome && !a.2)
    (match rule, a.2 with
      | some c, false => .retry info input c a.1
      | _, _ => .catchErr info input (catchersOf env info))

/-- Lines 94-187. -/
def onError (env : Env G F) (s : S F) (e : Fail) (input : Json F) : Task G F :=
  match e.kind with
  | .persistFailed => .record e.info "PersistFailed".toList false false .stop
  | .stateNotFound => .record e.info "StateNotFound".toList true false .stop
  | .invalidState => .record e.info "InvalidState".toList true false .stop
  | .templateInvalid => .next (.catchErr e.info input (catchersOf env e.info))
  | .templateFailure => .next (.catchErr e.info input (catchersOf env e.info))
  | .inputPath => .next (.catchErr e.info input (catchersOf env e.info))
  | .resultPath => retryable env s e.info input "InvalidResultPath".toList
  | .outputPath => retryable env s e.info input "InvalidOutputPath".toList
  | .handlerFailed => retryable env s e.info input "HandlerFailed".toList
  | .branchesFailed => retryable env s e.info input "ParallelBranchesFailed".toList

/-- The change of `record_error`: lines 1207-1210. -/
def Rec.fail (now : Int) (error : Name × Name × Msg) (r : Rec F) : Rec F :=
  { r with error := some error, status := .failed, completed := some now }

/-- The change of `record_error` to the execution, lines 1185-1197: no time of completion is set. -/
def S.failed (env : Env G F) (s : S F) (d : Detail) : Exec F :=
  { s.exec with status := .failed, detail := d, duration := some (env.elapsed s.log) }

/-- `record_error`: lines 1179-1213. -/
def stepRecord (env : Env G F) (s : S F) (info : Info) (name : Name) (persist continues : Bool)
    (after : After F) (ret : Option (Option (Json F))) : S F × Proc G F :=
  let e : Exec F := if continues then s.exec else
    s.failed env (.error info.state name info.msg)
  match updRec (Rec.fail (env.now s.log) (info.state, name, info.msg)) info.state info.parent
    e.states with
  | none => ({ s with exec := e }, .crashed)
  | some (r, states) =>
    let e : Exec F := { e with states := states }
    ({ s with exec := e }, .task (.persist e r persist continues after) ret)

/-- Lines 1215-1243. -/
def stepPersist (env : Env G F) (s : S F) (e : Exec F) (r : Rec F) (persist continues : Bool)
    (after : After F) (ret : Option (Option (Json F))) : S F × Proc G F :=
  (if persist then (S.save env s e).2 else s, .task (.announce e r continues after) ret)

/-- Lines 1245-1271. -/
def stepAnnounce (s : S F) (e : Exec F) (r : Rec F) (continues : Bool) (after : After F)
    (ret : Option (Option (Json F))) : S F × Proc G F :=
  let s := s.send (.failure r)
  (if continues then s else s.send (.complete e), .task (.next after) ret)

/-- The rest of `retry_or_catch` (lines 976-1013) with `catch` (lines 1016-1052) and
`handle_retry_or_catch_error` (lines 1054-1095), whose second case does not occur. -/
def stepNext (env : Env G F) (s : S F) (after : After F) (ret : Option (Option (Json F))) :
    S F × Proc G F :=
  match after with
  | .stop => (s, .done (ret.getD none))
  | .retry info input rule attempts =>
    match waitMs (env.rand s.log) rule (attempts - 1) with
    | none => (s, .crashed)
    | some ms =>
      ({ s with log := .slept ms :: s.log },
        .task (.run info.state input (findRec info.state info.parent s.exec.states) info.parent) ret)
  | .catchErr info input rules =>
    match (rules.getD []).find? (fun c => errorMatches (info.name.getD []) c.matchErrors) with
    | none => (s, .done (ret.getD none))
    | some c =>
      match catchInput env c info input with
      | .ok v =>
        (s, .task (.run c.next v (findRec c.next info.parent s.exec.states) info.parent) ret)
      | .error i => (s, .task (.record i "InvalidResultPath".toList true false .stop) ret)

/-- One step of a task. Once an error is handled, the call returns `None` (line 192). -/
def step [DecidableEq F] (env : Env G F) (s : S F) (ret : Option (Option (Json F))) :
    Task G F → S F × Proc G F
  | .run name input prev parent => stepRun env s name input prev parent ret
  | .exec name r c input parent => stepExec env s name r c input parent ret
  | .finish name parent c r input output => stepFinish env s name parent c r input output ret
  | .complete input final => stepComplete env s input final ret
  | .fail e input => (s, .task (onError env s e input) (some (ret.getD none)))
  | .record info name persist continues after =>
    stepRecord env s info name persist continues after ret
  | .persist e r persist continues after => stepPersist env s e r persist continues after ret
  | .announce e r continues after => stepAnnounce s e r continues after ret
  | .next after => stepNext env s after ret

/-- What a finished branch returned: `none` for a branch that failed or panicked. -/
def result : Proc G F → Option (Option (Json F))
  | .done v => some v
  | .crashed => some none
  | _ => none

/-- `handle_parallel_results`: lines 587-639. -/
def joined (j : Joining G F) (results : List (Option (Json F))) : Proc G F :=
  if results.all Option.isSome then
    .task (.finish j.name none j.c j.r j.input (.arr (results.filterMap id))) j.ret
  else
    failWith ⟨.branchesFailed, j.name, none, some "BranchesFailed".toList, .text ['B']⟩ j.input j.ret

/-- One step of concurrent tasks. -/
inductive Step [DecidableEq F] (env : Env G F) : S F × Proc G F → S F × Proc G F → Prop
  | task (s : S F) (t : Task G F) (ret : Option (Option (Json F))) :
    Step env (s, .task t ret) (step env s ret t)
  | branch (s s' : S F) (j : Joining G F) (before after : List (Proc G F)) (p p' : Proc G F) :
    Step env (s, p) (s', p') →
    Step env (s, .join j (before ++ p :: after)) (s', .join j (before ++ p' :: after))
  | joined (s : S F) (j : Joining G F) (branches : List (Proc G F))
    (results : List (Option (Json F))) : branches.map result = results.map some →
    Step env (s, .join j branches) (s, joined j results)

/-- The execution that `run_handler` saved: application.rs lines 186-203. -/
def initial (input : Json F) : Exec F :=
  ⟨input, none, .preparing, .preparing, none, [], none, none⟩

/-- `start`: lines 54-76. -/
def start (env : Env G F) (input : Json F) : S F × Proc G F :=
  (⟨initial input, []⟩, .task (.run env.startAt input none none) none)

/-- What can happen after the start. -/
inductive Reach [DecidableEq F] (env : Env G F) (input : Json F) : S F × Proc G F → Prop
  | start : Reach env input (start env input)
  | step (c c' : S F × Proc G F) : Reach env input c → Step env c c' → Reach env input c'

end Verif.Workflow
