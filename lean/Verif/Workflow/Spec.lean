import Verif.Workflow.Model

/-!
# Specification: what is expected of workflow executions

Predicates on the log, on workflows and on configurations, in terms of the data types only.
-/

namespace Verif.Workflow

variable {G F : Type}

/-- The number of calls of the handler of a state. -/
def calls (name : Name) (log : List (Entry F)) : Nat :=
  log.countP (fun e => match e with
    | .called n _ => decide (n = name)
    | _ => false)

/-- The times slept, the most recent first. -/
def sleeps (log : List (Entry F)) : List Nat :=
  log.filterMap (fun e => match e with
    | .slept ms => some ms
    | _ => none)

/-- The states entered, the most recent first: the transitions announced. -/
def entered (log : List (Entry F)) : List Name :=
  log.filterMap (fun e => match e with
    | .event (.transition _ r) => some r.name
    | _ => none)

/-- The completions announced, the most recent first. -/
def completions (log : List (Entry F)) : List (Exec F) :=
  log.filterMap (fun e => match e with
    | .event (.complete e) => some e
    | _ => none)

/-- `t` is running, possibly in a branch. -/
inductive Running (t : Task G F) (ret : Option (Option (Json F))) : Proc G F → Prop
  | here : Running t ret (.task t ret)
  | branch (j : Joining G F) (bs : List (Proc G F)) (p : Proc G F) : p ∈ bs → Running t ret p →
    Running t ret (.join j bs)

/-- Every task and every parallel state that waits has a property. -/
inductive All (T : Task G F → Option (Option (Json F)) → Prop) (J : Joining G F → Prop) :
    Proc G F → Prop
  | task (t : Task G F) (ret : Option (Option (Json F))) : T t ret → All T J (.task t ret)
  | join (j : Joining G F) (bs : List (Proc G F)) : J j → (∀ p ∈ bs, All T J p) → All T J (.join j bs)
  | done (v : Option (Json F)) : All T J (.done v)
  | crashed : All T J .crashed

/-- No state runs branches. -/
def Sequential (env : Env G F) : Prop := ∀ n c, (n, c) ∈ env.states → c.kind ≠ .parallel

/-- A rule matches an error: it lists the name of the error or the wildcard. -/
def Matches (error : Name) (names : List Name) : Prop := ['*'] ∈ names ∨ error ∈ names

/-- `r` is the first rule of the list that matches. -/
def FirstMatch {R : Type} (matchErrors : R → List Name) (error : Name) (rules : List R) (r : R) :
    Prop :=
  ∃ before after, rules = before ++ r :: after ∧ Matches error (matchErrors r) ∧
    ∀ q ∈ before, ¬ Matches error (matchErrors q)

/-- No rule of the list matches. -/
def NoMatch {R : Type} (matchErrors : R → List Name) (error : Name) (rules : List R) : Prop :=
  ∀ q ∈ rules, ¬ Matches error (matchErrors q)

/-- The names of the kinds of errors: lines 94-187 of state_machine.rs. -/
def kindName : ErrKind → Name
  | .persistFailed => "PersistFailed".toList
  | .stateNotFound => "StateNotFound".toList
  | .invalidState => "InvalidState".toList
  | .handlerFailed => "HandlerFailed".toList
  | .branchesFailed => "ParallelBranchesFailed".toList
  | .inputPath => "InvalidInputPath".toList
  | .resultPath => "InvalidResultPath".toList
  | .outputPath => "InvalidOutputPath".toList
  | .templateFailure => "PayloadTemplateFailure".toList
  | .templateInvalid => "InvalidPayloadTemplate".toList

/-- The name under which an error is logged and retried: its own, if it has one, otherwise that of
its kind. -/
def reported (e : Fail) : Name :=
  match e.info.name with
  | some (c :: cs) => c :: cs
  | _ => kindName e.kind

/-- The kinds of errors that retry rules apply to. -/
def Retryable (k : ErrKind) : Prop :=
  k = .resultPath ∨ k = .outputPath ∨ k = .handlerFailed ∨ k = .branchesFailed

/-- The kinds of errors that only catch rules apply to. -/
def Catchable (k : ErrKind) : Prop :=
  k = .inputPath ∨ k = .templateFailure ∨ k = .templateInvalid

/-- The delay before the retry number `k`, counted from 0, in milliseconds: it starts with the
interval in seconds and is multiplied by the rate each time. -/
def delay (interval rate : Rat) : Nat → Rat
  | 0 => interval * 1000
  | k + 1 => delay interval rate k * rate

/-- At most the maximum in seconds. -/
def capped (maxDelay : Option Int) (q : Rat) : Rat :=
  match maxDelay with
  | none => q
  | some m => if q ≤ (m : Rat) * 1000 then q else (m : Rat) * 1000

/-- `n` is `q` rounded down. -/
def Rounded (n : Nat) (q : Rat) : Prop := (n : Rat) ≤ q ∧ q < (n : Rat) + 1

/-- A sequential execution, some steps on. -/
def runN [DecidableEq F] (env : Env G F) : Nat → S F × Proc G F → S F × Proc G F
  | 0, c => c
  | n + 1, (s, .task t ret) => runN env n (step env s ret t)
  | _ + 1, c => c

/-- The handlers called and the payloads, the most recent first. -/
def calledWith (log : List (Entry F)) : List (Name × Json F) :=
  log.filterMap (fun e => match e with
    | .called n v => some (n, v)
    | _ => none)

/-- What is known of a step that was executed: its name, the payload and the result of the handler,
and the output of the state. -/
structure Visit (F : Type) where
  name : Name
  payload : Json F
  result : Json F
  output : Json F

/-- A step that gets the input `v` succeeds: its input path exists, its template can be rendered, its
handler succeeds, and its output can be made from the result. -/
structure Succeeds [DecidableEq F] (env : Env G F) (c : State G) (v : Json F) (x : Visit F) : Prop where
  kind : c.kind = .executeStep
  handled : env.hasHandler x.name = true
  input : ∀ path, c.inputPath = some path → ∃ w, Payload.extract env.template v path = .ok w
  payload : match c.template with
    | none => x.payload = v
    | some t => Payload.render env.template t v = .ok x.payload
  result : ∀ log, env.handler log x.name x.payload = .ok x.result
  output : match c.resultPath, c.outputPath with
    | some path, _ => Payload.inject env.template v path x.result = .ok x.output
    | none, some path => Payload.extract env.template x.result path = .ok x.output
    | none, none => x.output = x.result

/-- The steps from the state `n` with the input `v` on, following `next`, with the last output. -/
inductive Chain [DecidableEq F] (env : Env G F) : Name → Json F → List (Visit F) → Json F → Prop
  | last (c : State G) (v : Json F) (x : Visit F) : env.states.lookup x.name = some c →
    Succeeds env c v x → c.next = none → c.isEnd = some true → Chain env x.name v [x] x.output
  | next (c : State G) (v : Json F) (x : Visit F) (n : Name) (rest : List (Visit F)) (out : Json F) :
    env.states.lookup x.name = some c → Succeeds env c v x → c.next = some n →
    Chain env n x.output rest out → Chain env x.name v (x :: rest) out

/-- Every event was sent when `P` held of it and of what happened before. -/
def Events (P : Event F → List (Entry F) → Prop) (log : List (Entry F)) : Prop :=
  ∀ later ev before, log = later ++ .event ev :: before → P ev before

/-- What an event announces was saved before. -/
def SavedBefore (ev : Event F) (before : List (Entry F)) : Prop :=
  match ev with
  | .transition _ r => ∃ e, .saved e ∈ before ∧ r ∈ e.states
  | .failure r => ∃ e, .saved e ∈ before ∧ r ∈ e.states
  | .complete e => .saved e ∈ before

/-- The records that an entry shows. -/
def shown : Entry F → List (Rec F)
  | .saved e => e.states
  | .notSaved e => e.states
  | .event (.transition prev r) => prev.toList ++ [r]
  | .event (.failure r) => [r]
  | .event (.complete e) => e.states
  | .called _ _ => []
  | .slept _ => []

/-- A state says when it ended, not before it started, if and only if it ended. -/
def SaysWhen (r : Rec F) : Prop :=
  match r.status with
  | .succeeded => ∃ t, r.completed = some t ∧ r.started ≤ t
  | .failed => ∃ t, r.completed = some t ∧ r.started ≤ t
  | .inProgress => r.completed = none
  | .preparing => False

/-- An execution says when it ended, not before its states, and how long it took. -/
def EndsAfter (e : Exec F) : Prop :=
  e.duration.isSome ∧ ∃ t, e.completed = some t ∧ ∀ r ∈ e.states, r.started ≤ t ∧
    ∀ u, r.completed = some u → u ≤ t

/-- Time passes. -/
def Clock (env : Env G F) : Prop := ∀ log x, env.now log ≤ env.now (x :: log)

/-- The record of the state that was entered last. -/
def lastEntered : List (Entry F) → Option (Rec F)
  | [] => none
  | .event (.transition _ r) :: _ => some r
  | _ :: log => lastEntered log

/-- A transition shows the state that was left, as it ended. -/
def ShowsPrevious (ev : Event F) (before : List (Entry F)) : Prop :=
  match ev with
  | .transition prev _ => prev.map (·.name) = (lastEntered before).map (·.name) ∧
    ∀ q, prev = some q → q.status ≠ .inProgress
  | _ => True

/-- A transition names the state that was left. -/
def NamesPrevious (ev : Event F) (before : List (Entry F)) : Prop :=
  match ev with
  | .transition prev _ => prev.map (·.name) = (lastEntered before).map (·.name)
  | _ => True

/-- How often a state was tried last, without another one in between. -/
def tries (name : Name) (before : List (Entry F)) : Nat :=
  ((entered before).takeWhile fun n => decide (n = name)).length

/-- Attempts are numbered. -/
def Numbered (ev : Event F) (before : List (Entry F)) : Prop :=
  match ev with
  | .transition _ r => r.attempt = tries r.name before + 1
  | _ => True

/-- No state is its own successor. -/
def NoLoop (env : Env G F) : Prop :=
  ∀ n c, (n, c) ∈ env.states → c.next ≠ some n ∧
    ∀ bs, c.branches = some bs → ∀ b ∈ bs, ∀ n' c', (n', c') ∈ b.2 → c'.next ≠ some n'

end Verif.Workflow
