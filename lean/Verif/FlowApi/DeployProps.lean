import Verif.FlowApi.DeployModel
import Verif.Payload.Props
import Verif.Blueprint.SourceProps
import Verif.ExecStore.Lemmas
import Verif.Workflow.LatestProps
import Verif.Workflow.RunProps

/-!
# Property theorems about executions in an application set up from a blueprint (C177)
-/

namespace Verif.FlowApi.DeploySpec

open Verif

variable {G F : Type}

/-- The blueprint is loaded from a document in one of the formats. -/
def Loaded (cx : Blueprint.Ctx G) (env : Subst.Env) (b : Blueprint.ResConfig G) : Prop :=
  ∃ d, Blueprint.fromJson cx env d = .ok b ∨ Blueprint.fromYaml cx env [d] = .ok b

/-- A workflow of the blueprint. -/
def Has (b : Blueprint.ResConfig G) (w : Wire.Workflow G) : Prop :=
  ∃ r ∈ b.resources, r.2.spec = some (.workflow w)

/-- The workflow has the state it starts at, and this state takes the input as it is. -/
def Startable (w : Wire.Workflow G) (f : Blueprint.StateFields Subst.Str Int Bool G (Subst.RNode G) Blueprint.StateType) :
    Prop :=
  ∃ br, w.states.lookup w.startAt = some (.mk f br) ∧ f.inputPath = none

/-- Nothing will happen any more. -/
def Over : Workflow.Proc G F → Prop
  | .done _ => True
  | .crashed => True
  | _ => False

/-- The name of a kind of state in blueprints. -/
def kindText : Workflow.Kind → Option Subst.Str
  | .executeStep => some "executeStep".toList
  | .pass => some "pass".toList
  | .parallel => some "parallel".toList
  | .wait => some "wait".toList
  | .decision => some "decision".toList
  | .failure => some "failure".toList
  | .success => some "success".toList
  | .unknown => none

/-- The first entry that announces a state announces this one. -/
def StartsWith (log : List (Workflow.Entry F)) (r : Workflow.Rec F) : Prop :=
  ∃ new e, log = new ++ [.event (.transition none r), .saved e]

/-- Fields of a state that calls its handler with its input and passes the result on. -/
structure Step (f : Blueprint.StateFields Subst.Str Int Bool G (Subst.RNode G) Blueprint.StateType) : Prop where
  type : f.stateType = .executeStep
  input : f.inputPath = none
  template : f.payloadTemplate = none
  result : f.resultPath = none
  output : f.outputPath = none

/-- The calls of the handlers, from a state and an input on: `answers` are the results of the handlers. -/
inductive Steps (w : Wire.Workflow G) (answers : Subst.Str → Json F → Option (Json F)) :
    Subst.Str → Json F → List (Subst.Str × Json F) → Prop
  | last (n v f br o) : w.states.lookup n = some (.mk f br) → Step f → f.next = none →
    f.end_ = some true → answers n v = some o → Steps w answers n v [(n, v)]
  | next (n v f br o m rest) : w.states.lookup n = some (.mk f br) → Step f → f.next = some m →
    answers n v = some o → Steps w answers m o rest → Steps w answers n v ((n, v) :: rest)

/-- What can happen from here on. -/
inductive Later [DecidableEq F] (env : Workflow.Env G F) :
    Workflow.S F × Workflow.Proc G F → Workflow.S F × Workflow.Proc G F → Prop
  | refl (c) : Later env c c
  | step (c c' c'') : Workflow.Step env c c' → Later env c' c'' → Later env c c''

end Verif.FlowApi.DeploySpec

namespace Verif.FlowApi.Deploy

open Verif DeploySpec

variable {G F : Type} [DecidableEq F]

/-- C177: when an execution of an application that was set up from a blueprint is over, it went through
the first state of a workflow of the blueprint, with the input it was given; provided that the workflows
of the blueprint have their first states, and that executions can be saved. -/
def FullDeployed : Prop :=
  ∀ (G F : Type) [DecidableEq F] (cx : Blueprint.Ctx G) (vars : Subst.Env) (b : Blueprint.ResConfig G)
    (c : Wire.WorkflowConfig G) (rat : G → Rat) (base : Workflow.Env G F) (input : Json F)
    (s : Workflow.S F) (p : Workflow.Proc G F),
    Loaded cx vars b → (∀ w, Has b w → ∃ f, Startable w f) → (∀ l e, base.save l e = true) →
    Wire.collectWorkflow b = some c →
    Workflow.Reach (machineEnv rat c.workflow base) input (s, p) → Over p →
    ∃ w r, Has b w ∧ StartsWith s.log r ∧ r.name = w.startAt ∧ r.input = input

theorem collected (b : Blueprint.ResConfig G) (c : Wire.WorkflowConfig G)
    (h : Wire.collectWorkflow b = some c) : c.workflow.states = [] ∧ c.workflow.startAt = [] := by
  unfold Wire.collectWorkflow at h
  split at h
  · cases h
  · injection h with h
    subst h
    exact ⟨rfl, rfl⟩

/-- The error of a state machine that does not find its first state. -/
def lost : Workflow.Fail := ⟨.stateNotFound, [], none, none, .text ['r']⟩

/-- Where a state machine without states can be. -/
inductive Stuck (env : Workflow.Env G F) (input : Json F) :
    Workflow.S F × Workflow.Proc G F → Prop
  | run : Stuck env input (⟨Workflow.initial input, []⟩, .task (.run [] input none none) none)
  | fail : Stuck env input (⟨Workflow.initial input, []⟩, .task (.fail lost input) none)
  | record : Stuck env input (⟨Workflow.initial input, []⟩,
      .task (.record lost.info "StateNotFound".toList true false .stop) (some none))
  | crashed (e : Workflow.Exec F) : Stuck env input (⟨e, []⟩, .crashed)

theorem stuck_next (env : Workflow.Env G F) (hs : env.states = []) (input : Json F)
    {c c' : Workflow.S F × Workflow.Proc G F} (h : Stuck env input c) (hstep : Workflow.Step env c c') :
    Stuck env input c' := by
  cases h with
  | run =>
    cases hstep
    simp only [Workflow.step, Workflow.stepRun, Workflow.config, hs, List.lookup_nil]
    exact .fail
  | fail => cases hstep; exact .record
  | record => cases hstep; exact .crashed _
  | crashed => cases hstep

theorem stuck (env : Workflow.Env G F) (hs : env.states = []) (ha : env.startAt = [])
    (input : Json F) {c : Workflow.S F × Workflow.Proc G F} (h : Workflow.Reach env input c) :
    Stuck env input c := by
  induction h with
  | start =>
    unfold Workflow.start
    rw [ha]
    exact .run
  | step c c' _ hstep ih => exact stuck_next env hs input ih hstep

theorem stuck_later (env : Workflow.Env G F) (hs : env.states = []) (input : Json F)
    {c : Workflow.S F × Workflow.Proc G F} (h : Stuck env input c) :
    ∃ s', Later env c (s', .crashed) := by
  have h3 : ∃ s', Later env (⟨Workflow.initial input, []⟩,
      .task (.record lost.info "StateNotFound".toList true false .stop) (some none)) (s', .crashed) :=
    ⟨_, .step _ _ _ (.task _ _ _) (.refl _)⟩
  have h2 : ∃ s', Later env (⟨Workflow.initial input, []⟩, .task (.fail lost input) none)
      (s', .crashed) := have ⟨s', h⟩ := h3; ⟨s', .step _ _ _ (.task _ _ _) h⟩
  cases h with
  | run =>
    obtain ⟨s', h⟩ := h2
    refine ⟨s', .step _ _ _ (.task _ _ _) ?_⟩
    simp only [Workflow.step, Workflow.stepRun, Workflow.config, hs, List.lookup_nil]
    exact h
  | fail => exact h2
  | record => exact h3
  | crashed e => exact ⟨_, .refl _⟩

omit [DecidableEq F] in
theorem machine_empty (b : Blueprint.ResConfig G) (c : Wire.WorkflowConfig G)
    (h : Wire.collectWorkflow b = some c) (rat : G → Rat) (base : Workflow.Env G F) :
    (machineEnv rat c.workflow base).states = [] ∧ (machineEnv rat c.workflow base).startAt = [] := by
  obtain ⟨h1, h2⟩ := collected b c h
  unfold machineEnv
  rw [h1, h2]
  exact ⟨by simp only [toStates], rfl⟩

/-- C177, what happens instead: whatever the blueprint, an execution does nothing that can be
observed, never returns, and can only panic. -/
theorem never_runs (b : Blueprint.ResConfig G) (c : Wire.WorkflowConfig G)
    (h : Wire.collectWorkflow b = some c) (rat : G → Rat) (base : Workflow.Env G F) (input : Json F)
    (s : Workflow.S F) (p : Workflow.Proc G F)
    (hr : Workflow.Reach (machineEnv rat c.workflow base) input (s, p)) :
    s.log = [] ∧ (∀ v, p ≠ .done v) ∧
      ∃ s', Later (machineEnv rat c.workflow base) (s, p) (s', .crashed) := by
  obtain ⟨h1, h2⟩ := machine_empty b c h rat base
  have hst := stuck _ h1 h2 input hr
  refine ⟨?_, ?_, stuck_later _ h1 input hst⟩
  · cases hst <;> rfl
  · intro v hp
    subst hp
    cases hst

/-- The blueprint of the example of C110 loaded from YAML has a workflow that waits. -/
theorem example_loaded : Blueprint.fromYaml Blueprint.exampleCtx Blueprint.stageEnv
    [Blueprint.Source.write Blueprint.Source.exampleSource] =
    .ok (Blueprint.Source.exampleMeaning none) :=
  (Blueprint.Source.yaml_meaning Blueprint.exampleCtx _ Blueprint.Source.exampleSource_good [] _).2
    ⟨rfl, rfl, rfl, Blueprint.Source.variablesM,
      .keep (by simp [Blueprint.Source.Supported, Blueprint.Source.exampleHandler]) nofun
        (Blueprint.Source.handlerM _)
      (.keep (by simp [Blueprint.Source.Supported, Blueprint.Source.exampleWorkflow]) nofun
        (Blueprint.Source.workflowM _) .nil), rfl, nofun⟩

/-- The fields of its only state. -/
def pauseFields : Blueprint.StateFields Subst.Str Int Bool Unit (Subst.RNode Unit) Blueprint.StateType :=
  { stateType := .wait, end_ := some true, waitConfig := some { seconds := some "prod".toList } }

def pauseWorkflow : Wire.Workflow Unit :=
  { startAt := "pause".toList, states := [("pause".toList, .mk pauseFields none)] }

theorem example_has (m) (w : Wire.Workflow Unit) :
    Has (Blueprint.Source.exampleMeaning m) w ↔ w = pauseWorkflow := by
  constructor
  · rintro ⟨r, hr, hw⟩
    unfold Blueprint.Source.exampleMeaning at hr
    rcases List.mem_cons.1 hr with rfl | hr
    · unfold Blueprint.Source.handlerMeaning at hw
      injection hw with hw
      injection hw
    · rcases List.mem_cons.1 hr with rfl | hr
      · unfold Blueprint.Source.workflowMeaning at hw
        injection hw with hw
        injection hw with hw
        exact hw.symm
      · exact absurd hr List.not_mem_nil
  · rintro rfl
    exact ⟨("w".toList, Blueprint.Source.workflowMeaning),
      List.mem_cons_of_mem _ (List.mem_cons_self ..), rfl⟩

theorem pause_startable : Startable pauseWorkflow pauseFields := ⟨none, by
  simp only [pauseWorkflow, List.lookup_cons, beq_self_eq_true], rfl⟩

/-- An environment in which executions are saved. -/
def quietBase : Workflow.Env Unit Int where
  startAt := []
  states := []
  hasHandler _ := false
  handler _ _ _ := .panic
  save _ _ := true
  template :=
    { parser := { Payload.demo.parser with float := fun _ => none }, funcs := Payload.demo.funcs,
      fin := fun _ => none, find := Payload.demo.find }
  now _ := 0
  elapsed _ := 0
  timestamp _ := none
  rand _ q := q
  text _ := []

/-- C177 is false of the code: the workflow of the blueprint is not used. -/
theorem deployed_violated : ¬ FullDeployed := by
  intro full
  have hc : ∃ c, Wire.collectWorkflow (Blueprint.Source.exampleMeaning none) = some c := by
    unfold Wire.collectWorkflow
    exact ⟨_, rfl⟩
  obtain ⟨c, hc⟩ := hc
  obtain ⟨_, _, s', hl⟩ := never_runs _ c hc (fun _ => 0) quietBase .null _ _ .start
  have hreach : ∀ {a d}, Later (machineEnv (fun _ => 0) c.workflow quietBase) a d →
      Workflow.Reach (machineEnv (fun _ => 0) c.workflow quietBase) .null a →
      Workflow.Reach (machineEnv (fun _ => 0) c.workflow quietBase) .null d := by
    intro a d h
    induction h with
    | refl => exact id
    | step _ _ _ hs _ ih => exact fun h => ih (.step _ _ h hs)
  have hr := hreach hl .start
  obtain ⟨w, r, _, ⟨new, e, hlog⟩, _⟩ := full Unit Int Blueprint.exampleCtx Blueprint.stageEnv _ c _ _ _ _ _
    ⟨_, .inr example_loaded⟩ (fun w hw => (example_has _ w).1 hw ▸ ⟨_, pause_startable⟩)
    (fun _ _ => rfl) hc hr trivial
  rw [(never_runs _ c hc _ _ _ _ _ hr).1] at hlog
  cases new <;> cases hlog

/-! ## Without the collection -/

omit [DecidableEq F] in
theorem states_lookup (rat : G → Rat) (n : Subst.Str) (l : List (Subst.Str × Blueprint.ResState G)) :
    (toStates rat l).lookup n = (l.lookup n).map (toState rat) := by
  induction l with
  | nil => simp only [toStates, List.lookup_nil, Option.map_none]
  | cons e l ih =>
    obtain ⟨k, st⟩ := e
    simp only [toStates, toStateEntry, List.lookup_cons, ih]
    split <;> rfl

/-- C177, partial: a state machine that is given a workflow of the blueprint goes through the first
state of this workflow, which is of the kind that the blueprint says, with the input of the execution.
What is missing is that the application uses a workflow of its blueprint. -/
theorem deployed_partial (b : Blueprint.ResConfig G) (w : Wire.Workflow G) (_hw : Has b w)
    (f : Blueprint.StateFields Subst.Str Int Bool G (Subst.RNode G) Blueprint.StateType) (hf : Startable w f)
    (rat : G → Rat) (base : Workflow.Env G F) (hsave : ∀ l e, base.save l e = true) (input : Json F)
    (s : Workflow.S F) (p : Workflow.Proc G F)
    (hr : Workflow.Reach (machineEnv rat w base) input (s, p)) :
    (s.log = [] ∧ ∃ c', Workflow.Step (machineEnv rat w base) (s, p) c' ∧ c'.1.log ≠ []) ∨
    ∃ r, StartsWith s.log r ∧ r.name = w.startAt ∧ r.input = input ∧ r.attempt = 1 ∧
      kindText r.kind = Blueprint.Source.stateTypeName f.stateType := by
  obtain ⟨br, hl, hi⟩ := hf
  have hcfg : Workflow.config (machineEnv rat w base) w.startAt none = .ok (toState rat (.mk f br)) := by
    simp only [Workflow.config, machineEnv, states_lookup, hl, Option.map_some]
  have hin : Workflow.stateInput (machineEnv rat w base) w.startAt none (toState rat (.mk f br)) input =
      .ok input := by
    simp only [Workflow.stateInput, toState, hi]
  have hkind : kindText (toState rat (.mk f br)).kind = Blueprint.Source.stateTypeName f.stateType := by
    simp only [toState]
    cases f.stateType <;> rfl
  have hfirst : ∃ r, StartsWith (Workflow.step (machineEnv rat w base)
      (Workflow.start (machineEnv rat w base) input).1 none (.run w.startAt input none none)).1.log r ∧
      r.name = w.startAt ∧ r.input = input ∧ r.attempt = 1 ∧
      kindText r.kind = Blueprint.Source.stateTypeName f.stateType := by
    refine ⟨Workflow.newRec w.startAt (toState rat (.mk f br)) input none (base.now []), ?_, rfl, rfl, rfl, hkind⟩
    simp only [Workflow.step, Workflow.stepRun, hcfg, hin, Workflow.S.save, Workflow.start]
    have : ∀ l e, (machineEnv rat w base).save l e = true := hsave
    simp only [this, if_true]
    exact ⟨[], _, rfl⟩
  have key : ∀ c, Workflow.Reach (machineEnv rat w base) input c →
      c = Workflow.start (machineEnv rat w base) input ∨
      ∃ r, StartsWith c.1.log r ∧ r.name = w.startAt ∧ r.input = input ∧ r.attempt = 1 ∧
      kindText r.kind = Blueprint.Source.stateTypeName f.stateType := by
    intro c hc
    induction hc with
    | start => exact .inl rfl
    | step c c' _ hstep ih =>
      refine .inr ?_
      rcases ih with rfl | ⟨r, ⟨new, e, hlog⟩, h⟩
      · cases hstep
        exact hfirst
      · obtain ⟨new', hn⟩ := Workflow.log_grows hstep
        exact ⟨r, ⟨new' ++ new, e, by rw [hn, hlog, List.append_assoc]⟩, h⟩
  rcases key _ hr with h | h
  · refine .inl ?_
    injection h with h1 h2
    subst h1 h2
    refine ⟨rfl, _, .task _ _ _, ?_⟩
    obtain ⟨r, ⟨new, e, hlog⟩, _⟩ := hfirst
    intro h0
    have := hlog.symm.trans h0
    cases new <;> cases this
  · exact .inr h

theorem steps_chain (w : Wire.Workflow G) (rat : G → Rat) (base : Workflow.Env G F)
    (answers : Subst.Str → Json F → Option (Json F))
    (ha : ∀ n v o, answers n v = some o → base.hasHandler n = true ∧ ∀ log, base.handler log n v = .ok o)
    {n : Subst.Str} {v : Json F} {calls : List (Subst.Str × Json F)} (h : Steps w answers n v calls) :
    ∃ xs out, Workflow.Chain (machineEnv rat w base) n v xs out ∧
      xs.map (fun x => (x.name, x.payload)) = calls := by
  have hlook : ∀ n st, w.states.lookup n = some st →
      (machineEnv rat w base).states.lookup n = some (toState rat st) := by
    intro n st hl
    simp only [machineEnv, states_lookup, hl, Option.map_some]
  have hsucc : ∀ n v f br o, Step f → answers n v = some o →
      Workflow.Succeeds (machineEnv rat w base) (toState rat (.mk f br)) v ⟨n, v, o, o⟩ := by
    intro n v f br o hs hao
    obtain ⟨h1, h2⟩ := ha n v o hao
    refine ⟨?_, h1, ?_, ?_, h2, ?_⟩
    · simp only [toState, hs.type, toKind]
    · simp only [toState, hs.input]
      nofun
    · simp only [toState, hs.template, Option.map_none]
    · simp only [toState, hs.result, hs.output]
  induction h with
  | last n v f br o hl hs hn he hao =>
    exact ⟨_, _, .last _ v ⟨n, v, o, o⟩ (hlook n _ hl) (hsucc n v f br o hs hao)
      (by simp only [toState, hn]) (by simp only [toState, he]), rfl⟩
  | next n v f br o m rest hl hs hn hao _ ih =>
    obtain ⟨xs, out, hc, hx⟩ := ih
    exact ⟨_, out, .next _ v ⟨n, v, o, o⟩ m xs out (hlook n _ hl) (hsucc n v f br o hs hao)
      (by simp only [toState, hn]) hc, by rw [List.map_cons, hx]⟩

theorem runN_over (env : Workflow.Env G F) (c : Workflow.S F × Workflow.Proc G F) (h : Over c.2) (k : Nat) :
    Workflow.runN env k c = c := by
  obtain ⟨s, p⟩ := c
  cases k with
  | zero => rfl
  | succ k =>
    cases p with
    | task => exact h.elim
    | _ => rfl

/-- C177, partial, for workflows of steps: given the workflow of the blueprint directly, every
execution that is over has called the handlers of the steps in the order in which the blueprint says, each
with the result of the one before, and has succeeded; and there is such an execution. -/
theorem steps_partial (b : Blueprint.ResConfig G) (w : Wire.Workflow G) (_hw : Has b w)
    (rat : G → Rat) (base : Workflow.Env G F) (hsave : ∀ l e, base.save l e = true) (input : Json F)
    (answers : Subst.Str → Json F → Option (Json F))
    (ha : ∀ n v o, answers n v = some o → base.hasHandler n = true ∧ ∀ log, base.handler log n v = .ok o)
    (calls : List (Subst.Str × Json F)) (h : Steps w answers w.startAt input calls)
    (hd : (calls.map Prod.fst).Nodup) :
    (∃ s p, Workflow.Reach (machineEnv rat w base) input (s, p) ∧ Over p) ∧
    ∀ s p, Workflow.Reach (machineEnv rat w base) input (s, p) → Over p →
      (Workflow.calledWith s.log).reverse = calls ∧ s.exec.status = .succeeded := by
  obtain ⟨xs, out, hc, hx⟩ := steps_chain w rat base answers ha h
  have hnames : xs.map Workflow.Visit.name = calls.map Prod.fst := by
    rw [← hx, List.map_map]
    rfl
  obtain ⟨k, s, y, rest, h1, h2, h3, h4, _⟩ := Workflow.linear_chain (env := machineEnv rat w base)
    (by exact hsave) hc (by rw [hnames]; exact hd)
  refine ⟨⟨s, .done y, h1 ▸ Workflow.reach_start _ _ k, trivial⟩, fun s' p' hr ho => ?_⟩
  obtain ⟨j, hj, he⟩ := h2 _ hr
  have hk : Workflow.runN (machineEnv rat w base) k (Workflow.start (machineEnv rat w base) input) = (s', p') := by
    obtain ⟨d, rfl⟩ := Nat.le.dest hj
    rw [Workflow.runN_add, ← he]
    exact runN_over _ _ ho d
  have := h1.symm.trans hk
  injection this with hs _
  subst hs
  exact ⟨h4.trans hx, h3⟩

/-- Two steps. -/
def twoSteps : Wire.Workflow Unit :=
  { startAt := ['a'],
    states := [(['b'], .mk { stateType := .executeStep, end_ := some true } none),
      (['a'], .mk { stateType := .executeStep, next := some ['b'] } none)] }

example (v : Json Int) : Steps twoSteps (fun n _ => some (.str n)) twoSteps.startAt v
    [(['a'], v), (['b'], .str ['a'])] :=
  .next _ _ _ _ _ _ _ rfl ⟨rfl, rfl, rfl, rfl, rfl⟩ rfl rfl
    (.last _ _ _ _ _ rfl ⟨rfl, rfl, rfl, rfl, rfl⟩ rfl rfl rfl)

/-- The workflow of the example waits at first. -/
example : ∃ c, Workflow.Reach (machineEnv (fun _ => 0) pauseWorkflow quietBase) .null c ∧
    c.1.log ≠ [] ∧ Has (Blueprint.Source.exampleMeaning none) pauseWorkflow ∧
    Startable pauseWorkflow pauseFields := by
  have hh := (example_has none pauseWorkflow).2 rfl
  rcases deployed_partial _ _ hh _ pause_startable (fun _ => 0) quietBase (fun _ _ => rfl) .null _ _ .start
    with ⟨_, c', h, hne⟩ | ⟨r, ⟨new, e, h⟩, _⟩
  · exact ⟨c', .step _ _ .start h, hne, hh, pause_startable⟩
  · cases new <;> cases h

/-! ## The server -/

/-- All state machines run what `setup` gave for the blueprint. -/
def Serves (b : Blueprint.ResConfig G) (w : World G F) : Prop :=
  ∀ m ∈ w.machines, ∃ c rat base, Wire.collectWorkflow b = some c ∧ m.env = machineEnv rat c.workflow base

theorem serves_inv (b : Blueprint.ResConfig G) (w : World G F) (hr : World.Reach w) (hs : Serves b w) :
    w.sent = [] ∧ (∀ id e, w.store.get id = some e → e.status = .preparing ∧ e.states = [] ∧ e.completed = none) ∧
    ∀ m ∈ w.machines, (∃ e, w.store.get m.id = some e) ∧ Workflow.Reach m.env m.input m.conf := by
  induction hr with
  | new => exact ⟨rfl, (fun _ _ h => nomatch h), (fun _ h => nomatch h)⟩
  | step w w' _ hstep ih =>
    cases hstep with
    | start name uuid now input env x =>
      obtain ⟨h1, h2, h3⟩ := ih fun m hm => hs m (List.mem_append_left _ hm)
      refine ⟨h1, ?_, ?_⟩
      · intro id e he
        simp only [World.start, ExecStore.runHandler, ExecStore.save_get] at he
        split at he
        · injection he with he
          subst he
          exact ⟨rfl, rfl, rfl⟩
        · exact h2 id e he
      · intro m hm
        simp only [World.start, ExecStore.runHandler, ExecStore.save_get] at hm ⊢
        rcases List.mem_append.1 hm with hm | hm
        · obtain ⟨⟨e, he⟩, hreach⟩ := h3 m hm
          refine ⟨?_, hreach⟩
          split
          · exact ⟨_, rfl⟩
          · exact ⟨e, he⟩
        · rw [List.mem_singleton] at hm
          subst hm
          exact ⟨⟨_, if_pos rfl⟩, .start⟩
    | machine before after m c new hm hstep hlog =>
      have hs' : Serves b w := by
        intro k hk
        rw [hm] at hk
        rcases List.mem_append.1 hk with hk | hk
        · exact hs k (List.mem_append_left _ hk)
        · rcases List.mem_cons.1 hk with rfl | hk
          · exact hs { k with conf := c } (List.mem_append_right _ (List.mem_cons_self ..))
          · exact hs k (List.mem_append_right _ (List.mem_cons_of_mem _ hk))
      obtain ⟨h1, h2, h3⟩ := ih hs'
      have hmem : m ∈ w.machines := hm ▸ List.mem_append_right _ (List.mem_cons_self ..)
      obtain ⟨k, rat, base, hk, henv⟩ := hs' m hmem
      have hreach : Workflow.Reach m.env m.input c := .step _ _ (h3 m hmem).2 hstep
      have hnil : c.1.log = [] := by
        rw [henv] at hreach
        exact (never_runs b k hk rat base m.input c.1 c.2 hreach).1
      have hnew : new = [] := (List.append_eq_nil_iff.1 (hlog.symm.trans hnil)).1
      subst hnew
      refine ⟨h1, h2, ?_⟩
      intro q hq
      rcases List.mem_append.1 hq with hq | hq
      · exact h3 q (hm ▸ List.mem_append_left _ hq)
      · rcases List.mem_cons.1 hq with rfl | hq
        · exact ⟨(h3 m hmem).1, hreach⟩
        · exact h3 q (hm ▸ List.mem_append_right _ (List.mem_cons_of_mem _ hq))

/-- C177, what a client sees: in an application set up from a blueprint, no event is ever sent, and
every execution that was started is stored as being prepared, whatever happened since. -/
theorem preparing_forever (b : Blueprint.ResConfig G) (w : World G F) (hr : World.Reach w) (hs : Serves b w) :
    w.sent = [] ∧ ∀ m ∈ w.machines, ∃ e, w.store.get m.id = some e ∧ e.status = .preparing ∧
      e.states = [] ∧ e.completed = none := by
  obtain ⟨h1, h2, h3⟩ := serves_inv b w hr hs
  exact ⟨h1, fun m hm => have ⟨⟨e, he⟩, _⟩ := h3 m hm; ⟨e, he, h2 _ e he⟩⟩

/-- A server with an execution that panicked. -/
example (rest : Rest Int) : ∃ w : World Unit Int, World.Reach w ∧
    Serves (Blueprint.Source.exampleMeaning none) w ∧ w.machines.map (·.id) = ["run"] := by
  obtain ⟨c, hc⟩ : ∃ c, Wire.collectWorkflow (Blueprint.Source.exampleMeaning none) = some c := by
    unfold Wire.collectWorkflow
    exact ⟨_, rfl⟩
  refine ⟨_, .step _ _ .new (.start _ (some "run") "u" 5 .null (machineEnv (fun _ => 0) c.workflow quietBase) rest), ?_, rfl⟩
  intro m hm
  simp only [World.start, World.new, ExecStore.runHandler, List.nil_append, List.mem_singleton] at hm
  subst hm
  exact ⟨c, _, _, hc, rfl⟩

end Verif.FlowApi.Deploy
