import Verif.FlowApi.World
import Verif.Wire.Model

/-!
# Model of a workflow application from its blueprint on

`libs/runtime/workflow/src/application.rs` 89-103 (`setup`) and `libs/runtime/workflow/src/types.rs`
55-63: the workflow that the state machine runs is the field `workflow_spec` of `WorkflowAppState`, and
the one that `setup` gives is the field `workflow` of its configuration. No code in the repository makes
the former from the latter; that a program hands over what `setup` gave it is assumed here.

The topics `Blueprint` and `Workflow` have models of their own of the type `CelerityWorkflowSpec`
(`blueprint.rs` 780-784). The functions below go from the one to the other and stand for no code.
-/

namespace Verif.FlowApi.Deploy

open Verif
open Verif.Blueprint (ResState StateFields StateType)
open Verif.Subst (RNode)

variable {G F : Type}

/-- `BlueprintScalarValue`: blueprint.rs 104-109. -/
def toScalar : Subst.Scalar G → Payload.Scalar G
  | .str s => .str s
  | .int i => .int i
  | .float g => .float g
  | .bool b => .bool b

mutual
/-- `ResolvedMappingNode`: blueprint.rs 982-987. -/
def toNode : RNode G → Payload.Node G
  | .scalar s => .scalar (toScalar s)
  | .mapping m => .mapping (toEntries m)
  | .sequence l => .seq (toNodes l)
  | .null => .null
/-- The elements of a list of `ResolvedMappingNode`: blueprint.rs 985. -/
def toNodes : List (RNode G) → List (Payload.Node G)
  | [] => []
  | n :: l => toNode n :: toNodes l
/-- The entries of a map of `ResolvedMappingNode`: blueprint.rs 984. -/
def toEntries : List (Subst.Str × RNode G) → List (List Char × Payload.Node G)
  | [] => []
  | e :: l => toEntry e :: toEntries l
/-- One entry: blueprint.rs 984. -/
def toEntry : Subst.Str × RNode G → List Char × Payload.Node G
  | (k, n) => (k, toNode n)
end

/-- `CelerityWorkflowStateType`: blueprint.rs 945-974. -/
def toKind : StateType → Workflow.Kind
  | .executeStep => .executeStep
  | .pass => .pass
  | .parallel => .parallel
  | .wait => .wait
  | .decision => .decision
  | .failure => .failure
  | .success => .success
  | .unknown => .unknown

/-- `CelerityWorkflowRetryConfig`: blueprint.rs 914-930. `rat` is the value of a floating point
number. -/
def toRetry (rat : G → Rat) (r : Blueprint.Retry Subst.Str Int Bool G) : Workflow.Retry where
  matchErrors := r.matchErrors
  interval := r.interval
  maxAttempts := r.maxAttempts
  maxDelay := r.maxDelay
  jitter := r.jitter
  backoffRate := r.backoffRate.map rat

/-- `CelerityWorkflowCatchConfig`: blueprint.rs 934-941. -/
def toCatch (c : Blueprint.Catch Subst.Str) : Workflow.Catch :=
  ⟨c.matchErrors, c.next, c.resultPath⟩

/-- `CelerityWorkflowWaitConfig`: blueprint.rs 879-890. -/
def toWait (c : Blueprint.WaitConfig Subst.Str) : Workflow.Wait := ⟨c.seconds, c.timestamp⟩

mutual
/-- `CelerityWorkflowState`: blueprint.rs 789-829. -/
def toState (rat : G → Rat) : ResState G → Workflow.State G
  | .mk f b =>
    { kind := toKind f.stateType
      inputPath := f.inputPath
      resultPath := f.resultPath
      outputPath := f.outputPath
      template := f.payloadTemplate.map toEntries
      next := f.next
      isEnd := f.end_
      waitConfig := f.waitConfig.map toWait
      branches := toBranches rat b
      retry := f.retry.map (List.map (toRetry rat))
      catchers := f.catch_.map (List.map toCatch) }
/-- The field `parallel_branches`: blueprint.rs 822-824. -/
def toBranches (rat : G → Rat) : Option (List (Subst.Str × List (Subst.Str × ResState G))) →
    Option (List (Workflow.Name × List (Workflow.Name × Workflow.State G)))
  | none => none
  | some l => some (toBranchList rat l)
/-- The branches: blueprint.rs 822-824. -/
def toBranchList (rat : G → Rat) : List (Subst.Str × List (Subst.Str × ResState G)) →
    List (Workflow.Name × List (Workflow.Name × Workflow.State G))
  | [] => []
  | b :: l => toBranch rat b :: toBranchList rat l
/-- `CelerityWorkflowParallelBranch`: blueprint.rs 906-910. -/
def toBranch (rat : G → Rat) : Subst.Str × List (Subst.Str × ResState G) →
    Workflow.Name × List (Workflow.Name × Workflow.State G)
  | (startAt, states) => (startAt, toStates rat states)
/-- The field `states`: blueprint.rs 783. -/
def toStates (rat : G → Rat) :
    List (Subst.Str × ResState G) → List (Workflow.Name × Workflow.State G)
  | [] => []
  | e :: l => toStateEntry rat e :: toStates rat l
/-- A state with its name: blueprint.rs 783. -/
def toStateEntry (rat : G → Rat) : Subst.Str × ResState G → Workflow.Name × Workflow.State G
  | (k, s) => (k, toState rat s)
end

/-- The state machine (`state_machine.rs` 36-52) for a workflow: everything other than the workflow is as in
`base`. -/
def machineEnv (rat : G → Rat) (w : Wire.Workflow G) (base : Workflow.Env G F) : Workflow.Env G F :=
  { base with startAt := w.startAt, states := toStates rat w.states }

end Verif.FlowApi.Deploy
