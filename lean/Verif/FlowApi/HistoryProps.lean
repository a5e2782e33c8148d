import Verif.FlowApi.Props
import Verif.Workflow.HistoryProps

/-!
# What the stream says of the history of an execution (C145)
-/

namespace Verif.FlowApi.Spec

open Verif

variable {F : Type}

/-- A field of an object. -/
def field (v : Json F) (k : String) : Option (Json F) :=
  match v with
  | .obj m => m.lookup k.toList
  | _ => none

/-- The execution in the last event of the stream. -/
def ended (v w : Json F) : Prop :=
  ∃ u, field v "ExecutionComplete" = some u ∧ field u "completeExecution" = some w

/-- The execution `w` names its input, the states that were entered, in this order, and the last of
them. -/
structure Names (w input : Json F) (names : List (List Char)) : Prop where
  input : field w "input" = some input
  states : ∃ l, field w "states" = some (.arr l) ∧
    l.map (fun v => field v "name") = names.map (fun n => some (.str n))
  current : ∀ n, names.getLast? = some n → field w "currentState" = some (.str n)

/-- The text says that a state is being executed. -/
def Busy (w : Json F) : Prop := ∃ t, field w "statusDetail" = some (.str ("Executing state: ".toList ++ t))

end Verif.FlowApi.Spec

namespace Verif.FlowApi

open Verif Spec
open Verif.Workflow (Reach Sequential Events entered)

variable {G F : Type}

/-- **C145, full statement.** The last event of a sequential execution, whose progress can be saved, says
what the input was, which states were entered and which one was the last, and not that a state is being
executed. -/
def FullHistory : Prop :=
  ∀ (env : Workflow.Env (Option Int) Int) (x : Rest Int) (input : Json Int) (s : Workflow.S Int)
    (p : Workflow.Proc (Option Int) Int),
    Sequential env → (∀ log e, env.save log e = true) → Reach env input (s, p) →
    Events (fun ev before => ∀ w, ended (toEvent env x ev).encode w →
      Names w input (entered before).reverse ∧ ¬ Busy w) s.log

theorem field_name (s : State F) : field s.encode "name" = some (.str s.name) := by
  cases s
  rw [State.encode]
  rfl

theorem field_status (s : State F) : field s.encode "status" = some (.str (statusName s.status)) := by
  cases s
  rw [State.encode]
  rfl

theorem field_error (s : State F) : field s.encode "error" = some (orNull .str s.error) := by
  cases s
  rw [State.encode]
  rfl

theorem field_parallel (s : State F) :
    field s.encode "parallel" = some (.arr (encodeBranches s.parallel)) := by
  cases s
  rw [State.encode]
  rfl

theorem toState_name (env : Workflow.Env G F) (x : Rest F) (r : Workflow.Rec F) :
    (toState env x r).name = r.name ∧ (toState env x r).status = r.status ∧
      (toState env x r).error = r.error.map (errorText env) ∧
      (toState env x r).parallel = toBranches env x r.parallel := by
  cases r
  rw [toState]
  exact ⟨rfl, rfl, rfl, rfl⟩

theorem ended_complete {env : Workflow.Env G F} {x : Rest F} {ev : Workflow.Event F} {w : Json F}
    (h : ended (toEvent env x ev).encode w) :
    ∃ e, ev = .complete e ∧ w = (toExecution env x e).encode := by
  obtain ⟨u, h1, h2⟩ := h
  cases ev with
  | transition => cases h1
  | failure => cases h1
  | complete e =>
    refine ⟨e, rfl, ?_⟩
    have h1 : some (Complete.encode ⟨"workflowExecutionComplete".toList, toExecution env x e⟩) =
        some u := h1
    injection h1 with h1
    subst h1
    have h2 : some (toExecution env x e).encode = some w := h2
    injection h2 with h2
    exact h2.symm

theorem names_encode {env : Workflow.Env G F} {x : Rest F} {e : Workflow.Exec F} {input : Json F}
    {names : List (List Char)} (h : Workflow.SaysWhat input e names) :
    Names (toExecution env x e).encode input names := by
  obtain ⟨h1, h2, h3⟩ := h
  refine ⟨?_, ⟨_, rfl, ?_⟩, ?_⟩
  · rw [← h1]; rfl
  · show List.map _ (encodeStates (e.states.map (toState env x))) = _
    rw [encodeStates_map, List.map_map, List.map_map, ← h2, List.map_map]
    refine List.map_congr_left ?_
    intro r _
    show field (toState env x r).encode "name" = _
    rw [field_name, (toState_name env x r).1]
    rfl
  · intro n hn
    show some (orNull .str e.current) = _
    rw [h3, hn]
    rfl

/-- **C145, partial.** All of it but the text that describes the status: if the execution succeeded, it
says that the last state is being executed, whereas for one that failed it has the error of the state that
failed, as that state has it. -/
theorem history_partial [DecidableEq F] {env : Workflow.Env G F} (x : Rest F) (hs : Sequential env)
    (hsave : ∀ log e, env.save log e = true) {input : Json F} {s : Workflow.S F}
    {p : Workflow.Proc G F} (h : Reach env input (s, p)) :
    Events (fun ev before => ∀ w, ended (toEvent env x ev).encode w →
      Names w input (entered before).reverse ∧ field w "id" = some (.str x.id) ∧
      ((field w "status" = some (.str "SUCCEEDED".toList) ∧
          ∃ n, (entered before).head? = some n ∧
            field w "statusDetail" = some (.str ("Executing state: ".toList ++ n))) ∨
        (field w "status" = some (.str "FAILED".toList) ∧
          ∃ l v n name t, field w "states" = some (.arr l) ∧ v ∈ l ∧ field v "name" = some (.str n) ∧
            field v "status" = some (.str "FAILED".toList) ∧ field v "error" = field w "statusDetail" ∧
            field w "statusDetail" = some (.str ("Error executing state \"".toList ++ n ++
              "\" [".toList ++ name ++ "]: ".toList ++ t))))) s.log := by
  intro later ev before hl w hw
  obtain ⟨e, rfl, rfl⟩ := ended_complete hw
  obtain ⟨h1, h2⟩ : Workflow.SaysWhat input e (entered before).reverse ∧ Workflow.SaysHow e :=
    Workflow.told hs hsave h later _ before hl
  refine ⟨names_encode h1, rfl, ?_⟩
  rcases h2 with ⟨h3, n, h4, h5⟩ | ⟨h3, r, h4, h5, n, m, h6, h7⟩
  · refine Or.inl ⟨?_, n, ?_, ?_⟩
    · show some (Json.str (statusName e.status)) = _
      rw [h3]; rfl
    · have := h1.2.2
      rw [h4, List.getLast?_reverse] at this
      exact this.symm
    · show some (Json.str (detailText env e.detail)) = _
      rw [h5]; rfl
  · have hd : field (toExecution env x e).encode "statusDetail" =
        some (.str (errorText env (r.name, n, m))) := by
      show some (Json.str (detailText env e.detail)) = _
      rw [h7]; rfl
    refine Or.inr ⟨?_, _, (toState env x r).encode, r.name, n, env.text m, rfl, ?_, ?_, ?_,
      ?_, ?_⟩
    · show some (Json.str (statusName e.status)) = _
      rw [h3]; rfl
    · rw [encodeStates_map]
      exact List.mem_map_of_mem (List.mem_map_of_mem h4)
    · rw [field_name, (toState_name env x r).1]
    · rw [field_status, (toState_name env x r).2.1, h5]; rfl
    · rw [hd, field_error, (toState_name env x r).2.2.1, h6]; rfl
    · rw [hd]
      rfl

/-- A step that succeeds. -/
def stepEnv : Workflow.Env (Option Int) Int :=
  Workflow.demoEnv [(['a'], Workflow.single)] (fun _ _ v => .ok v)

theorem stepEnv_sequential : Sequential stepEnv := by
  intro n c h
  simp only [stepEnv, Workflow.demoEnv, List.mem_cons, List.not_mem_nil, or_false, Prod.mk.injEq] at h
  rw [h.2]
  exact nofun

theorem stepEnv_ends : ∃ s p e before, Reach stepEnv .null (s, p) ∧
    s.log = .event (.complete e) :: before ∧ e.status = .succeeded :=
  ⟨_, _, _, _, Workflow.reach_start stepEnv .null 4, rfl, rfl⟩

/-- **C145 is false of the code**: an execution that succeeded says that it is executing a state. -/
theorem history_violated : ¬ FullHistory := by
  intro h
  obtain ⟨s, p, e, before, hr, hl, he⟩ := stepEnv_ends
  have hw : ended (toEvent stepEnv demoRest (.complete e)).encode
      (toExecution stepEnv demoRest e).encode := ⟨_, rfl, rfl⟩
  have h1 := h stepEnv demoRest .null s p stepEnv_sequential (fun _ _ => rfl) hr [] _ before hl _ hw
  obtain ⟨_, _, h2⟩ := history_partial demoRest stepEnv_sequential (fun _ _ => rfl) hr [] _ before hl _ hw
  rcases h2 with ⟨_, n, _, hd⟩ | ⟨h3, _⟩
  · exact h1.2 ⟨n, hd⟩
  · have h3 : some (Json.str (statusName e.status)) = some (.str "FAILED".toList) := h3
    rw [he] at h3
    revert h3
    decide

/-- Each execution that succeeded is such a case. -/
theorem history_busy [DecidableEq F] {env : Workflow.Env G F} (x : Rest F) (hs : Sequential env)
    (hsave : ∀ log e, env.save log e = true) {input : Json F} {s : Workflow.S F}
    {p : Workflow.Proc G F} (h : Reach env input (s, p)) :
    Events (fun ev _ => ∀ w, ended (toEvent env x ev).encode w →
      field w "status" = some (.str "SUCCEEDED".toList) → Busy w) s.log := by
  intro later ev before hl w hw hst
  obtain ⟨_, _, h2⟩ := history_partial x hs hsave h later ev before hl w hw
  rcases h2 with ⟨_, n, _, hd⟩ | ⟨h3, _⟩
  · exact ⟨n, hd⟩
  · rw [hst] at h3
    injection h3 with h3
    injection h3 with h3
    exact absurd h3 (by decide)

/-- **C146**, on the wire: the list of the branches of every state in the last event is empty. -/
theorem branches_empty [DecidableEq F] {env : Workflow.Env G F} (x : Rest F) {input : Json F}
    {s : Workflow.S F} {p : Workflow.Proc G F} (h : Reach env input (s, p)) :
    Events (fun ev _ => ∀ w, ended (toEvent env x ev).encode w → ∀ l, field w "states" = some (.arr l) →
      ∀ v ∈ l, field v "parallel" = some (.arr [])) s.log := by
  intro later ev before hl w hw l hls v hv
  obtain ⟨e, rfl, rfl⟩ := ended_complete hw
  have hls : some (Json.arr (encodeStates (e.states.map (toState env x)))) = some (.arr l) := hls
  injection hls with hls
  injection hls with hls
  rw [← hls, encodeStates_map, List.map_map, List.mem_map] at hv
  obtain ⟨r, hr, rfl⟩ := hv
  have hp := Workflow.branches_never h (.event (.complete e)) (by rw [hl]; simp) r hr
  show field (toState env x r).encode "parallel" = _
  rw [field_parallel, (toState_name env x r).2.2.2, hp]
  rfl

/-! ## C127, C85 and C133: times, outputs and the start, on the wire -/

theorem mem_completions {log later before : List (Workflow.Entry F)} {e : Workflow.Exec F}
    (h : log = later ++ .event (.complete e) :: before) : e ∈ Workflow.completions log := by
  rw [h, Workflow.completions, List.mem_filterMap]
  exact ⟨.event (.complete e), by simp, rfl⟩

theorem field_started (s : State F) : field s.encode "started" = some (.int s.started) := by
  cases s
  rw [State.encode]
  rfl

theorem toState_started (env : Workflow.Env G F) (x : Rest F) (r : Workflow.Rec F) :
    (toState env x r).started = r.started.toNat := by
  cases r
  rw [toState]

/-- The last event says how long the execution took and, if it succeeded, when it ended, not before its
states started; that of an execution that failed has no such time. It never has an output. -/
theorem times_sent [DecidableEq F] {env : Workflow.Env G F} (x : Rest F) (hc : Workflow.Clock env)
    {input : Json F} {s : Workflow.S F} {p : Workflow.Proc G F} (h : Reach env input (s, p)) :
    Events (fun ev _ => ∀ w, ended (toEvent env x ev).encode w →
      (∃ d, field w "duration" = some (.float (x.seconds d))) ∧
      field w "started" = some (.int x.started) ∧ field w "output" = some .null ∧
      (field w "status" = some (.str "SUCCEEDED".toList) →
        ∃ t : Int, field w "completed" = some (.int t) ∧ ∃ l, field w "states" = some (.arr l) ∧
          ∀ v ∈ l, ∃ u : Int, field v "started" = some (.int u) ∧ u ≤ t) ∧
      (field w "status" = some (.str "FAILED".toList) → Sequential env →
        (∀ log e, env.save log e = true) → field w "completed" = some .null)) s.log := by
  intro later ev before hl w hw
  obtain ⟨e, rfl, rfl⟩ := ended_complete hw
  have hm := mem_completions hl
  obtain ⟨hd, hst⟩ := (Workflow.times_partial hc h).2 e hm
  have ho := (Workflow.output_never h).2 e hm
  refine ⟨?_, rfl, ?_, ?_, ?_⟩
  · cases hdu : e.duration with
    | none => rw [hdu] at hd; cases hd
    | some d =>
      refine ⟨d, ?_⟩
      show some (orNull .float (e.duration.map x.seconds)) = _
      rw [hdu]
      rfl
  · show some (orNull (fun v => v) e.output) = _
    rw [ho]
    rfl
  · intro hs
    have hs : some (Json.str (statusName e.status)) = some (.str "SUCCEEDED".toList) := hs
    rcases hst with hst | ⟨hst, hend⟩
    · rw [hst] at hs
      injection hs with hs
      injection hs with hs
      exact absurd hs (by decide)
    · obtain ⟨_, t, ht, hr⟩ := hend
      refine ⟨(t.toNat : Int), ?_, _, rfl, ?_⟩
      · show some (orNull nat (e.completed.map Int.toNat)) = _
        rw [ht]
        rfl
      · intro v hv
        rw [encodeStates_map] at hv
        simp only [toExecution, List.mem_map] at hv
        obtain ⟨_, ⟨r, hr', rfl⟩, rfl⟩ := hv
        refine ⟨_, field_started _, ?_⟩
        rw [toState_started]
        have := (hr r hr').1
        omega
  · intro hs hseq hsv
    have hs : some (Json.str (statusName e.status)) = some (.str "FAILED".toList) := hs
    have hf : e.status = .failed := by
      rcases hst with hst | ⟨hst, _⟩
      · exact hst
      · rw [hst] at hs
        injection hs with hs
        injection hs with hs
        exact absurd hs (by decide)
    show some (orNull nat (e.completed.map Int.toNat)) = _
    rw [Workflow.failed_untimed hseq hsv h e hm hf]
    rfl

/-- The names of the statuses of stored executions. -/
def storedName : ExecStore.Status → String
  | .preparing => "PREPARING"
  | .inProgress => "IN_PROGRESS"
  | .failed => "FAILED"
  | .succeeded => "SUCCEEDED"

/-- The state machine starts with the execution that was stored when it was asked for. -/
theorem starts_with_stored {D : Type} (store : ExecStore.Store (Json F) D (State F)) (name : Option String)
    (uuid : String) (now : Nat) (input : Json F) (env : Workflow.Env G F) (x : Rest F)
    (hx : x.id = (name.getD uuid).toList) (hn : x.started = now) :
    ∃ e, (ExecStore.runHandler store name uuid now input).1.get (name.getD uuid) = some e ∧
      (toExecution env x (Workflow.start env input).1.exec).encode =
        .obj [("id".toList, .str e.id.toList), ("input".toList, e.input), ("output".toList, .null),
          ("started".toList, .int e.started), ("completed".toList, .null), ("duration".toList, .null),
          ("status".toList, .str (storedName e.status).toList),
          ("statusDetail".toList, .str e.statusDetail.toList), ("currentState".toList, .null),
          ("states".toList, .arr [])] ∧
      e.output = none ∧ e.completed = none ∧ e.duration = none ∧ e.currentState = none ∧
      e.states = [] := by
  refine ⟨_, by rw [ExecStore.runHandler, ExecStore.save_get, if_pos rfl], ?_, rfl, rfl, rfl, rfl, rfl⟩
  rw [Execution.encode]
  dsimp only [toExecution, Workflow.start, Workflow.initial]
  rw [hx, hn]
  rfl

end Verif.FlowApi
