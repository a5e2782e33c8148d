import Verif.Blueprint.SourceTop
import Verif.Blueprint.Props

/-!
# Property theorems about what a blueprint means (C110)
-/

namespace Verif.Blueprint.Source

open Verif Verif.Subst Verif.Subst.Spec

variable {F : Type} (cx : Ctx F) (env : Env)

/-- C110, JSON: the document of a blueprint is loaded exactly as what the blueprint means; it is
rejected exactly when it means nothing. -/
theorem json_meaning {x : Blueprint cx.cls F} (g : Good x) (y : ResConfig F) :
    fromJson cx env (write x) = .ok y ↔ BlueprintM cx env .json x y :=
  blueprint_json cx env x g y

/-- C110, YAML; documents after the first have no effect. -/
theorem yaml_meaning {x : Blueprint cx.cls F} (g : Good x) (rest : List (Doc F)) (y : ResConfig F) :
    fromYaml cx env (write x :: rest) = .ok y ↔ BlueprintM cx env .yaml x y :=
  blueprint_yaml cx env x g rest y

/-- C110: a blueprint means at most one thing in a format. -/
theorem meaning_unique {x : Blueprint cx.cls F} (g : Good x) {f : Format} {y z : ResConfig F}
    (hy : BlueprintM cx env f x y) (hz : BlueprintM cx env f x z) : y = z := by
  cases f with
  | json =>
    have := ((json_meaning cx env g y).2 hy).symm.trans ((json_meaning cx env g z).2 hz)
    cases this
    rfl
  | yaml =>
    have := ((yaml_meaning cx env g [] y).2 hy).symm.trans ((yaml_meaning cx env g [] z).2 hz)
    cases this
    rfl

/-! ## An example -/

/-- A text without references. -/
def plain (s : String) (h : containsOpener s.toList = false := by decide) : Text asciiClass :=
  ⟨[.lit s.toList], by
    refine ⟨by simp, by simp, ?_⟩
    intro pre mid post e _ ho
    have hm : mid = [] ∨ mid = [.lit s.toList] := by
      cases mid with
      | nil => exact .inl rfl
      | cons a m =>
        refine .inr ?_
        have hl := congrArg List.length e
        simp at hl
        have h1 : m = [] := List.length_eq_zero_iff.1 (by omega)
        have h2 : pre = [] := List.length_eq_zero_iff.1 (by omega)
        subst h1 h2
        simp at e
        rw [e.1]
    rcases hm with rfl | rfl
    · obtain ⟨a, b, h⟩ := ho
      simp [render] at h
    · have := (containsOpener_iff _).2 ho
      have e : render [.lit s.toList] = s.toList := List.append_nil _
      rw [e, h] at this
      exact absurd this (by decide)⟩

/-- A reference to the variable `stage`. -/
def stageRef : Text asciiClass :=
  ⟨[.dot "stage".toList], by
    refine ⟨?_, by simp, ?_⟩
    · intro n hn
      simp at hn
      subst hn
      exact ⟨'s', "tage".toList, rfl, by decide, by decide⟩
    · intro pre mid post e hl ho
      have hm : mid = [] := by
        cases mid with
        | nil => rfl
        | cons a m =>
          have hm : a ∈ [Tmpl.dot "stage".toList] := by rw [e]; simp
          have := hl a (List.mem_cons_self ..)
          simp at hm
          subst hm
          cases this
      subst hm
      obtain ⟨a, b, h⟩ := ho
      simp [render] at h⟩

/-- A handler. -/
def exampleHandler : SResource asciiClass Unit :=
  { type := .handler,
    metadata := { displayName := stageRef, labels := some [("app".toList, "a".toList)] },
    spec := some (.handler { handler := plain "index.handler",
                             memory := some (.lit ⟨512, by decide⟩),
                             environmentVariables := some [("STAGE".toList, stageRef)] }) }

/-- A workflow that waits. -/
def exampleWorkflow : SResource asciiClass Unit :=
  { type := .workflow, metadata := { displayName := plain "W" },
    spec := some (.workflow
      { startAt := plain "pause",
        states := [("pause".toList,
          .mk { stateType := plain "wait", end_ := some (.lit true),
                waitConfig := some { seconds := some stageRef } } none)] }) }

def exampleVariables : List (Str × Variable Unit) :=
  [("stage".toList, { type := "string".toList, default := some (.int 5) })]

def exampleSource : Blueprint asciiClass Unit :=
  { version := "2025-05-12".toList, transform := some ["celerity-2025-05-12".toList],
    variables := some exampleVariables,
    resources := [("h".toList, exampleHandler), ("w".toList, exampleWorkflow)],
    metadata := some none }

theorem opt_some (k : String) (v : Doc F) (rest : List (Str × Doc F)) :
    opt k (some v) ++ rest = (k.toList, v) :: rest := rfl
theorem opt_none (k : String) (rest : List (Str × Doc F)) : opt k none ++ rest = rest := rfl
theorem req_app (k : String) (v : Doc F) (rest : List (Str × Doc F)) :
    req k v ++ rest = (k.toList, v) :: rest := rfl

theorem exampleSource_distinct : Distinct (write exampleSource) := by
  unfold write exampleSource exampleHandler exampleWorkflow
  dsimp only [Option.map_some, Option.map_none, opt_some, opt_none, req_app]
  repeat first
  | exact Distinct.str _ | exact Distinct.int _ | exact Distinct.bool _
  | exact List.forall_mem_nil _
  | refine List.forall_mem_cons.2 ⟨?_, ?_⟩
  | refine Distinct.obj _ (by decide +kernel) ?_
  | refine Distinct.arr _ ?_
  | (show Distinct (wBranch _); rw [wBranch])
  | rw [wStates] | rw [wStateEntry] | rw [wState]

theorem exampleHandler_type (s) (h : exampleHandler.spec = some s) :
    specType s = exampleHandler.type := by
  unfold exampleHandler at h
  injection h with h
  subst h
  rfl

theorem exampleWorkflow_type (s) (h : exampleWorkflow.spec = some s) :
    specType s = exampleWorkflow.type := by
  unfold exampleWorkflow at h
  injection h with h
  subst h
  rfl

theorem exampleSource_good : Good exampleSource where
  types := List.forall_mem_cons.2 ⟨exampleHandler_type,
    List.forall_mem_cons.2 ⟨exampleWorkflow_type, List.forall_mem_nil _⟩⟩
  distinct := exampleSource_distinct

def handlerMeaning : ResResource Unit :=
  { type := .handler,
    metadata := { displayName := "prod".toList, labels := some [("app".toList, "a".toList)] },
    spec := some (.handler { handler := "index.handler".toList, memory := some 512,
                             environmentVariables := some [("STAGE".toList, "prod".toList)] }) }

def workflowMeaning : ResResource Unit :=
  { type := .workflow, metadata := { displayName := "W".toList },
    spec := some (.workflow
      { startAt := "pause".toList,
        states := [("pause".toList,
          .mk { stateType := .wait, end_ := some true,
                waitConfig := some { seconds := some "prod".toList } } none)] }) }

/-- What the example means when `stage` is `prod`; `m` is the metadata. -/
def exampleMeaning (m : Option (Option (Shared Str Int Bool))) : ResConfig Unit :=
  { version := "2025-05-12".toList, transform := some ["celerity-2025-05-12".toList],
    variables := some exampleVariables,
    resources := [("h".toList, handlerMeaning), ("w".toList, workflowMeaning)],
    metadata := m }

theorem plainM (env : Env) (s : String) (h) : TextM env (plain s h) s.toList :=
  congrArg some (List.append_nil _)

theorem stageM : TextM stageEnv stageRef "prod".toList := by
  have h : varEnvName "stage".toList = "CELERITY_VARIABLE_stage".toList := by decide
  simp only [TextM, stageRef, expand, h, stageEnv, if_true, List.append_nil]

theorem plainFilled (s : String) (h) (hs : s.toList ≠ []) : Filled (plain s h) := fun e =>
  hs ((List.append_nil _).symm.trans e)

theorem stageFilled : Filled stageRef := by
  unfold Filled stageRef
  decide

theorem handlerM (f : Format) :
    ResourceM exampleCtx stageEnv f exampleHandler handlerMeaning :=
  ⟨rfl, ⟨stageM, trivial, rfl, fun _ => stageFilled⟩, rfl, rfl,
    .handler ⟨trivial, trivial, plainM _ _ (by decide), trivial, rfl, trivial, trivial,
      .cons ⟨rfl, stageM⟩ .nil⟩⟩

theorem workflowM (f : Format) :
    ResourceM exampleCtx stageEnv f exampleWorkflow workflowMeaning :=
  ⟨rfl, ⟨plainM _ _ (by decide), trivial, rfl, fun _ => plainFilled _ (by decide) (by decide)⟩, rfl, rfl,
    .workflow ⟨plainM _ _ (by decide), .cons (.mk ⟨⟨_, plainM _ _ (by decide), rfl⟩, trivial, trivial, trivial,
      trivial, trivial, trivial, rfl, trivial, trivial, trivial, ⟨stageM, trivial⟩, trivial, trivial,
      trivial, fun _ => plainFilled _ (by decide) (by decide)⟩ .none) .nil⟩⟩

theorem variablesM : MRel (VariableM exampleCtx) exampleVariables exampleVariables :=
  .cons ⟨rfl, rfl, trivial, rfl, rfl, rfl, by decide⟩ .nil

/-- The example has a meaning in both formats, so the theorems say what it is loaded as. -/
example : fromJson exampleCtx stageEnv (write exampleSource) = .ok (exampleMeaning (some none)) ∧
    fromYaml exampleCtx stageEnv [write exampleSource] = .ok (exampleMeaning none) :=
  ⟨(json_meaning exampleCtx _ exampleSource_good _).2
    ⟨rfl, rfl, ⟨nofun, rfl⟩, variablesM,
      .keep trivial nofun (handlerM _) (.keep trivial nofun (workflowM _) .nil), trivial, nofun⟩,
   (yaml_meaning exampleCtx _ exampleSource_good [] _).2
    ⟨rfl, rfl, rfl, variablesM, .keep (by simp [Supported, exampleHandler]) nofun (handlerM _)
      (.keep (by simp [Supported, exampleWorkflow]) nofun (workflowM _) .nil), rfl, nofun⟩⟩

/-- Without the variable the example means nothing, so it is not loaded. -/
example (y : ResConfig Unit) :
    fromJson exampleCtx (fun _ => none) (write exampleSource) ≠ .ok y := fun h => by
  have h := ((json_meaning exampleCtx _ exampleSource_good y).1 h).resources
  have hn : ∀ s, ¬ TextM (fun _ => none) stageRef s := fun s h => nomatch h
  generalize y.resources = r at h
  cases h with
  | keep _ _ h _ => exact hn _ h.metadata.displayName
  | unsupported h _ => exact h trivial
  | noSpec _ h _ _ => cases h

end Verif.Blueprint.Source
