import Verif.Blueprint.PropLemmas

/-!
# Property theorems about loading blueprints (C07, C89-C96)
-/

namespace Verif.Blueprint

open Verif Verif.Subst Spec

variable {F : Type} (cx : Ctx F) (env : Env)

local notation k " ↦ " v => (String.toList k, v)
local notation "§" t => Doc.str (String.toList t)

/-! ## Documents for examples and witnesses -/

/-- A handler. -/
def handlerDoc : Doc F :=
  .obj ["type" ↦ § "celerity/handler", "metadata" ↦ .obj ["displayName" ↦ § "H"],
    "spec" ↦ .obj ["handler" ↦ § "index.handler", "memory" ↦ .int 512]]

/-- The handler as loaded, with the given amount of memory. -/
def handlerOut (memory : Int) : ResResource F :=
  { type := .handler, metadata := { displayName := "H".toList },
    spec := some (.handler { handler := "index.handler".toList, memory := some memory }) }

/-- A blueprint with the given fields after its version and the given resources. -/
def blueprintDoc (fields resources : List (Str × Doc F)) : Doc F :=
  .obj (["version" ↦ § "2025-05-12"] ++ fields ++ ["resources" ↦ .obj resources])

/-- The field `transform` as it is in all documentation. -/
def transformField : List (Str × Doc F) := ["transform" ↦ § "celerity-2025-05-12"]

/-- The blueprint as loaded. -/
def blueprintOut (transform : Option (List Str)) (resources : List (Str × ResResource F)) :
    ResConfig F :=
  { version := "2025-05-12".toList, transform, variables := none, resources, metadata := none }

/-- The contents of a text enclosed in quotation marks without escapes, for concrete cases. -/
def unquote : Str → Option Str
  | '"' :: t =>
    if t.getLast? = some '"' ∧ t.dropLast.all (fun c => c ≠ '"' ∧ c ≠ '\\' ∧ 32 ≤ c.toNat)
    then some t.dropLast else none
  | _ => none

/-- A context for concrete cases, without floats. -/
def exampleCtx : Ctx Unit where
  cls := asciiClass
  parseF _ := none
  ofInt _ := ()
  jsonString := unquote
  jsonString_start s t h := by
    unfold unquote at h
    split at h
    · next r => exact ⟨[], r, rfl, nofun⟩
    · cases h
  jsonString_plain t h := by
    simp only [unquote, List.getLast?_append, List.getLast?_singleton, Option.some_or, true_and,
      List.dropLast_concat]
    rw [if_pos]
    rw [List.all_eq_true]
    exact fun c hc => by simpa using h c hc

/-! ## C07 -/

/-- C07, in full: the two loaders load the same documents, and give the same blueprint. -/
def FullSame : Prop :=
  ∀ (d : Doc F) (c : ResConfig F), fromYaml cx env [d] = .ok c ↔ fromJson cx env d = .ok c

/-- A blueprint with a queue. -/
def queueDoc : Doc F :=
  blueprintDoc transformField
    ["h" ↦ handlerDoc, "q" ↦ .obj ["type" ↦ § "celerity/queue", "spec" ↦ .obj []]]

/-- The YAML loader drops resources of four types that the JSON loader keeps: `celerity/queue`,
`celerity/topic`, `celerity/bucket`, `celerity/config`. -/
theorem same_types_violated :
    fromYaml cx env [queueDoc] = .ok (blueprintOut (some ["celerity-2025-05-12".toList])
      ["h" ↦ handlerOut 512]) ∧
    ∃ q, fromJson cx env queueDoc = .ok (blueprintOut (some ["celerity-2025-05-12".toList])
      ["h" ↦ handlerOut 512, "q" ↦ q]) :=
  ⟨rfl, _, rfl⟩

/-- A blueprint whose handler has its fields in another order. -/
def orderDoc : Doc F :=
  blueprintDoc transformField
    ["h" ↦ .obj ["spec" ↦ .obj ["handler" ↦ § "index.handler", "memory" ↦ .int 512],
      "metadata" ↦ .obj ["displayName" ↦ § "H"], "type" ↦ § "celerity/handler"]]

/-- A resource whose specification precedes its type is an error for the JSON loader only. -/
theorem same_order_violated :
    fromYaml cx env [orderDoc] = .ok (blueprintOut (some ["celerity-2025-05-12".toList])
      ["h" ↦ handlerOut 512]) ∧
    fromJson cx env orderDoc = .err .format :=
  ⟨rfl, rfl⟩

/-- A blueprint whose handler has a field that the runtime does not know. -/
def extraDoc : Doc F :=
  blueprintDoc transformField
    ["h" ↦ .obj ["type" ↦ § "celerity/handler", "dependsOn" ↦ § "q",
      "metadata" ↦ .obj ["displayName" ↦ § "H"],
      "spec" ↦ .obj ["handler" ↦ § "index.handler", "memory" ↦ .int 512]]]

/-- An unknown field of a resource is an error for the JSON loader only. -/
theorem same_fields_violated :
    fromYaml cx env [extraDoc] = .ok (blueprintOut (some ["celerity-2025-05-12".toList])
      ["h" ↦ handlerOut 512]) ∧
    fromJson cx env extraDoc = .err .format :=
  ⟨rfl, rfl⟩

/-- The transform is optional for the YAML loader and required for the JSON loader. -/
theorem same_missing_transform_violated :
    fromYaml cx env [blueprintDoc [] ["h" ↦ handlerDoc]] =
      .ok (blueprintOut none ["h" ↦ handlerOut 512]) ∧
    fromJson cx env (blueprintDoc [] ["h" ↦ handlerDoc]) = .err .format :=
  ⟨rfl, rfl⟩

/-- A blueprint with a list of transforms. -/
def transformsDoc : Doc F :=
  blueprintDoc ["transform" ↦ .arr [§ "celerity-2025-05-12", § "other"]] ["h" ↦ handlerDoc]

/-- A list of transforms is ignored by the YAML loader. -/
theorem same_transforms_violated :
    fromYaml cx env [transformsDoc] = .ok (blueprintOut none ["h" ↦ handlerOut 512]) ∧
    fromJson cx env transformsDoc = .ok (blueprintOut
      (some ["celerity-2025-05-12".toList, "other".toList]) ["h" ↦ handlerOut 512]) :=
  ⟨rfl, rfl⟩

/-- A blueprint with a substitution for a number. -/
def substDoc : Doc F :=
  blueprintDoc transformField
    ["h" ↦ .obj ["type" ↦ § "celerity/handler", "metadata" ↦ .obj ["displayName" ↦ § "H"],
      "spec" ↦ .obj ["handler" ↦ § "index.handler", "memory" ↦ § "${variables.memory}"]]]

/-- An environment for it. -/
def memoryEnv : Env := fun k =>
  if k = "CELERITY_VARIABLE_memory".toList then some "512".toList else none

/-- A substitution in the place of a number or boolean is performed by the YAML loader only. -/
theorem same_substitutions_violated :
    fromYaml exampleCtx memoryEnv [substDoc] =
      .ok (blueprintOut (some ["celerity-2025-05-12".toList]) ["h" ↦ handlerOut 512]) ∧
    fromJson exampleCtx memoryEnv substDoc = .err (.resolve .valueMustBeInt) :=
  ⟨by with_unfolding_all rfl, rfl⟩

/-- C07 does not hold. -/
theorem same_violated : ¬ FullSame cx env := by
  intro h
  have h := (h orderDoc _).1 (same_order_violated cx env).1
  rw [(same_order_violated cx env).2] at h
  cases h

/-- C07 for portable blueprints (`Spec.Portable`): both loaders give the same blueprint or both
fail. What is missing are the documents of the theorems above. -/
theorem same_partial {d : Doc F} (h : Portable d) (c : ResConfig F) :
    fromYaml cx env [d] = .ok c ↔ fromJson cx env d = .ok c :=
  load_agree cx env h c []

/-- Splits a goal about all members of a concrete list. -/
local macro "members" : tactic => `(tactic|
  repeat' (first | exact List.forall_mem_nil _ | refine List.forall_mem_cons.2 ⟨?_, ?_⟩))

/-- Reduces the goal that concrete entries fit fields to the shapes of the values. -/
local macro "fits" : tactic => `(tactic| (
  refine ⟨by decide, ?_, by decide⟩
  members
  all_goals members
  all_goals (intro hk; first | exact absurd hk (by decide) | clear hk)))

/-- A portable blueprint with a variable, a shared configuration, a labelled handler with a
substitution, a schedule linked to it and a resource of a foreign type. -/
def portableDoc : Doc Unit :=
  .obj ["version" ↦ § "2025-05-12", "transform" ↦ § "celerity-2025-05-12",
    "variables" ↦ .obj ["stage" ↦ .obj ["type" ↦ § "string", "default" ↦ § "dev"]],
    "metadata" ↦ .obj ["sharedHandlerConfig" ↦ .obj ["timeout" ↦ .int 30]],
    "resources" ↦ .obj [
      "h" ↦ .obj ["type" ↦ § "celerity/handler",
        "metadata" ↦ .obj ["displayName" ↦ § "H", "labels" ↦ .obj ["app" ↦ § "a"]],
        "spec" ↦ .obj ["handler" ↦ § "h-${variables.stage}", "memory" ↦ .int 512]],
      "s" ↦ .obj ["type" ↦ § "celerity/schedule",
        "linkSelector" ↦ .obj ["byLabel" ↦ .obj ["app" ↦ § "a"]],
        "spec" ↦ .obj ["schedule" ↦ § "rate(1 hour)"]],
      "b" ↦ .obj ["type" ↦ § "aws/s3/bucket", "spec" ↦ .obj ["name" ↦ § "b"]]]]

theorem portableDoc_portable : Portable portableDoc := by
  refine ⟨_, rfl, ?_⟩
  fits
  · exact ⟨_, rfl⟩
  · exact ⟨_, rfl⟩
  · refine ⟨_, rfl, ?_⟩
    members
    refine ⟨_, rfl, ?_⟩
    fits
    · exact ⟨_, by decide, rfl⟩
    · exact .inl ⟨_, rfl⟩
  · refine ⟨_, rfl, ?_⟩
    fits
    refine ⟨_, rfl, ?_⟩
    fits
    exact ⟨30, by decide, by decide, rfl⟩
  · refine ⟨_, rfl, ?_⟩
    members
    · refine .known "celerity/handler" _ _ (.head _) ?_ ?_
      · fits
        · refine ⟨_, rfl, ?_⟩
          fits
          · exact ⟨_, by decide, rfl⟩
          · refine ⟨_, rfl, ?_⟩
            members
            exact ⟨_, rfl⟩
        · refine ⟨_, rfl, ?_⟩
          fits
          · exact ⟨_, rfl⟩
          · exact ⟨512, by decide, by decide, rfl⟩
      · unfold OnlyFields; decide
    · refine .known "celerity/schedule" _ _ (.tail _ (.tail _ (.tail _ (.head _)))) ?_ ?_
      · fits
        · refine ⟨_, rfl, ?_⟩
          fits
          refine ⟨_, rfl, ?_⟩
          members
          exact ⟨_, rfl⟩
        · refine ⟨_, rfl, ?_⟩
          fits
          exact ⟨_, rfl⟩
      · unfold OnlyFields; decide
    · exact .foreign _ _ (by decide) (by unfold OnlyFields; decide)

/-- The environment of the portable blueprint. -/
def stageEnv : Env := fun k =>
  if k = "CELERITY_VARIABLE_stage".toList then some "prod".toList else none

example : ∃ c, fromYaml exampleCtx stageEnv [portableDoc] = .ok c ∧
    fromJson exampleCtx stageEnv portableDoc = .ok c ∧
    c.resources.map (·.1) = ["h".toList, "s".toList] ∧
    (c.resources.map fun e => e.2.metadata.labels) = [some ["app" ↦ "a".toList], none] :=
  have ⟨c, h, h1, h2⟩ : ∃ c, fromYaml exampleCtx stageEnv [portableDoc] = .ok c ∧
      c.resources.map (·.1) = ["h".toList, "s".toList] ∧
      (c.resources.map fun e => e.2.metadata.labels) = [some ["app" ↦ "a".toList], none] :=
    ⟨_, by with_unfolding_all rfl, by with_unfolding_all rfl, by with_unfolding_all rfl⟩
  ⟨c, h, (same_partial _ _ portableDoc_portable c).1 h, h1, h2⟩

end Verif.Blueprint
