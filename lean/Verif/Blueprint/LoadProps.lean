import Verif.Blueprint.Props

/-!
# Property theorems about loading blueprints (C89-C92)
-/

namespace Verif.Blueprint

open Verif Verif.Subst Spec

variable {F : Type} (cx : Ctx F) (env : Env)

local notation k " ↦ " v => (String.toList k, v)
local notation "§" t => Doc.str (String.toList t)

/-! ## C89: loading never panics -/

/-- C89 for the JSON loader. -/
theorem json_never_panics (d : Doc F) : fromJson cx env d ≠ .panic :=
  bind_no_panic (rel_no_panic (jsonBlueprint_self cx d)) fun _ hb =>
    bind_no_panic (liftResolve_no_panic (resBlueprint_no_panic cx env (jsonBlueprint_self cx d) hb))
      fun _ _ => bind_no_panic
        (bind_no_panic (require_no_panic _) fun _ _ => require_no_panic _) fun _ _ => nofun

/-- C89, in full, for the YAML loader: it does not panic, whatever documents the text has. -/
def FullYamlNeverPanics : Prop := ∀ docs : List (Doc F), fromYaml cx env docs ≠ .panic

/-- A YAML text without documents, such as the empty text, makes the loader panic. -/
theorem yaml_never_panics_violated : ¬ FullYamlNeverPanics cx env := fun h => h [] rfl

/-- C89 for YAML texts with a document. Missing: the empty text, for which the loader panics. -/
theorem yaml_never_panics_partial (d : Doc F) (rest : List (Doc F)) :
    fromYaml cx env (d :: rest) ≠ .panic :=
  bind_no_panic (rel_no_panic (yamlBlueprint_self cx d)) fun _ hb =>
    liftResolve_no_panic (resBlueprint_no_panic cx env (yamlBlueprint_self cx d) hb)

example : fromYaml exampleCtx stageEnv [portableDoc, .null] ≠ .panic ∧
    fromJson exampleCtx stageEnv portableDoc ≠ .panic ∧
    fromJson exampleCtx stageEnv substDoc = .err (.resolve .valueMustBeInt) :=
  ⟨yaml_never_panics_partial _ _ _ _, json_never_panics _ _ _, rfl⟩

/-! ## C90: resources of foreign types have no effect -/

/-- C90 for the YAML loader: adding a resource of a foreign type to a blueprint, with any contents,
does not change what is loaded. -/
theorem yaml_foreign (k : Str) {v : Doc F} (hv : Foreign v) (pre post r₁ r₂ : List (Str × Doc F))
    (rest : List (Doc F)) :
    fromYaml cx env (.obj (pre ++ ("resources" ↦ .obj (r₁ ++ (k, v) :: r₂)) :: post) :: rest) =
      fromYaml cx env (.obj (pre ++ ("resources" ↦ .obj (r₁ ++ r₂)) :: post) :: rest) := by
  obtain ⟨m, t, rfl, hn, hm, ht⟩ := hv
  have h : yamlResourceEntry cx (.obj m) = .ok none := by
    simp only [yamlResourceEntry, yamlResource, get?_unique hn hm, readStr,
      (yamlType_unknown ht).1, Outcome.bind_ok, Outcome.bind_err]
  simp only [fromYaml]
  rw [yamlBlueprint_resources cx (fillMap_none h k r₁ r₂ [])]

/-- A foreign resource whose specification precedes its type. -/
def foreignDoc : Doc F :=
  .obj ["spec" ↦ .obj ["name" ↦ § "b"], "type" ↦ § "aws/s3/bucket", "dependsOn" ↦ .arr []]

theorem foreignDoc_foreign : Foreign (foreignDoc (F := F)) :=
  ⟨_, _, rfl, (by decide : ["spec".toList, "type".toList, "dependsOn".toList].Nodup),
    .tail _ (.head _), by decide⟩

example (rest : List (Doc F)) :
    fromYaml cx env (blueprintDoc transformField ["h" ↦ handlerDoc, "b" ↦ foreignDoc] :: rest) =
      .ok (blueprintOut (some ["celerity-2025-05-12".toList]) ["h" ↦ handlerOut 512]) :=
  (yaml_foreign cx env "b".toList foreignDoc_foreign
    ["version" ↦ § "2025-05-12", "transform" ↦ § "celerity-2025-05-12"] []
    ["h" ↦ handlerDoc] [] rest).trans rfl

/-- C90, in full, for the JSON loader. -/
def FullJsonForeign : Prop :=
  ∀ (k : Str) (v : Doc F), Foreign v → ∀ pre post r₁ r₂ : List (Str × Doc F),
    fromJson cx env (.obj (pre ++ ("resources" ↦ .obj (r₁ ++ (k, v) :: r₂)) :: post)) =
      fromJson cx env (.obj (pre ++ ("resources" ↦ .obj (r₁ ++ r₂)) :: post))

/-- A foreign resource with its specification before its type, or with a field that the runtime
does not know, makes the whole blueprint fail to load from JSON. -/
theorem json_foreign_violated : ¬ FullJsonForeign cx env := fun h => by
  have := h "b".toList foreignDoc foreignDoc_foreign
    ["version" ↦ § "2025-05-12", "transform" ↦ § "celerity-2025-05-12"] []
    ["h" ↦ handlerDoc] []
  have h' : Outcome.err Err.format = Outcome.ok
      (blueprintOut (some ["celerity-2025-05-12".toList]) ["h" ↦ handlerOut 512]) := this
  cases h'

/-- C90 for the JSON loader, for foreign resources that begin with their type and have only the
fields of resources. Missing: foreign resources with a field before the type or an unknown field. -/
theorem json_foreign_partial (k : Str) {t : Str} (ht : ∀ n ∈ typeNames, t ≠ n.toList)
    {m : List (Str × Doc F)} (hm : OnlyFields (resourceFields fun _ => True) m)
    (pre post r₁ r₂ : List (Str × Doc F)) :
    fromJson cx env (.obj (pre ++ ("resources" ↦
        .obj (r₁ ++ (k, .obj (("type" ↦ .str t) :: m)) :: r₂)) :: post)) =
      fromJson cx env (.obj (pre ++ ("resources" ↦ .obj (r₁ ++ r₂)) :: post)) := by
  simp only [fromJson]
  rw [jsonBlueprint_resources cx (fillMap_none (jsonResourceEntry_foreign cx ht hm) k r₁ r₂ [])]

example : fromJson cx env (blueprintDoc transformField
      ["b" ↦ .obj ["type" ↦ § "aws/s3/bucket", "spec" ↦ .null, "metadata" ↦ .int 1],
        "h" ↦ handlerDoc]) =
    .ok (blueprintOut (some ["celerity-2025-05-12".toList]) ["h" ↦ handlerOut 512]) :=
  (json_foreign_partial cx env "b".toList (t := "aws/s3/bucket".toList) (by decide)
    (m := ["spec" ↦ .null, "metadata" ↦ .int 1])
    (List.forall_mem_cons.2 ⟨⟨_, .tail _ (.head _), rfl⟩,
      List.forall_mem_cons.2 ⟨⟨_, .head _, rfl⟩, List.forall_mem_nil _⟩⟩)
    ["version" ↦ § "2025-05-12", "transform" ↦ § "celerity-2025-05-12"] []
    [] ["h" ↦ handlerDoc]).trans rfl

/-! ## C91: the order of the fields of a resource -/

/-- C91 for the YAML loader: reordering the fields of a resource does not change what is
loaded. -/
theorem yaml_order (k : Str) {m m' : List (Str × Doc F)} (hp : m.Perm m')
    (hn : (m.map (·.1)).Nodup) (pre post r₁ r₂ : List (Str × Doc F)) (rest : List (Doc F)) :
    fromYaml cx env (.obj (pre ++ ("resources" ↦ .obj (r₁ ++ (k, .obj m) :: r₂)) :: post) :: rest) =
      fromYaml cx env
        (.obj (pre ++ ("resources" ↦ .obj (r₁ ++ (k, .obj m') :: r₂)) :: post) :: rest) := by
  simp only [fromYaml]
  rw [yamlBlueprint_resources cx (fillMap_value (yamlResourceEntry_perm cx hp hn) k r₁ r₂ [])]

example (rest : List (Doc F)) : fromYaml cx env (orderDoc :: rest) =
    fromYaml cx env (blueprintDoc transformField ["h" ↦ handlerDoc] :: rest) :=
  yaml_order cx env "h".toList (List.reverse_perm
      ["type" ↦ § "celerity/handler", "metadata" ↦ .obj ["displayName" ↦ § "H"],
        "spec" ↦ .obj ["handler" ↦ § "index.handler", "memory" ↦ .int 512]])
    (by decide : ["spec".toList, "metadata".toList, "type".toList].Nodup)
    ["version" ↦ § "2025-05-12", "transform" ↦ § "celerity-2025-05-12"] [] [] [] rest

/-- C91, in full, for the JSON loader. -/
def FullJsonOrder : Prop :=
  ∀ (k : Str) (m m' : List (Str × Doc F)), m.Perm m' → (m.map (·.1)).Nodup →
    ∀ pre post r₁ r₂ : List (Str × Doc F),
    fromJson cx env (.obj (pre ++ ("resources" ↦ .obj (r₁ ++ (k, .obj m) :: r₂)) :: post)) =
      fromJson cx env (.obj (pre ++ ("resources" ↦ .obj (r₁ ++ (k, .obj m') :: r₂)) :: post))

/-- A blueprint whose resource has its specification before its type fails to load from JSON. -/
theorem json_order_violated : ¬ FullJsonOrder cx env := fun h => by
  have := h "h".toList _ _ (List.reverse_perm
      ["type" ↦ § "celerity/handler", "metadata" ↦ .obj ["displayName" ↦ § "H"],
        "spec" ↦ .obj ["handler" ↦ § "index.handler", "memory" ↦ .int 512]])
    (by decide : ["spec".toList, "metadata".toList, "type".toList].Nodup)
    ["version" ↦ § "2025-05-12", "transform" ↦ § "celerity-2025-05-12"] [] [] []
  have h' : Outcome.err Err.format = Outcome.ok
      (blueprintOut (some ["celerity-2025-05-12".toList]) ["h" ↦ handlerOut 512]) := this
  cases h'

/-- C91 for the JSON loader, for the fields after the type. Missing: moving the type, which must
precede the specification. -/
theorem json_order_partial (k : Str) (t : Doc F) {m m' : List (Str × Doc F)} (hp : m.Perm m')
    (hn : ((("type" ↦ t) :: m).map (·.1)).Nodup) (pre post r₁ r₂ : List (Str × Doc F)) :
    fromJson cx env (.obj (pre ++ ("resources" ↦
        .obj (r₁ ++ (k, .obj (("type" ↦ t) :: m)) :: r₂)) :: post)) =
      fromJson cx env (.obj (pre ++ ("resources" ↦
        .obj (r₁ ++ (k, .obj (("type" ↦ t) :: m')) :: r₂)) :: post)) := by
  simp only [fromJson]
  rw [jsonBlueprint_resources cx (fillMap_value (jsonResourceEntry_perm cx hp hn) k r₁ r₂ [])]

example : fromJson cx env (blueprintDoc transformField
      ["h" ↦ .obj ["type" ↦ § "celerity/handler",
        "spec" ↦ .obj ["handler" ↦ § "index.handler", "memory" ↦ .int 512],
        "metadata" ↦ .obj ["displayName" ↦ § "H"]]]) =
    fromJson cx env (blueprintDoc transformField ["h" ↦ handlerDoc]) :=
  json_order_partial cx env "h".toList (§ "celerity/handler")
    (m := ["spec" ↦ .obj ["handler" ↦ § "index.handler", "memory" ↦ .int 512],
      "metadata" ↦ .obj ["displayName" ↦ § "H"]]) (.swap _ _ _)
    (by decide : ["type".toList, "spec".toList, "metadata".toList].Nodup)
    ["version" ↦ § "2025-05-12", "transform" ↦ § "celerity-2025-05-12"] [] [] []

/-! ## C92: what every loaded blueprint satisfies -/

/-- C92, for the result of a load. -/
structure Sound (c : ResConfig F) : Prop where
  version : c.version = "2025-05-12".toList
  resources : c.resources ≠ []
  specs : ∀ e ∈ c.resources, e.2.spec.isSome = true
  types : ∀ vs, c.variables = some vs → ∀ e ∈ vs, e.2.type ≠ []

/-- C92 for the YAML loader. -/
theorem yaml_sound {docs : List (Doc F)} {c : ResConfig F} (h : fromYaml cx env docs = .ok c) :
    Sound c := by
  cases docs with
  | nil => cases h
  | cons d rest =>
    obtain ⟨b, hb, hc⟩ := fromYaml_parts cx env h
    obtain ⟨h1, h2, h3, h4⟩ := yamlBlueprint_inv cx hb
    have hv := validate_parts (validate_ok cx env h2 h3 h4 hc)
    obtain ⟨p1, _, _, p4⟩ := resBlueprint_parts cx env hc
    exact ⟨p1.trans h1, hv.1, resResources_all_specs cx env p4, hv.2⟩

/-- C92 for the JSON loader. -/
theorem json_sound {d : Doc F} {c : ResConfig F} (h : fromJson cx env d = .ok c) : Sound c := by
  obtain ⟨b, hb, hc, hv⟩ := fromJson_parts cx env h
  have hv := validate_parts hv
  obtain ⟨p1, _, _, p4⟩ := resBlueprint_parts cx env hc
  exact ⟨p1.trans (jsonBlueprint_version cx hb), hv.1, resResources_all_specs cx env p4, hv.2⟩

example : ∃ c, fromJson exampleCtx stageEnv portableDoc = .ok c ∧ Sound c :=
  have ⟨c, h⟩ : ∃ c, fromJson exampleCtx stageEnv portableDoc = .ok c :=
    ⟨_, by with_unfolding_all rfl⟩
  ⟨c, h, json_sound _ _ h⟩

example : fromJson exampleCtx stageEnv (blueprintDoc transformField []) = .err .format ∧
    fromYaml exampleCtx stageEnv [blueprintDoc transformField ["b" ↦ foreignDoc]] =
      .err .format :=
  ⟨rfl, rfl⟩

end Verif.Blueprint
