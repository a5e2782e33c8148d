import Verif.Blueprint.LoadProps
import Verif.Blueprint.PathLemmas

/-!
# Property theorems about loading blueprints: what is declared is loaded (C93-C96)
-/

namespace Verif.Blueprint

open Verif Verif.Subst Spec

variable {F : Type} (cx : Ctx F) (env : Env)

local notation k " ↦ " v => (String.toList k, v)
local notation "§" t => Doc.str (String.toList t)

/-- The names and types of the loaded resources. -/
def loaded (c : ResConfig F) : List (Str × Str) := c.resources.map fun e => (e.1, e.2.type.name)

/-! ## C93: the loaded resources are those declared -/

/-- C93, in full, for the YAML loader: the loaded resources are those of a type that the runtime
knows, under their names and with their types. -/
def FullYamlResources : Prop :=
  ∀ (d : Doc F) (rest : List (Doc F)) (c : ResConfig F) (rs : List (Str × Doc F)),
    fromYaml cx env (d :: rest) = .ok c → Resources d rs → loaded c = declared typeNames rs

/-- Queues, topics, buckets and configurations are not loaded from YAML. -/
theorem yaml_resources_violated : ¬ FullYamlResources cx env := fun h => by
  have h := h queueDoc [] _
    ["h" ↦ handlerDoc, "q" ↦ .obj ["type" ↦ § "celerity/queue", "spec" ↦ .obj []]]
    (same_types_violated cx env).1
    ⟨_, rfl, (by decide : ["version".toList, "transform".toList, "resources".toList].Nodup),
      .tail _ (.tail _ (.head _)), (by decide : ["h".toList, "q".toList].Nodup)⟩
  exact absurd (congrArg List.length h) (by decide : ¬ 1 = 2)

/-- The six types of resources that the YAML loader knows. -/
def yamlTypes : List String :=
  ["celerity/handler", "celerity/api", "celerity/consumer", "celerity/schedule",
    "celerity/handlerConfig", "celerity/workflow"]

/-- C93 for the YAML loader and six of the ten types. Missing: `celerity/config`,
`celerity/bucket`, `celerity/topic` and `celerity/queue`, which are dropped. -/
theorem yaml_resources_partial {d : Doc F} {rest : List (Doc F)} {c : ResConfig F}
    (h : fromYaml cx env (d :: rest) = .ok c) {rs : List (Str × Doc F)} (hd : Resources d rs) :
    loaded c = declared yamlTypes rs := by
  obtain ⟨m, rfl, hn, hm, hr⟩ := hd
  obtain ⟨b, hb, hc⟩ := fromYaml_parts cx env h
  have hs := (yamlBlueprint_inv cx hb).2.2.1
  have hk := fillMap_kinds (proj := fun r : RawResource F => r.type.name)
    (fun e _ o ho => yamlResourceEntry_kind cx ho) hr (List.forall_mem_nil _)
    (yamlBlueprint_fill cx hn hm hb)
  rw [loaded, resResources_kinds cx env (resBlueprint_parts cx env hc).2.2.2,
    List.filter_eq_self.2 hs, hk]
  rfl

example : ∃ c, fromYaml exampleCtx stageEnv [portableDoc] = .ok c ∧
    loaded c = [("h".toList, "celerity/handler".toList), ("s".toList, "celerity/schedule".toList)] :=
  have ⟨c, h⟩ : ∃ c, fromYaml exampleCtx stageEnv [portableDoc] = .ok c :=
    ⟨_, by with_unfolding_all rfl⟩
  ⟨c, h, (yaml_resources_partial _ _ h ⟨_, rfl,
    (by decide : ["version".toList, "transform".toList, "variables".toList, "metadata".toList,
      "resources".toList].Nodup), .tail _ (.tail _ (.tail _ (.tail _ (.head _)))),
    (by decide : ["h".toList, "s".toList, "b".toList].Nodup)⟩).trans rfl⟩

/-- C93, in full, for the JSON loader. -/
def FullJsonResources : Prop :=
  ∀ (d : Doc F) (c : ResConfig F) (rs : List (Str × Doc F)),
    fromJson cx env d = .ok c → Resources d rs → loaded c = declared typeNames rs

/-- A resource without a specification is silently dropped by the JSON loader. -/
theorem json_resources_violated : ¬ FullJsonResources cx env := fun h => by
  have h := h (blueprintDoc transformField
      ["h" ↦ handlerDoc, "g" ↦ .obj ["type" ↦ § "celerity/handler"]])
    (blueprintOut (some ["celerity-2025-05-12".toList]) ["h" ↦ handlerOut 512])
    ["h" ↦ handlerDoc, "g" ↦ .obj ["type" ↦ § "celerity/handler"]] rfl
    ⟨_, rfl, (by decide : ["version".toList, "transform".toList, "resources".toList].Nodup),
      .tail _ (.tail _ (.head _)), (by decide : ["h".toList, "g".toList].Nodup)⟩
  exact absurd (congrArg List.length h) (by decide : ¬ 1 = 2)

/-- C93 for the JSON loader and resources with a specification, whose type is written as a text or
not at all. Missing: resources without a specification, which are dropped. -/
theorem json_resources_partial {d : Doc F} {c : ResConfig F} (h : fromJson cx env d = .ok c)
    {rs : List (Str × Doc F)} (hd : Resources d rs) (ht : ∀ e ∈ rs, TextType e.2) :
    loaded c = declared typeNames (rs.filter fun e => hasSpec e.2) := by
  obtain ⟨m, rfl, hn, hm, hr⟩ := hd
  obtain ⟨b, hb, hc, _⟩ := fromJson_parts cx env h
  have hk := fillMap_kinds (proj := fun r : RawResource F => (r.type.name, r.spec.isSome))
    (kind := fun v => (kindOf typeNames v).map fun t => (t, hasSpec v))
    (fun e he o ho => jsonResourceEntry_kind cx (ht e he) ho) hr (List.forall_mem_nil _)
    (jsonBlueprint_fill cx hn hm hb)
  rw [loaded, resResources_kinds cx env (resBlueprint_parts cx env hc).2.2.2]
  have h1 : (b.resources.filter fun e => e.2.spec.isSome).map (fun e => (e.1, e.2.type.name)) =
      ((b.resources.map fun e => (e.1, (e.2.type.name, e.2.spec.isSome))).filter
        fun x => x.2.2).map fun x => (x.1, x.2.1) := by
    rw [List.filter_map, List.map_map]
    rfl
  rw [h1, hk, List.map_nil, List.nil_append]
  clear h1 hk ht hb hc h hr hm hn
  unfold declared
  induction rs with
  | nil => rfl
  | cons e rs ih =>
    cases hk : kindOf typeNames e.2 with
    | none =>
      rw [List.filterMap_cons, List.filter_cons]
      simp only [hk, Option.map_none]
      rw [ih]
      split
      · rw [List.filterMap_cons, hk]; rfl
      · rfl
    | some t =>
      rw [List.filterMap_cons, List.filter_cons]
      simp only [hk, Option.map_some]
      cases hs : hasSpec e.2 with
      | true =>
        rw [List.filter_cons, if_pos rfl, List.map_cons, ih, if_pos rfl, List.filterMap_cons, hk]
        rfl
      | false =>
        rw [List.filter_cons, if_neg Bool.false_ne_true, ih, if_neg Bool.false_ne_true]

example : ∃ c, fromJson cx env queueDoc = .ok c ∧ loaded c =
    [("h".toList, "celerity/handler".toList), ("q".toList, "celerity/queue".toList)] :=
  have ⟨q, h⟩ := (same_types_violated cx env).2
  ⟨_, h, (json_resources_partial cx env h ⟨_, rfl,
    (by decide : ["version".toList, "transform".toList, "resources".toList].Nodup),
    .tail _ (.tail _ (.head _)), (by decide : ["h".toList, "q".toList].Nodup)⟩
    (List.forall_mem_cons.2 ⟨by simp [TextType, handlerDoc], List.forall_mem_cons.2
      ⟨by simp [TextType], List.forall_mem_nil _⟩⟩)).trans rfl⟩

/-! ## C94: integers -/

/-- C94, for one loader and a range of integers: the memory and timeout of a handler, when written
as integers, are loaded as they are. -/
def IntegersKept (load : Doc F → Outcome Err (ResConfig F)) (range : Int → Prop) : Prop :=
  ∀ (d : Doc F) (c : ResConfig F) (k : Str) (fields spec : List (Str × Doc F)), load d = .ok c →
    Declares d k fields → ("type".toList, § "celerity/handler") ∈ fields →
    Inside fields "spec" spec → ∃ r h, (k, r) ∈ c.resources ∧ r.spec = some (.handler h) ∧
      (∀ n, range n → ("memory".toList, .int n) ∈ spec → h.memory = some n) ∧
      ∀ n, range n → ("timeout".toList, .int n) ∈ spec → h.timeout = some n

/-- C94 for the YAML loader: every integer is loaded as it is or rejected. -/
theorem yaml_integers (rest : List (Doc F)) :
    IntegersKept (fun d => fromYaml cx env (d :: rest)) fun _ => True := by
  intro d c k fields spec h hd ht ⟨hs, hi⟩
  obtain ⟨x, y, hx, hy, hin⟩ := fromYaml_resource cx env h hd ht (by decide)
  obtain ⟨_, _, _, hf⟩ := hd
  obtain ⟨p1, p2, _⟩ := yamlResource_parts cx hf hx
  obtain ⟨sp, hsp, hys⟩ := p2 _ hs
  rw [handler_of_name (p1 _ ht)] at hys
  obtain ⟨s, hh, hys⟩ := bind_eq_ok hys
  cases hys
  obtain ⟨r, hr, i1, i2⟩ := resResource_ints cx env hy hsp (yamlHandler_ints cx hi hh)
  exact ⟨y, r, hin, hr, fun n _ hn => resInt_scalar cx env rfl rfl (i1 n hn),
    fun n _ hn => resInt_scalar cx env rfl rfl (i2 n hn)⟩

/-- A blueprint with a handler with the given amount of memory. -/
def memoryDoc (n : Int) : Doc F :=
  blueprintDoc transformField
    ["h" ↦ .obj ["type" ↦ § "celerity/handler", "metadata" ↦ .obj ["displayName" ↦ § "H"],
      "spec" ↦ .obj ["handler" ↦ § "index.handler", "memory" ↦ .int n]]]

/-- The fields of the handler are where C94 looks for them. -/
theorem memoryDoc_declares (n : Int) : ∃ fields spec, Declares (F := F) (memoryDoc n) "h".toList fields ∧
    ("type".toList, § "celerity/handler") ∈ fields ∧ Inside fields "spec" spec ∧
    ("memory".toList, .int n) ∈ spec :=
  ⟨_, _, ⟨_, ⟨_, rfl, (by decide : ["version".toList, "transform".toList, "resources".toList].Nodup),
      .tail _ (.tail _ (.head _)), (by decide : ["h".toList].Nodup)⟩, .head _,
      (by decide : ["type".toList, "metadata".toList, "spec".toList].Nodup)⟩,
    .head _, ⟨.tail _ (.tail _ (.head _)), (by decide : ["handler".toList, "memory".toList].Nodup)⟩,
    .tail _ (.head _)⟩

example (rest : List (Doc F)) : ∃ c r h, fromYaml cx env (memoryDoc 4096 :: rest) = .ok c ∧
    (("h" ↦ r) ∈ c.resources) ∧ r.spec = some (.handler h) ∧ h.memory = some 4096 :=
  have ⟨_, _, h1, h2, h3, h4⟩ := memoryDoc_declares (F := F) 4096
  have hl : fromYaml cx env (memoryDoc 4096 :: rest) =
    .ok (blueprintOut (some ["celerity-2025-05-12".toList]) ["h" ↦ handlerOut 4096]) := rfl
  have ⟨r, h, hin, hs, hm, _⟩ := yaml_integers cx env rest _ _ _ _ _ hl h1 h2 h3
  ⟨_, r, h, hl, hin, hs, hm _ trivial h4⟩

/-- Integers that do not fit 64 bits are rejected. -/
example : fromYaml cx env [memoryDoc (2 ^ 63)] = .err .format := by
  with_unfolding_all rfl

/-- What is read from JSON, given the memory as read. -/
def memoryRaw (n : Node F) : RawConfig F where
  version := "2025-05-12".toList
  transform := some ["celerity-2025-05-12".toList]
  resources := [("h".toList, ⟨.handler, ⟨[.str "H".toList], none, none⟩, none, none,
    some (.handler { handler := [.str "index.handler".toList], memory := some n })⟩)]

theorem jsonBlueprint_memory (n : Int) : jsonBlueprint cx (memoryDoc n) =
    .ok (memoryRaw (.scalar (jsonIntNode cx n))) := rfl

/-- The JSON loader turns the integers from `2^63` to `2^64 - 1` into negative ones. -/
theorem json_integers_violated : fromJson cx env (memoryDoc (2 ^ 64 - 1)) =
      .ok (blueprintOut (some ["celerity-2025-05-12".toList]) ["h" ↦ handlerOut (-1)]) ∧
    ¬ IntegersKept (fromJson cx env) fun _ => True := by
  have hi : jsonIntNode cx (2 ^ 64 - 1) = .int (-1) := by
    unfold jsonIntNode wrapI64
    rw [if_pos (by decide), if_neg (by decide)]
    rfl
  have hl : fromJson cx env (memoryDoc (2 ^ 64 - 1)) =
      .ok (blueprintOut (some ["celerity-2025-05-12".toList]) ["h" ↦ handlerOut (-1)]) := by
    unfold fromJson
    rw [jsonBlueprint_memory, hi]
    rfl
  refine ⟨hl, fun h => ?_⟩
  obtain ⟨_, _, h1, h2, h3, h4⟩ := memoryDoc_declares (F := F) (2 ^ 64 - 1)
  obtain ⟨r, h', hin, hs, hm, _⟩ := h _ _ _ _ _ hl h1 h2 h3
  have hr : r = handlerOut (-1) := congrArg Prod.snd (List.mem_singleton.1 hin)
  have hh : RSpec.handler h' = RSpec.handler (S := Str) (I := Int) (B := Bool) (R := F)
      (N := RNode F) { handler := "index.handler".toList, memory := some (-1) } :=
    Option.some.inj (hs.symm.trans (congrArg Resource.spec hr))
  have hm' : h'.memory = some (-1) := by injection hh with hh; rw [hh]
  have := hm'.symm.trans (hm _ trivial h4)
  exact absurd (Option.some.inj this) (by decide)

/-- C94 for the JSON loader and integers of 64 bits. Missing: integers from `2^63` to `2^64 - 1`,
which are loaded as negative numbers. -/
theorem json_integers_partial :
    IntegersKept (fromJson cx env) fun n => -(2 ^ 63) ≤ n ∧ n < 2 ^ 63 := by
  intro d c k fields spec h hd ht ⟨hs, hi⟩
  obtain ⟨x, y, hx, hy, hin⟩ := fromJson_resource cx env h hd ht (by decide) hs
  obtain ⟨_, _, _, hf⟩ := hd
  obtain ⟨p1, p2, _⟩ := jsonResource_parts cx hf hx
  obtain ⟨sp, hsp, hys⟩ := p2 _ hs
  rw [handler_of_name (p1 _ ht)] at hys
  obtain ⟨s, hh, hys⟩ := bind_eq_ok hys
  cases hys
  obtain ⟨r, hr, i1, i2⟩ := resResource_ints cx env hy hsp (jsonHandler_ints cx hi hh)
  have key : ∀ n : Int, -(2 ^ 63) ≤ n ∧ n < 2 ^ 63 → jsonIntNode cx n = .int n := by
    intro n hn
    unfold jsonIntNode wrapI64
    by_cases h0 : 0 ≤ n
    · rw [if_pos ⟨h0, by omega⟩, if_pos hn.2]
    · rw [if_neg (by omega), if_pos ⟨hn.1, by omega⟩]
  exact ⟨y, r, hin, hr, fun n h hn => resInt_scalar cx env (key n h) rfl (i1 n hn),
    fun n h hn => resInt_scalar cx env (key n h) rfl (i2 n hn)⟩

example : ∃ c r h, fromJson cx env (memoryDoc 4096) = .ok c ∧
    (("h" ↦ r) ∈ c.resources) ∧ r.spec = some (.handler h) ∧ h.memory = some 4096 :=
  have ⟨_, _, h1, h2, h3, h4⟩ := memoryDoc_declares (F := F) 4096
  have hl : fromJson cx env (memoryDoc 4096) =
    .ok (blueprintOut (some ["celerity-2025-05-12".toList]) ["h" ↦ handlerOut 4096]) := rfl
  have ⟨r, h, hin, hs, hm, _⟩ := json_integers_partial cx env _ _ _ _ _ hl h1 h2 h3
  ⟨_, r, h, hl, hin, hs, hm _ (by decide) h4⟩

/-! ## C95: texts in annotations -/

/-- C95, for one loader, some types of resources and a set of texts: an annotation of a resource
that is written as a text without substitutions is loaded as that text. -/
def TextsKept (load : Doc F → Outcome Err (ResConfig F)) (types : List String)
    (texts : Str → Prop) : Prop :=
  ∀ (d : Doc F) (c : ResConfig F) (k : Str) (t : String)
    (fields spec metadata annotations : List (Str × Doc F)) (a s : Str), load d = .ok c →
    Declares d k fields → t ∈ types → ("type".toList, .str t.toList) ∈ fields →
    Inside fields "spec" spec → Inside fields "metadata" metadata →
    Inside metadata "annotations" annotations → (a, .str s) ∈ annotations → Literal s → texts s →
    ∃ r l, (k, r) ∈ c.resources ∧ r.metadata.annotations = some l ∧ (a, .str s) ∈ l

/-- C95 for the YAML loader. -/
theorem yaml_texts (rest : List (Doc F)) :
    TextsKept (fun d => fromYaml cx env (d :: rest)) yamlTypes fun _ => True := by
  intro d c k t fields spec metadata annotations a s h hd htn ht _ ⟨hm, hm'⟩ ⟨ha, ha'⟩ hs hl _
  obtain ⟨x, y, hx, hy, hin⟩ := fromYaml_resource cx env h hd ht htn
  obtain ⟨_, _, _, hf⟩ := hd
  obtain ⟨_, _, p3, _⟩ := yamlResource_parts cx hf hx
  obtain ⟨l, n, h1, h2, h3⟩ := yamlMeta_annotation cx hm' ha ha' hs (p3 _ hm)
  obtain ⟨l', z, h4, h5, h6⟩ := resMeta_annotation cx env (resResource_parts cx env hy).1 h1 h2
  simp only [yamlNode, parse_plain cx hl, liftParse, Outcome.bind_ok, Outcome.pure_eq,
    Outcome.ok.injEq] at h3
  subst h3
  cases h6
  exact ⟨y, l', hin, h4, h5⟩

/-- A blueprint with a handler with the given annotation. -/
def annotatedDoc (s : Str) : Doc F :=
  blueprintDoc transformField
    ["h" ↦ .obj ["type" ↦ § "celerity/handler",
      "metadata" ↦ .obj ["displayName" ↦ § "H", "annotations" ↦ .obj ["a" ↦ .str s]],
      "spec" ↦ .obj ["handler" ↦ § "index.handler", "memory" ↦ .int 512]]]

/-- What it is loaded as, given the loaded annotation. -/
def annotatedOut (x : Scalar F) : ResConfig F :=
  blueprintOut (some ["celerity-2025-05-12".toList])
    ["h" ↦ { handlerOut 512 with
      metadata := { displayName := "H".toList, annotations := some ["a" ↦ x] } }]

/-- What is read from JSON, given the annotation as read. -/
def annotatedRaw (n : Node F) : RawConfig F where
  version := "2025-05-12".toList
  transform := some ["celerity-2025-05-12".toList]
  resources := [("h".toList, ⟨.handler, ⟨[.str "H".toList], some [("a".toList, n)], none⟩, none, none,
    some (.handler { handler := [.str "index.handler".toList],
                     memory := some (.scalar (.int 512)) })⟩)]

theorem jsonBlueprint_annotated (s : Str) : jsonBlueprint cx (annotatedDoc s) =
    .ok (annotatedRaw (jsonStrNode cx s)) := rfl

/-- The JSON loader takes the quotation marks off a text that is enclosed in them. -/
theorem json_texts_violated :
    fromJson cx env (annotatedDoc "\"on\"".toList) = .ok (annotatedOut (.str "on".toList)) ∧
    ¬ TextsKept (fromJson cx env) typeNames fun _ => True := by
  have hn : jsonStrNode cx "\"on\"".toList = .subst [.str "on".toList] := by
    unfold jsonStrNode
    rw [show "\"on\"".toList = '"' :: ("on".toList ++ ['"']) from rfl,
      cx.jsonString_plain _ (by decide)]
    rfl
  have hl : fromJson cx env (annotatedDoc "\"on\"".toList) =
      .ok (annotatedOut (.str "on".toList)) := by
    unfold fromJson
    rw [jsonBlueprint_annotated, hn]
    rfl
  refine ⟨hl, fun h => ?_⟩
  obtain ⟨r, l, hin, ha, hs⟩ := h _ _ _ "celerity/handler" _ _ _ _ "a".toList _ hl
    ⟨_, ⟨_, rfl, (by decide : ["version".toList, "transform".toList, "resources".toList].Nodup),
      .tail _ (.tail _ (.head _)), (by decide : ["h".toList].Nodup)⟩, .head _,
      (by decide : ["type".toList, "metadata".toList, "spec".toList].Nodup)⟩
    (by decide) (.head _)
    ⟨.tail _ (.tail _ (.head _)), (by decide : ["handler".toList, "memory".toList].Nodup)⟩
    ⟨.tail _ (.head _), (by decide : ["displayName".toList, "annotations".toList].Nodup)⟩
    ⟨.tail _ (.head _), (by decide : ["a".toList].Nodup)⟩ (.head _)
    (fun a b h => by
      have : '$' ∈ "\"on\"".toList := h ▸ List.mem_append_right _ (List.mem_cons_self ..)
      exact absurd this (by decide)) trivial
  have hr := congrArg Prod.snd (List.mem_singleton.1 hin)
  have hl' : some l = some ["a" ↦ .str "on".toList] :=
    ha.symm.trans (congrArg (fun r : ResResource F => r.metadata.annotations) hr)
  rw [Option.some.inj hl'] at hs
  have := congrArg Prod.snd (List.mem_singleton.1 hs)
  injection this with this
  exact absurd this (by decide)

/-- C95 for the JSON loader and all texts that are not themselves JSON strings. Missing: texts that are,
which are loaded without their quotation marks and escapes. -/
theorem json_texts_partial :
    TextsKept (fromJson cx env) typeNames fun s => cx.jsonString s = none := by
  intro d c k t fields spec metadata annotations a s h hd htn ht ⟨hsp, _⟩ ⟨hm, hm'⟩ ⟨ha, ha'⟩ hs _ hq
  obtain ⟨x, y, hx, hy, hin⟩ := fromJson_resource cx env h hd ht htn hsp
  obtain ⟨_, _, _, hf⟩ := hd
  obtain ⟨_, _, p3⟩ := jsonResource_parts cx hf hx
  obtain ⟨l, n, h1, h2, h3⟩ := jsonMeta_annotation cx hm' ha ha' hs (p3 _ hm)
  obtain ⟨l', z, h4, h5, h6⟩ := resMeta_annotation cx env (resResource_parts cx env hy).1 h1 h2
  have hn : jsonStrNode cx s = .scalar (.str s) := by rw [jsonStrNode, hq]
  simp only [jsonNode, hn, Outcome.ok.injEq] at h3
  subst h3
  cases h6
  exact ⟨y, l', hin, h4, h5⟩

/-- Texts without quotation marks are not JSON strings. -/
theorem json_texts_plain {s : Str} (h : '"' ∉ s) : cx.jsonString s = none := by
  cases hs : cx.jsonString s with
  | none => rfl
  | some t => exact absurd (cx.jsonString_quote s t hs) h

example : ∃ c r l, fromJson exampleCtx env (annotatedDoc "a b".toList) = .ok c ∧
    (("h" ↦ r) ∈ c.resources) ∧ r.metadata.annotations = some l ∧ ("a".toList, .str "a b".toList) ∈ l :=
  have hl : fromJson exampleCtx env (annotatedDoc "a b".toList) =
    .ok (annotatedOut (.str "a b".toList)) := by with_unfolding_all rfl
  have ⟨r, l, hin, ha, hs⟩ := json_texts_partial exampleCtx env _ _ _ "celerity/handler" _ _ _ _
    "a".toList "a b".toList hl
    ⟨_, ⟨_, rfl, (by decide : ["version".toList, "transform".toList, "resources".toList].Nodup),
      .tail _ (.tail _ (.head _)), (by decide : ["h".toList].Nodup)⟩, .head _,
      (by decide : ["type".toList, "metadata".toList, "spec".toList].Nodup)⟩
    (by decide) (.head _)
    ⟨.tail _ (.tail _ (.head _)), (by decide : ["handler".toList, "memory".toList].Nodup)⟩
    ⟨.tail _ (.head _), (by decide : ["displayName".toList, "annotations".toList].Nodup)⟩
    ⟨.tail _ (.head _), (by decide : ["a".toList].Nodup)⟩ (.head _)
    (fun a b h => by
      have : '$' ∈ "a b".toList := h ▸ List.mem_append_right _ (List.mem_cons_self ..)
      exact absurd this (by decide)) (json_texts_plain _ (by decide))
  ⟨_, r, l, hl, hin, ha, hs⟩

example : ∃ c r l, fromYaml exampleCtx env [annotatedDoc "\"on\"".toList] = .ok c ∧
    (("h" ↦ r) ∈ c.resources) ∧ r.metadata.annotations = some l ∧
    ("a".toList, .str "\"on\"".toList) ∈ l :=
  have hl : fromYaml exampleCtx env [annotatedDoc "\"on\"".toList] =
    .ok (annotatedOut (.str "\"on\"".toList)) := by with_unfolding_all rfl
  have ⟨r, l, hin, ha, hs⟩ := yaml_texts exampleCtx env [] _ _ _ "celerity/handler" _ _ _ _
    "a".toList "\"on\"".toList hl
    ⟨_, ⟨_, rfl, (by decide : ["version".toList, "transform".toList, "resources".toList].Nodup),
      .tail _ (.tail _ (.head _)), (by decide : ["h".toList].Nodup)⟩, .head _,
      (by decide : ["type".toList, "metadata".toList, "spec".toList].Nodup)⟩
    (by decide) (.head _)
    ⟨.tail _ (.tail _ (.head _)), (by decide : ["handler".toList, "memory".toList].Nodup)⟩
    ⟨.tail _ (.head _), (by decide : ["displayName".toList, "annotations".toList].Nodup)⟩
    ⟨.tail _ (.head _), (by decide : ["a".toList].Nodup)⟩ (.head _)
    (fun a b h => by
      have : '$' ∈ "\"on\"".toList := h ▸ List.mem_append_right _ (List.mem_cons_self ..)
      exact absurd this (by decide)) trivial
  ⟨_, r, l, hl, hin, ha, hs⟩

/-! ## C96: transforms and variables -/

/-- C96, for one loader: the declared transforms are loaded, and a variable is loaded for each
declared one. -/
def TopKept (load : Doc F → Outcome Err (ResConfig F)) (transforms vars : Doc F → Prop) : Prop :=
  ∀ (m : List (Str × Doc F)) (c : ResConfig F), load (.obj m) = .ok c → Distinct m →
    (∀ t l, ("transform".toList, t) ∈ m → Transforms t l → transforms t → c.transform = some l) ∧
    ∀ vm, Inside m "variables" vm → (∀ e ∈ vm, vars e.2) →
      ∃ vs, c.variables = some vs ∧ vs.map (·.1) = vm.map (·.1)

/-- C96 for the JSON loader. -/
theorem json_top : TopKept (fromJson cx env) (fun _ => True) fun _ => True := by
  intro m c h hn
  obtain ⟨b, hb, hc, _⟩ := fromJson_parts cx env h
  obtain ⟨_, p2, p3, _⟩ := resBlueprint_parts cx env hc
  refine ⟨fun t l ht hl _ => p2.trans ?_, fun vars ⟨hv, hn'⟩ _ => ?_⟩
  · refine jsonBlueprint_slot (P := fun b => b.transform = some l) cx hb hn ht rfl ?_
      (fun _ _ h _ => h) (fun _ _ _ hk => absurd rfl hk) (fun _ _ h _ => h) (fun _ _ h _ => h)
      (fun _ _ h _ => h)
    intro s s' h
    obtain ⟨a, ha, h⟩ := bind_eq_ok h
    cases h
    rw [jsonTransform_texts hl] at ha
    cases ha
    rfl
  · rw [p3]
    refine jsonBlueprint_slot (P := fun b => ∃ vs, b.variables = some vs ∧
        vs.map (·.1) = vars.map (·.1)) cx hb hn hv rfl ?_
      (fun _ _ h _ => h) (fun _ _ h _ => h) (fun _ _ _ hk => absurd rfl hk) (fun _ _ h _ => h)
      (fun _ _ h _ => h)
    intro s s' h
    obtain ⟨a, ha, h⟩ := bind_eq_ok h
    cases h
    obtain ⟨vs, hvs, rfl⟩ := keep_ok ha
    exact ⟨vs, rfl, fillMap_names hn' (fun e _ o ho => keep_isSome ho) hvs⟩

/-- C96, in full, for the YAML loader. -/
def FullYamlTop : Prop := TopKept (fun d => fromYaml cx env [d]) (fun _ => True) fun _ => True

/-- A list of transforms is not loaded from YAML, nor is a variable that is not a mapping. -/
theorem yaml_top_violated : ¬ FullYamlTop cx env ∧
    ¬ TopKept (fun d => fromYaml cx env [d]) (fun _ => False) fun _ => True := by
  constructor
  · intro h
    have h := (h _ _ (same_transforms_violated cx env).1
      (by decide : ["version".toList, "transform".toList, "resources".toList].Nodup)).1 _ _
      (.tail _ (.head _)) (.many ["celerity-2025-05-12".toList, "other".toList]) trivial
    cases h
  · intro h
    have hl : fromYaml cx env [blueprintDoc ["variables" ↦ .obj ["stage" ↦ § "string"]]
        ["h" ↦ handlerDoc]] = .ok ⟨"2025-05-12".toList, none, some [], ["h" ↦ handlerOut 512],
          none⟩ := rfl
    obtain ⟨vs, h1, h2⟩ := (h _ _ hl
      (by decide : ["version".toList, "variables".toList, "resources".toList].Nodup)).2 _
      ⟨.tail _ (.head _), (by decide : ["stage".toList].Nodup)⟩ fun _ _ => trivial
    cases h1
    cases h2

/-- C96 for the YAML loader, for a transform that is one text and variables that are mappings.
Missing: lists of transforms, and variables of other forms, which are ignored. -/
theorem yaml_top_partial (rest : List (Doc F)) :
    TopKept (fun d => fromYaml cx env (d :: rest)) text fun v => ∃ e, v = .obj e := by
  intro m c h hn
  obtain ⟨b, hb, hc⟩ := fromYaml_parts cx env h
  obtain ⟨_, p2, p3, _⟩ := resBlueprint_parts cx env hc
  refine ⟨fun t l ht hl ⟨s, hs⟩ => p2.trans ?_, fun vars ⟨hv, hn'⟩ ho => ?_⟩
  · subst hs
    cases hl
    refine yamlBlueprint_slot (P := fun b => b.transform = some [s]) cx hb hn ht rfl ?_
      (fun _ _ h _ => h) (fun _ _ _ hk => absurd rfl hk) (fun _ _ h _ => h) (fun _ _ h _ => h)
      (fun _ _ h _ => h)
    intro s s' h
    cases h
    rfl
  · rw [p3]
    refine yamlBlueprint_slot (P := fun b => ∃ vs, b.variables = some vs ∧
        vs.map (·.1) = vars.map (·.1)) cx hb hn hv rfl ?_
      (fun _ _ h _ => h) (fun _ _ h _ => h) (fun _ _ _ hk => absurd rfl hk) (fun _ _ h _ => h)
      (fun _ _ h _ => h)
    intro s s' h
    dsimp only at h
    obtain ⟨vs, hvs, h⟩ := bind_eq_ok h
    cases h
    refine ⟨vs, rfl, fillMap_names hn' (fun e he o h => ?_) hvs⟩
    obtain ⟨w, hw⟩ := ho e he
    rw [hw] at h
    obtain ⟨a, _, h⟩ := bind_eq_ok h
    cases h
    rfl

example : ∃ c, fromJson cx env transformsDoc = .ok c ∧
    c.transform = some ["celerity-2025-05-12".toList, "other".toList] :=
  ⟨_, (same_transforms_violated cx env).2,
    (json_top cx env _ _ (same_transforms_violated cx env).2
      (by decide : ["version".toList, "transform".toList, "resources".toList].Nodup)).1 _ _
      (.tail _ (.head _)) (.many ["celerity-2025-05-12".toList, "other".toList]) trivial⟩

example : ∃ c vs, fromYaml exampleCtx stageEnv [portableDoc] = .ok c ∧
    c.transform = some ["celerity-2025-05-12".toList] ∧ c.variables = some vs ∧
    vs.map (·.1) = ["stage".toList] :=
  have ⟨c, h⟩ : ∃ c, fromYaml exampleCtx stageEnv [portableDoc] = .ok c :=
    ⟨_, by with_unfolding_all rfl⟩
  have ⟨ht, hv⟩ := yaml_top_partial _ _ [] _ c h
    (by decide : ["version".toList, "transform".toList, "variables".toList, "metadata".toList,
      "resources".toList].Nodup)
  have ⟨vs, h1, h2⟩ := hv _ ⟨.tail _ (.tail _ (.head _)), (by decide : ["stage".toList].Nodup)⟩
    (List.forall_mem_cons.2 ⟨⟨_, rfl⟩, List.forall_mem_nil _⟩)
  ⟨c, vs, h, ht _ _ (.tail _ (.head _)) (.one _) ⟨_, rfl⟩, h1, h2⟩

end Verif.Blueprint
