import Verif.Startup.SetupLemmas

/-!
# Example applications

An API and a handler, with the selector of the API, the labels and the annotations of the handler
left open.
-/

namespace Verif.Startup.Example

open Verif Verif.Subst Verif.Subst.Spec Verif.Blueprint Verif.Blueprint.Source

def api (sel : List (Str × Str)) : SResource asciiClass Unit :=
  { type := .api, metadata := { displayName := plain "Api" }, linkSelector := some sel,
    spec := some (.api { protocols := [.http] }) }

def handler (labels : List (Str × Str)) (anns : List (Str × Leaf asciiClass Unit)) :
    SResource asciiClass Unit :=
  { type := .handler,
    metadata := { displayName := plain "H", labels := some labels, annotations := some anns },
    spec := some (.handler { handler := plain "index.handler", codeLocation := some (plain "./h") }) }

def source (sel labels : List (Str × Str)) (anns : List (Str × Leaf asciiClass Unit)) :
    Source.Blueprint asciiClass Unit :=
  { version := "2025-05-12".toList, transform := some ["celerity-2025-05-12".toList],
    resources := [("api".toList, api sel), ("h".toList, handler labels anns)] }

def apiMeaning (sel : List (Str × Str)) : ResResource Unit :=
  { type := .api, metadata := { displayName := "Api".toList }, linkSelector := some sel,
    spec := some (.api { protocols := [.http] }) }

def handlerMeaning (labels : List (Str × Str)) (anns : List (Str × Scalar Unit)) :
    ResResource Unit :=
  { type := .handler,
    metadata := { displayName := "H".toList, labels := some labels, annotations := some anns },
    spec := some (.handler
      { handler := "index.handler".toList, codeLocation := some "./h".toList }) }

def meaning (sel labels : List (Str × Str)) (anns : List (Str × Scalar Unit)) : ResConfig Unit :=
  { version := "2025-05-12".toList, transform := some ["celerity-2025-05-12".toList],
    resources := [("api".toList, apiMeaning sel), ("h".toList, handlerMeaning labels anns)] }

theorem distinct_leaf (l : Leaf asciiClass Unit) : Distinct (wLeaf l) := by
  cases l with
  | bool b => exact .bool b
  | int n => exact .int _
  | float x => exact .float x
  | text t => exact .str _

theorem distinct_obj (ks : List String) (m : List (Str × Doc Unit))
    (hk : m.map (·.1) = ks.map String.toList) (hn : (ks.map String.toList).Nodup)
    (h : ∀ e ∈ m, Distinct e.2) : Distinct (.obj m) :=
  .obj m (hk ▸ hn) h

theorem distinct_wMap {A : Type} {w : A → Doc Unit} {m : List (Str × A)}
    (hn : (m.map (·.1)).Nodup) (h : ∀ a, Distinct (w a)) : Distinct (wMap w m) := by
  unfold wMap
  refine .obj _ ?_ ?_
  · rw [List.map_map]
    exact hn
  · intro e he
    obtain ⟨a, _, rfl⟩ := List.mem_map.1 he
    exact h a.2

theorem distinct_api {sel : List (Str × Str)} (hs : (sel.map (·.1)).Nodup) :
    Distinct (wResource (api sel)) := by
  have h := distinct_wMap (w := Doc.str (F := Unit)) hs .str
  refine distinct_obj ["type", "metadata", "linkSelector", "spec"] _ rfl (by decide +kernel)
    (List.forall_mem_cons.2 ⟨.str _, List.forall_mem_cons.2 ⟨?_, List.forall_mem_cons.2 ⟨?_,
      List.forall_mem_cons.2 ⟨?_, List.forall_mem_nil _⟩⟩⟩⟩)
  · exact distinct_obj ["displayName"] _ rfl (by decide +kernel)
      (List.forall_mem_cons.2 ⟨.str _, List.forall_mem_nil _⟩)
  · exact distinct_obj ["byLabel"] _ rfl (by decide +kernel)
      (List.forall_mem_cons.2 ⟨h, List.forall_mem_nil _⟩)
  · exact distinct_obj ["protocols"] _ rfl (by decide +kernel)
      (List.forall_mem_cons.2 ⟨.arr _ (List.forall_mem_cons.2 ⟨.str _, List.forall_mem_nil _⟩),
        List.forall_mem_nil _⟩)

theorem distinct_handler {labels : List (Str × Str)} {anns : List (Str × Leaf asciiClass Unit)}
    (hl : (labels.map (·.1)).Nodup) (ha : (anns.map (·.1)).Nodup) :
    Distinct (wResource (handler labels anns)) := by
  have h1 := distinct_wMap (w := Doc.str (F := Unit)) hl .str
  have h2 := distinct_wMap (w := wLeaf) ha distinct_leaf
  refine distinct_obj ["type", "metadata", "spec"] _ rfl (by decide +kernel)
    (List.forall_mem_cons.2 ⟨.str _, List.forall_mem_cons.2 ⟨?_, List.forall_mem_cons.2 ⟨?_,
      List.forall_mem_nil _⟩⟩⟩)
  · exact distinct_obj ["displayName", "annotations", "labels"] _ rfl (by decide +kernel)
      (List.forall_mem_cons.2 ⟨.str _, List.forall_mem_cons.2 ⟨h2, List.forall_mem_cons.2 ⟨h1,
        List.forall_mem_nil _⟩⟩⟩)
  · exact distinct_obj ["codeLocation", "handler"] _ rfl (by decide +kernel)
      (List.forall_mem_cons.2 ⟨.str _, List.forall_mem_cons.2 ⟨.str _, List.forall_mem_nil _⟩⟩)

theorem good {sel labels : List (Str × Str)} {anns : List (Str × Leaf asciiClass Unit)}
    (hs : (sel.map (·.1)).Nodup) (hl : (labels.map (·.1)).Nodup) (ha : (anns.map (·.1)).Nodup) :
    Good (source sel labels anns) where
  types := List.forall_mem_cons.2 ⟨fun s h => by
      unfold api at h
      injection h with h
      subst h
      rfl, List.forall_mem_cons.2 ⟨fun s h => by
      unfold handler at h
      injection h with h
      subst h
      rfl, List.forall_mem_nil _⟩⟩
  distinct := by
    have h1 := distinct_api hs
    have h2 := distinct_handler hl ha
    exact distinct_obj ["version", "transform", "resources"] _ rfl (by decide +kernel)
      (List.forall_mem_cons.2 ⟨.str _, List.forall_mem_cons.2 ⟨.str _, List.forall_mem_cons.2
        ⟨distinct_obj ["api", "h"] _ rfl (by decide +kernel)
          (List.forall_mem_cons.2 ⟨h1, List.forall_mem_cons.2 ⟨h2, List.forall_mem_nil _⟩⟩),
        List.forall_mem_nil _⟩⟩⟩)

theorem meant (env : Env) (f : Format) (sel labels : List (Str × Str))
    {anns : List (Str × Leaf asciiClass Unit)} {anns' : List (Str × Scalar Unit)}
    (h : MRel (LeafM exampleCtx env f) anns anns')  :
    BlueprintM exampleCtx env f (source sel labels anns) (meaning sel labels anns') := by
  have h1 : ResourceM exampleCtx env f (api sel) (apiMeaning sel) :=
    ⟨rfl, ⟨plainM _ _ (by decide), trivial, rfl,
      fun _ => plainFilled _ (by decide) (by decide)⟩, rfl, rfl,
      .api ⟨.cons .http .nil, trivial, trivial, trivial, trivial, fun _ => nofun⟩⟩
  have h2 : ResourceM exampleCtx env f (handler labels anns) (handlerMeaning labels anns') :=
    ⟨rfl, ⟨plainM _ _ (by decide), h, rfl,
      fun _ => plainFilled _ (by decide) (by decide)⟩, rfl, rfl,
      .handler ⟨trivial, plainM _ _ (by decide), plainM _ _ (by decide), trivial, trivial, trivial,
        trivial, trivial⟩⟩
  have h3 : Supported f .api := by cases f <;> simp [Supported]
  have h4 : Supported f .handler := by cases f <;> simp [Supported]
  refine ⟨rfl, rfl, ?_, trivial, .keep h3 nofun h1 (.keep h4 nofun h2 .nil), ?_, nofun⟩
  · cases f
    · exact ⟨nofun, rfl⟩
    · rfl
  · cases f
    · trivial
    · rfl

/-- The file of an example. -/
def file (x : Source.Blueprint asciiClass Unit) : File Unit := ⟨some (write x), some [write x]⟩

def config : RtConfig.Config where
  blueprintPath := "app.json"
  callMode := .ffi
  serviceName := "svc"
  serverPort := 8080
  loopbackOnly := none
  localApiPort := 8592
  customHealthCheck := none
  otlpEndpoint := "http://otelcollector:4317"
  level := .info
  platform := .local'
  testMode := false
  apiResource := none
  consumerApp := none
  scheduleApp := none

theorem written_json (x : Source.Blueprint asciiClass Unit) :
    Startup.Spec.Written "app.json".toList .json x (file x) :=
  ⟨⟨"app".toList, .inl (by decide)⟩, rfl⟩

theorem written_yaml (x : Source.Blueprint asciiClass Unit) :
    Startup.Spec.Written "app.yaml".toList .yaml x (file x) := by
  refine ⟨fun h => ?_, [], rfl⟩
  have := (readsJson_iff _).2 h
  exact absurd this (by decide)

/-- The annotation that enables HTTP. -/
def http : Str × Leaf asciiClass Unit := ("celerity.handler.http".toList, .bool true)
def httpMeaning : Str × Scalar Unit := ("celerity.handler.http".toList, .bool true)
def app (v : String) : Str × Str := ("app".toList, v.toList)
def team (v : String) : Str × Str := ("team".toList, v.toList)

theorem httpM (env : Env) (f : Format) :
    MRel (LeafM exampleCtx env f) [http] [httpMeaning] := .cons ⟨rfl, rfl⟩ .nil

def show0 : Unit → Str := fun _ => []

/-- A path that refers to a variable. -/
def stagePath : Str × Leaf asciiClass Unit :=
  ("celerity.handler.http.path".toList, .text ⟨stageRef.1, stageRef.2, by
    rintro ⟨b, r, h, hb⟩
    cases b with
    | nil =>
      have := congrArg List.head? h
      have this : some '$' = some '"' := this
      exact absurd this (by decide)
    | cons c b =>
      have hc := hb c (List.mem_cons_self ..)
      have := congrArg List.head? h
      have this : some '$' = some c := this
      injection this with this
      subst this
      exact absurd hc (by decide)⟩)

def pathMeaning (v : String) : Str × Scalar Unit :=
  ("celerity.handler.http.path".toList, .str v.toList)

theorem stageJson : LeafM exampleCtx stageEnv .json stagePath.2 (pathMeaning "${variables.stage}").2 := by
  show (Scalar.str _ : Scalar Unit) = .str (render stageRef.1)
  congr 1

theorem stageYaml : LeafM exampleCtx stageEnv .yaml stagePath.2 (pathMeaning "prod").2 := by
  show ScalarOf _ stageEnv (expected stageRef.1) (.str "prod".toList)
  have h : expected stageRef.1 = [.sub ⟨"stage".toList⟩] := by decide
  rw [h]
  refine .ref _ "prod".toList _ ?_ (.str ?_ rfl (by decide) (by decide))
  · have h : varEnvName "stage".toList = "CELERITY_VARIABLE_stage".toList := by decide
    show stageEnv (varEnvName "stage".toList) = _
    rw [h]
    unfold stageEnv
    rw [if_pos rfl]
  · rintro n ⟨sign, digits, h, hne, hd, -⟩
    have hl := congrArg List.getLast? h
    rw [List.getLast?_append, List.getLast?_eq_some_getLast hne] at hl
    have hl : some 'd' = some (digits.getLast hne) := hl
    injection hl with hl
    have := hd _ (List.getLast_mem hne)
    rw [← hl] at this
    exact absurd this (by decide)

end Verif.Startup.Example
