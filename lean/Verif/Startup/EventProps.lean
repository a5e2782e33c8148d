import Verif.Startup.Props
import Verif.Wire.ConfigProps

/-!
# C176: handlers of queues and schedules
-/

namespace Verif.Startup

open Verif Verif.Subst Verif.Blueprint

/-- The handler named `k` is to be given the messages of the queue or stream `src`: a consumer with
this source is linked to it, and its annotation says that it is a handler of a consumer. -/
def Spec.QueueHandler {F : Type} (y : ResConfig F) (src k : Str) : Prop :=
  ∃ n c s r, (n, c) ∈ y.resources ∧ c.type = .consumer ∧ c.spec = some (.consumer s) ∧
    s.sourceId = some src ∧ (k, r) ∈ y.resources ∧ r.type = .handler ∧
    Spec.Annotated r "celerity.handler.consumer" (.bool true) ∧ Spec.Linked c r

/-- The handler named `k` is to be called at the times of the schedule `value`. -/
def Spec.ScheduleHandler {F : Type} (y : ResConfig F) (value k : Str) : Prop :=
  ∃ n c r, (n, c) ∈ y.resources ∧ c.type = .schedule ∧ c.spec = some (.schedule value) ∧
    (k, r) ∈ y.resources ∧ r.type = .handler ∧
    Spec.Annotated r "celerity.handler.schedule" (.bool true) ∧ Spec.Linked c r

/-- The configuration of the application lists the handlers of queues and schedules that the
blueprint declares. -/
structure Spec.EventHandlers {F : Type} (y : ResConfig F) (a : Application) : Prop where
  queues : ∀ src k, Spec.QueueHandler y src k →
    ∃ l, a.config.consumers = some l ∧ ∃ c ∈ l, c.sourceId = src ∧ ∃ h ∈ c.handlers, h.handler = k
  schedules : ∀ value k, Spec.ScheduleHandler y value k →
    ∃ l, a.config.schedules = some l ∧ ∃ c ∈ l, c.scheduleValue = value ∧
      ∃ h ∈ c.handlers, h.handler = k

/-- C176 in full: an application that was set up has the handlers of queues and schedules of its
blueprint. -/
def FullEvents : Prop :=
  ∀ (F : Type) (cx : Ctx F) (showF : F → Str) (env : Env) (c : RtConfig.Config)
    (f : Source.Format) (x : Source.Blueprint cx.cls F) (file : File F) (y : ResConfig F)
    (a : Application),
    Source.Good x → Spec.Written c.blueprintPath.toList f x file →
    Source.BlueprintM cx env f x y → setup cx showF env c (some file) = .ok a →
    Spec.EventHandlers y a

/-- No application ever has a handler of a queue or of a schedule, whatever its blueprint and its
configuration are, and none is in the configuration served to other processes. -/
theorem events_never {F G : Type} {cx : Ctx F} {showF : F → Str} {env : Env} {c : RtConfig.Config}
    {file : Option (File F)} {a : Application} (hs : setup cx showF env c file = .ok a) :
    a.config.consumers = none ∧ a.config.schedules = none ∧
    Wire.Spec.handlers (F := G) (Wire.localConfig a.config).encode "consumer" = some [] ∧
    Wire.Spec.handlers (F := G) (Wire.localConfig a.config).encode "schedule" = some [] := by
  have key : ∃ o, a.config = Wire.appConfig o := by
    unfold setup at hs
    cases hl : load cx env (readsJson c.blueprintPath.toList) file with
    | err e => rw [hl] at hs; cases hs
    | panic => rw [hl] at hs; cases hs
    | ok b =>
      rw [hl] at hs
      simp only [Outcome.bind_ok] at hs
      split at hs
      · rename_i cfg hc
        cases hw : wsConfig cfg with
        | err e => rw [hw] at hs; cases hs
        | panic => rw [hw] at hs; cases hs
        | ok ws =>
          rw [hw] at hs
          simp only [Outcome.bind_ok] at hs
          cases hr : routerErr (RtConfig.setup c (some ws)) with
          | err e => rw [hr] at hs; cases hs
          | panic => rw [hr] at hs; cases hs
          | ok r =>
            rw [hr] at hs
            simp only [Outcome.bind_ok, Outcome.pure_eq, Outcome.ok.injEq] at hs
            exact ⟨some cfg, by rw [← hs]⟩
      · cases hr : routerErr (RtConfig.setup c none) with
        | err e => rw [hr] at hs; cases hs
        | panic => rw [hr] at hs; cases hs
        | ok r =>
          rw [hr] at hs
          simp only [Outcome.bind_ok, Outcome.pure_eq, Outcome.ok.injEq] at hs
          exact ⟨none, by rw [← hs]⟩
      · cases hs
  obtain ⟨o, ho⟩ := key
  rw [ho]
  exact ⟨rfl, rfl, rfl, rfl⟩

/-- What C176 does not exclude: the application has the handlers that its blueprint declares for
queues and schedules exactly when there are none. -/
theorem events_partial {F : Type} {cx : Ctx F} {showF : F → Str} {env : Env} {c : RtConfig.Config}
    {file : Option (File F)} {a : Application} (y : ResConfig F)
    (hs : setup cx showF env c file = .ok a) :
    Spec.EventHandlers y a ↔
      (∀ src k, ¬ Spec.QueueHandler y src k) ∧ ∀ value k, ¬ Spec.ScheduleHandler y value k := by
  obtain ⟨h1, h2, -, -⟩ := events_never (G := F) hs
  constructor
  · intro h
    refine ⟨fun src k hq => ?_, fun v k hq => ?_⟩
    · obtain ⟨l, hl, _⟩ := h.queues src k hq
      rw [h1] at hl; cases hl
    · obtain ⟨l, hl, _⟩ := h.schedules v k hq
      rw [h2] at hl; cases hl
  · intro h
    exact ⟨fun s k hq => absurd hq (h.1 s k), fun v k hq => absurd hq (h.2 v k)⟩

/-- An application of handlers of queues and schedules only, in the process of its handlers: it is
set up and run without an error and nothing runs. -/
theorem events_idle {F : Type} {cx : Ctx F} {showF : F → Str} {env : Env}
    {c : RtConfig.Config} {f : Source.Format} {x : Source.Blueprint cx.cls F} (g : Source.Good x)
    {file : File F} (hw : Spec.Written c.blueprintPath.toList f x file) {y : ResConfig F}
    (hM : Source.BlueprintM cx env f x y) (hno : ∀ n r, (n, r) ∈ y.resources → r.type ≠ .api)
    (hf : c.callMode = .ffi) (o : Outside) :
    ∃ a, setup cx showF env c (some file) = .ok a ∧
      (run o (Spec.lifeOf a false)).2 = .ok ∧ (run o (Spec.lifeOf a false)).1.servers = [] := by
  have hno' : ∀ api, ¬ Spec.IsApi y (Spec.wanted c) api := fun api ⟨k, hk, ht, _⟩ => hno k api hk ht
  have hl := (load_written g hw y).2 hM
  obtain ⟨-, s2, -⟩ := setup_loaded (showF := showF) hl
  refine ⟨_, s2 ((collect_missing showF).2 hno'), ?_, ?_⟩
  · simp [run, setupTracing, runHttp, runLocal, Spec.lifeOf, fresh, hf]
  · simp [run, setupTracing, runHttp, runLocal, Spec.lifeOf, fresh, hf]

namespace Example

def consumer : Source.SResource asciiClass Unit :=
  { type := .consumer, metadata := { displayName := Source.plain "Orders" },
    linkSelector := some [app "shop"],
    spec := some (.consumer { sourceId := some (Source.plain "orders") }) }

def consumerMeaning : ResResource Unit :=
  { type := .consumer, metadata := { displayName := "Orders".toList },
    linkSelector := some [app "shop"],
    spec := some (.consumer { sourceId := some "orders".toList }) }

/-- The annotation of handlers of consumers. -/
def forQueue : Str × Source.Leaf asciiClass Unit :=
  ("celerity.handler.consumer".toList, .bool true)
def forQueueMeaning : Str × Scalar Unit := ("celerity.handler.consumer".toList, .bool true)

/-- A blueprint of a consumer and its handler. -/
def queueSource : Source.Blueprint asciiClass Unit :=
  { version := "2025-05-12".toList, transform := some ["celerity-2025-05-12".toList],
    resources := [("c".toList, consumer), ("h".toList, handler [app "shop"] [forQueue])] }

def queueMeaning : ResConfig Unit :=
  { version := "2025-05-12".toList, transform := some ["celerity-2025-05-12".toList],
    resources := [("c".toList, consumerMeaning),
      ("h".toList, handlerMeaning [app "shop"] [forQueueMeaning])] }

theorem queue_good : Source.Good queueSource where
  types := List.forall_mem_cons.2 ⟨fun s h => by
      unfold consumer at h
      injection h with h
      subst h
      rfl, List.forall_mem_cons.2 ⟨fun s h => by
      unfold handler at h
      injection h with h
      subst h
      rfl, List.forall_mem_nil _⟩⟩
  distinct := by
    have h1 : Source.Distinct (Source.wResource consumer) := by
      have h := distinct_wMap (w := Doc.str (F := Unit)) (m := [app "shop"]) (by decide +kernel) .str
      refine distinct_obj ["type", "metadata", "linkSelector", "spec"] _ rfl (by decide +kernel)
        (List.forall_mem_cons.2 ⟨.str _, List.forall_mem_cons.2 ⟨?_, List.forall_mem_cons.2 ⟨?_,
          List.forall_mem_cons.2 ⟨?_, List.forall_mem_nil _⟩⟩⟩⟩)
      · exact distinct_obj ["displayName"] _ rfl (by decide +kernel)
          (List.forall_mem_cons.2 ⟨.str _, List.forall_mem_nil _⟩)
      · exact distinct_obj ["byLabel"] _ rfl (by decide +kernel)
          (List.forall_mem_cons.2 ⟨h, List.forall_mem_nil _⟩)
      · exact distinct_obj ["sourceId"] _ rfl (by decide +kernel)
          (List.forall_mem_cons.2 ⟨.str _, List.forall_mem_nil _⟩)
    have h2 := distinct_handler (labels := [app "shop"]) (anns := [forQueue]) (by decide +kernel)
      (by decide +kernel)
    exact distinct_obj ["version", "transform", "resources"] _ rfl (by decide +kernel)
      (List.forall_mem_cons.2 ⟨.str _, List.forall_mem_cons.2 ⟨.str _, List.forall_mem_cons.2
        ⟨distinct_obj ["c", "h"] _ rfl (by decide +kernel)
          (List.forall_mem_cons.2 ⟨h1, List.forall_mem_cons.2 ⟨h2, List.forall_mem_nil _⟩⟩),
        List.forall_mem_nil _⟩⟩⟩)

theorem queue_meant (env : Env) (f : Source.Format) :
    Source.BlueprintM exampleCtx env f queueSource queueMeaning := by
  have h1 : Source.ResourceM exampleCtx env f consumer consumerMeaning :=
    ⟨rfl, ⟨Source.plainM _ _ (by decide), trivial, rfl,
      fun _ => Source.plainFilled _ (by decide) (by decide)⟩, rfl, rfl,
      .consumer ⟨Source.plainM _ _ (by decide), trivial, trivial, trivial, trivial, trivial,
        trivial⟩⟩
  have h2 : Source.ResourceM exampleCtx env f (handler [app "shop"] [forQueue])
      (handlerMeaning [app "shop"] [forQueueMeaning]) :=
    ⟨rfl, ⟨Source.plainM _ _ (by decide), .cons ⟨rfl, rfl⟩ .nil, rfl,
      fun _ => Source.plainFilled _ (by decide) (by decide)⟩, rfl, rfl,
      .handler ⟨trivial, Source.plainM _ _ (by decide), Source.plainM _ _ (by decide), trivial,
        trivial, trivial, trivial, trivial⟩⟩
  have h3 : Source.Supported f .consumer := by cases f <;> simp [Source.Supported]
  have h4 : Source.Supported f .handler := by cases f <;> simp [Source.Supported]
  refine ⟨rfl, rfl, ?_, trivial, .keep h3 nofun h1 (.keep h4 nofun h2 .nil), ?_, nofun⟩
  · cases f
    · exact ⟨nofun, rfl⟩
    · rfl
  · cases f
    · trivial
    · rfl

theorem queue_handler : Spec.QueueHandler queueMeaning "orders".toList "h".toList :=
  ⟨"c".toList, consumerMeaning, _, handlerMeaning [app "shop"] [forQueueMeaning],
    List.mem_cons_self .., rfl, rfl, rfl, List.mem_cons_of_mem _ (List.mem_cons_self ..), rfl,
    ⟨_, rfl, List.mem_cons_self ..⟩,
    ⟨_, _, "app".toList, "shop".toList, rfl, rfl, List.mem_cons_self .., List.mem_cons_self ..⟩⟩

theorem queue_no_api : ∀ n r, (n, r) ∈ queueMeaning.resources → r.type ≠ .api := by
  intro n r h
  rcases List.mem_cons.1 h with e | h
  · cases e; nofun
  · rcases List.mem_cons.1 h with e | h
    · cases e; nofun
    · cases h

end Example

/-- A handler that is declared for the messages of a queue is not set up. -/
theorem events_violated : ¬ FullEvents := by
  intro h
  obtain ⟨a, ha, _⟩ := events_idle (cx := exampleCtx) (showF := Example.show0)
    (env := fun _ => none) (c := Example.config) (f := .json) Example.queue_good
    (Example.written_json _) (Example.queue_meant _ _) Example.queue_no_api rfl ⟨true, true, true⟩
  have := h Unit exampleCtx Example.show0 (fun _ => none) Example.config .json _ _ _ _
    Example.queue_good (Example.written_json _) (Example.queue_meant _ _) ha
  exact ((events_partial _ ha).1 this).1 _ _ Example.queue_handler

/-- The hypotheses of `events_idle` are met by a blueprint with a handler of a queue. -/
example : Spec.QueueHandler Example.queueMeaning "orders".toList "h".toList ∧
    ∃ a, setup exampleCtx Example.show0 (fun _ => none) Example.config
        (some (Example.file Example.queueSource)) = .ok a ∧
      (run ⟨true, true, true⟩ (Spec.lifeOf a false)).2 = .ok ∧
      (run ⟨true, true, true⟩ (Spec.lifeOf a false)).1.servers = [] :=
  ⟨Example.queue_handler, events_idle Example.queue_good (Example.written_json _)
    (Example.queue_meant _ _) Example.queue_no_api rfl _⟩

end Verif.Startup
