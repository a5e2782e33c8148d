import Verif.Startup.Examples
import Verif.Startup.FormatLemmas
import Verif.Startup.LifeLemmas

/-!
# Property theorems about applications from file to shutdown (C120-C126)
-/

namespace Verif.Startup

open Verif Verif.Subst Verif.Blueprint

/-! ## C120: the handlers are those of the blueprint -/

/-- C120 in full: the handlers in the configuration of an application that was set up are those that
its blueprint declares for its API. -/
def FullRoutes : Prop :=
  ∀ (F : Type) (cx : Ctx F) (showF : F → Str) (env : Env) (c : RtConfig.Config)
    (f : Source.Format) (x : Source.Blueprint cx.cls F) (file : File F) (a : Application),
    Source.Good x → Spec.Written c.blueprintPath.toList f x file →
    setup cx showF env c (some file) = .ok a →
    ∃ y, Source.BlueprintM cx env f x y ∧
      ∀ api, Spec.IsApi y (Spec.wanted c) api → Spec.Declared showF y api a

/-- What C120 does not exclude: the blueprint is one that the code does not misread. -/
theorem routes_partial {F : Type} {cx : Ctx F} {showF : F → Str} {env : Env}
    {c : RtConfig.Config} {f : Source.Format} {x : Source.Blueprint cx.cls F} (g : Source.Good x)
    {file : File F} (hw : Spec.Written c.blueprintPath.toList f x file) {a : Application}
    (hs : setup cx showF env c (some file) = .ok a) :
    ∃ y, Source.BlueprintM cx env f x y ∧ a.app.config = c ∧
      (Spec.Clear y (Spec.wanted c) →
        ∀ api, Spec.IsApi y (Spec.wanted c) api → Spec.Declared showF y api a) ∧
      ((∀ api, ¬ Spec.IsApi y (Spec.wanted c) api) →
        Spec.httpHandlers a = [] ∧ Spec.wsHandlers a = []) := by
  have hl : ∃ y, load cx env (readsJson c.blueprintPath.toList) (some file) = .ok y := by
    unfold setup at hs
    cases h : load cx env (readsJson c.blueprintPath.toList) (some file) with
    | ok y => exact ⟨y, rfl⟩
    | err e => rw [h] at hs; cases hs
    | panic => rw [h] at hs; cases hs
  obtain ⟨y, hy⟩ := hl
  have hM := (load_written g hw y).1 hy
  obtain ⟨s1, s2, s3⟩ := setup_loaded (showF := showF) hy
  refine ⟨y, hM, ?_⟩
  have hm := maps_of_source g hM
  have ht := typed_of_source g hM
  cases hc : Transform.collectApiConfig showF (view y) (Spec.wanted c) with
  | error e =>
    by_cases he : e = .apiMissing
    · subst he
      rw [s2 hc] at hs
      cases hs
      refine ⟨rfl, ?_, fun _ => ⟨rfl, rfl⟩⟩
      intro hclear api hapi
      exfalso
      exact (collect_missing showF).1 hc api hapi
    · rw [s1 e hc he] at hs
      cases hs
  | ok cfg =>
    rcases s3 cfg hc with ⟨_, _, h⟩ | ⟨_, r, h⟩
    · rw [h] at hs; cases hs
    · rw [h] at hs
      cases hs
      obtain ⟨e1, e2⟩ := handlers_of cfg cfg.tracingEnabled
        ⟨c, some r, [], decide (c.callMode = .http)⟩
      refine ⟨rfl, ?_, ?_⟩
      · intro hclear api hapi
        obtain ⟨d1, d2, d3, -⟩ := collect_declares hm ht hclear showF hapi hc
        refine ⟨?_, ?_, ?_⟩
        · intro d
          rw [e1, List.mem_map]
          constructor
          · rintro ⟨h, hh, rfl⟩
            obtain ⟨k, r, i1, i2, i3⟩ := (d1 h).1 hh
            exact ⟨k, r, i1, i2, rfl, i3⟩
          · rintro ⟨k, r, i1, i2, i3, i4⟩
            refine ⟨_, (d1 _).2 ⟨k, r, i1, i2, i4⟩, ?_⟩
            cases d
            dsimp only at i3 ⊢
            rw [i3]
        · intro d hd
          rw [e2, List.mem_map] at hd
          obtain ⟨h, hh, rfl⟩ := hd
          obtain ⟨k, r, i1, i2, i3⟩ := d2 h hh
          exact ⟨k, r, i1, i2, rfl, i3⟩
        · intro k r e i1 i2 i3
          obtain ⟨key, hk⟩ := d3 k r e i1 i2 i3
          refine ⟨key, ?_⟩
          rw [e2, List.mem_map]
          exact ⟨_, hk, rfl⟩
      · intro hno
        rw [(collect_missing showF).2 hno] at hc
        cases hc

/-- A handler of another shop is served, since only the name of its label is compared (C08). -/
theorem routes_violated : ¬ FullRoutes := by
  intro h
  have g := Example.good (sel := [Example.app "shop"]) (labels := [Example.app "blog"])
    (anns := [Example.http]) (by decide +kernel) (by decide +kernel) (by decide +kernel)
  have hM := Example.meant (fun _ => none) .json [Example.app "shop"] [Example.app "blog"]
    (Example.httpM _ _)
  have hl := (load_written (path := "app.json".toList) g (Example.written_json _) _).2 hM
  obtain ⟨s1, s2, s3⟩ := setup_loaded (showF := Example.show0) (c := Example.config) hl
  rcases s3 ⟨some [⟨"h".toList, "/".toList, "GET".toList, "./h".toList, 60, false⟩], none, false⟩
    rfl with ⟨_, h2, _⟩ | ⟨_, r, hr⟩
  · cases h2
  · obtain ⟨y, hy, hapi⟩ := h Unit exampleCtx Example.show0 (fun _ => none) Example.config .json _ _ _
      g (Example.written_json _) hr
    have := Source.meaning_unique _ _ g hy hM
    subst this
    have hd := hapi (Example.apiMeaning [Example.app "shop"])
      ⟨"api".toList, List.mem_cons_self .., rfl, nofun⟩
    obtain ⟨k, r, hm, ⟨sel, labels, k', v, e1, e2, m1, m2⟩, _⟩ :=
      (hd.http ⟨[], "/".toList, "GET".toList, "./h".toList, "h".toList, 60, false⟩).1
        (List.mem_cons_self ..)
    cases e1
    rcases List.mem_cons.1 hm with e | hm
    · cases e
      cases e2
    · rcases List.mem_cons.1 hm with e | hm
      · cases e
        cases e2
        rcases List.mem_singleton.1 m1 with e
        rcases List.mem_singleton.1 m2 with e'
        rw [e] at e'
        exact absurd e' (by decide)
      · cases hm

/-- The hypotheses of `routes_partial` are met: an API with a handler of its shop. -/
theorem Example.clear (anns : List (Str × Scalar Unit)) :
    Spec.Clear (Example.meaning [Example.app "shop"] [Example.app "shop"] anns) none := by
  have mem : ∀ e, e ∈ (Example.meaning [Example.app "shop"] [Example.app "shop"] anns).resources →
      e = ("api".toList, Example.apiMeaning [Example.app "shop"]) ∨
      e = ("h".toList, Example.handlerMeaning [Example.app "shop"] anns) := by
    intro e he
    rcases List.mem_cons.1 he with h | he
    · exact .inl h
    · rcases List.mem_cons.1 he with h | he
      · exact .inr h
      · cases he
  refine ⟨?_, ?_, ?_, ?_, ?_, ?_⟩
  · rintro r r' ⟨k, hk, ht, _⟩ ⟨k', hk', ht', _⟩
    rcases mem _ hk with e | e <;> rcases mem _ hk' with e' | e' <;> cases e <;> cases e' <;>
      first | rfl | (cases ht; done) | (cases ht'; done)
  · intro a ha b hb sel labels k v w e1 e2 m1 m2
    rcases mem _ ha with e | e
    · subst e
      cases e1
      rcases mem _ hb with e | e
      · subst e; cases e2
      · subst e
        cases e2
        have h1 := List.mem_singleton.1 m1
        have h2 := List.mem_singleton.1 m2
        cases h1
        cases h2
        rfl
    · subst e; cases e1
  · intro e he _ a ha b hb ht
    rcases mem _ ha with e | e <;> subst e <;> cases ht
  · intro e he s t e1 e2
    rcases mem _ he with e | e
    · subst e; cases e1
    · subst e; cases e1; cases e2
  · intro e he s t e1 e2
    rcases mem _ he with e | e <;> subst e <;> cases e1
  · intro s t e1
    cases e1

example : ∃ a, setup exampleCtx Example.show0 (fun _ => none) Example.config
      (some (Example.file (Example.source [Example.app "shop"] [Example.app "shop"] [Example.http])))
        = .ok a ∧
    Spec.httpHandlers a =
      [⟨[], "/".toList, "GET".toList, "./h".toList, "h".toList, 60, false⟩] ∧
    Spec.Declared Example.show0
      (Example.meaning [Example.app "shop"] [Example.app "shop"] [Example.httpMeaning])
      (Example.apiMeaning [Example.app "shop"]) a := by
  have g := Example.good (sel := [Example.app "shop"]) (labels := [Example.app "shop"])
    (anns := [Example.http]) (by decide +kernel) (by decide +kernel) (by decide +kernel)
  have hM := Example.meant (fun _ => none) .json [Example.app "shop"] [Example.app "shop"]
    (Example.httpM _ _)
  have hl := (load_written (path := "app.json".toList) g (Example.written_json _) _).2 hM
  obtain ⟨s1, s2, s3⟩ := setup_loaded (showF := Example.show0) (c := Example.config) hl
  rcases s3 ⟨some [⟨"h".toList, "/".toList, "GET".toList, "./h".toList, 60, false⟩], none, false⟩
    rfl with ⟨_, h2, _⟩ | ⟨_, r, hr⟩
  · cases h2
  · refine ⟨_, hr, rfl, ?_⟩
    obtain ⟨y, hy, _, hd, _⟩ := routes_partial g (Example.written_json _) hr
    have := Source.meaning_unique _ _ g hy hM
    subst this
    exact hd (Example.clear _) _ ⟨"api".toList, List.mem_cons_self .., rfl, nofun⟩

/-! ## C121: complete blueprints start -/

/-- Every handler that is to serve has a location. -/
def Spec.Complete {F : Type} (y : ResConfig F) (wanted : Option Str) : Prop :=
  ∀ api, Spec.IsApi y wanted api → ∀ k r, (k, r) ∈ y.resources → r.type = .handler →
    Spec.Linked api r → Spec.Serves r → ∃ l, Spec.Setting (·.codeLocation) (·.codeLocation) y r l

/-- C121 in full: an application whose blueprint has a meaning, and says where the code of every
handler is, starts. -/
def FullStarts : Prop :=
  ∀ (F : Type) (cx : Ctx F) (showF : F → Str) (env : Env) (c : RtConfig.Config)
    (f : Source.Format) (x : Source.Blueprint cx.cls F) (file : File F) (y : ResConfig F),
    Source.Good x → Spec.Written c.blueprintPath.toList f x file →
    Source.BlueprintM cx env f x y → Spec.Complete y (Spec.wanted c) →
    ∃ a, setup cx showF env c (some file) = .ok a

/-- What C121 does not exclude, as an equivalence: of the clear blueprints those start whose serving
handlers have a location, one protocol each and all the same one, and are linked by one label. -/
theorem starts_partial {F : Type} {cx : Ctx F} {showF : F → Str} {env : Env}
    {c : RtConfig.Config} {f : Source.Format} {x : Source.Blueprint cx.cls F} (g : Source.Good x)
    {file : File F} (hw : Spec.Written c.blueprintPath.toList f x file) {y : ResConfig F}
    (hM : Source.BlueprintM cx env f x y) (hc : Spec.Clear y (Spec.wanted c)) :
    (∃ a, setup cx showF env c (some file) = .ok a) ↔
      Spec.Complete y (Spec.wanted c) ∧
      ∀ api, Spec.IsApi y (Spec.wanted c) api → ¬ Spec.Hybrid y api ∧
        ∀ k r, (k, r) ∈ y.resources → r.type = .handler → Spec.Linked api r → Spec.Serves r →
          Spec.LinkedOnce api r := by
  have hl := (load_written g hw y).2 hM
  obtain ⟨s1, s2, s3⟩ := setup_loaded (showF := showF) hl
  have hm := maps_of_source g hM
  have ht := typed_of_source g hM
  by_cases hno : ∃ api, Spec.IsApi y (Spec.wanted c) api
  · obtain ⟨api, hapi⟩ := hno
    have hacc := collect_accepts hm ht hc showF hapi
    constructor
    · rintro ⟨a, ha⟩
      have hcfg : ∃ cfg, Transform.collectApiConfig showF (view y) (Spec.wanted c) = .ok cfg := by
        cases hcol : Transform.collectApiConfig showF (view y) (Spec.wanted c) with
        | ok cfg => exact ⟨cfg, rfl⟩
        | error e =>
          by_cases he : e = .apiMissing
          · subst he
            exact absurd hapi ((collect_missing showF).1 hcol api)
          · rw [s1 e hcol he] at ha
            cases ha
      have h1 := hacc.1 hcfg
      obtain ⟨cfg, hcfg⟩ := hcfg
      obtain ⟨-, -, -, d4, d5, -⟩ := collect_declares hm ht hc showF hapi hcfg
      refine ⟨?_, ?_⟩
      · intro api' hapi' k r a1 a2 a3 a4
        have := hc.api _ _ hapi hapi'
        subst this
        exact (h1 k r a1 a2 a3 a4).1
      · intro api' hapi'
        have := hc.api _ _ hapi hapi'
        subst this
        refine ⟨?_, fun k r a1 a2 a3 a4 => (h1 k r a1 a2 a3 a4).2.2⟩
        rintro ⟨hh, hw⟩
        rcases s3 cfg hcfg with ⟨_, _, h⟩ | ⟨h, _⟩
        · rw [h] at ha; cases ha
        · exact h ⟨d4.2 hh, d5.2 hw⟩
    · rintro ⟨h1, h2⟩
      obtain ⟨h2, h3⟩ := h2 api hapi
      obtain ⟨cfg, hcfg⟩ := hacc.2 (fun k r a1 a2 a3 a4 => ⟨h1 api hapi k r a1 a2 a3 a4,
        fun ⟨b1, b2⟩ => h2 ⟨⟨k, r, a1, a2, a3, b1⟩, ⟨k, r, a1, a2, a3, b2⟩⟩, h3 k r a1 a2 a3 a4⟩)
      obtain ⟨-, -, -, d4, d5, -⟩ := collect_declares hm ht hc showF hapi hcfg
      rcases s3 cfg hcfg with ⟨a1, a2, _⟩ | ⟨_, r, h⟩
      · exact absurd ⟨d4.1 a1, d5.1 a2⟩ h2
      · exact ⟨_, h⟩
  · have hno : ∀ api, ¬ Spec.IsApi y (Spec.wanted c) api := fun api h => hno ⟨api, h⟩
    refine ⟨fun _ => ⟨fun api h => absurd h (hno api), fun api h => absurd h (hno api)⟩, fun _ => ?_⟩
    exact ⟨_, s2 ((collect_missing showF).2 hno)⟩

/-- The conditions of `starts_partial` are met by the example. -/
example : ∃ a, setup exampleCtx Example.show0 (fun _ => none) Example.config
    (some (Example.file (Example.source [Example.app "shop"] [Example.app "shop"] [Example.http]))) =
      .ok a := by
  have g := Example.good (sel := [Example.app "shop"]) (labels := [Example.app "shop"])
    (anns := [Example.http]) (by decide +kernel) (by decide +kernel) (by decide +kernel)
  have hM := Example.meant (fun _ => none) .json [Example.app "shop"] [Example.app "shop"]
    (Example.httpM _ _)
  have mem : ∀ k r, (k, r) ∈ (Example.meaning [Example.app "shop"] [Example.app "shop"]
      [Example.httpMeaning]).resources → r.type = .handler →
      r = Example.handlerMeaning [Example.app "shop"] [Example.httpMeaning] := by
    intro k r hr ht
    rcases List.mem_cons.1 hr with e | hr
    · cases e; cases ht
    · rcases List.mem_cons.1 hr with e | hr
      · cases e; rfl
      · cases hr
  refine (starts_partial (cx := exampleCtx) (f := .json) (c := Example.config) g
    (Example.written_json _) hM (Example.clear _)).2 ⟨?_, ?_⟩
  · intro api _ k r hr ht _ _
    rw [mem k r hr ht]
    exact ⟨"./h".toList, .own rfl rfl⟩
  · rintro api ⟨ka, hka, hta, _⟩
    refine ⟨?_, ?_⟩
    · rintro ⟨_, k, r, hr, ht, _, a, ha, hm⟩
      rw [mem k r hr ht] at ha
      cases ha
      have := List.mem_singleton.1 hm
      injection this with this
      exact absurd this (by decide +kernel)
    · intro k r hr ht _ _ sel labels l₁ l₂ h1 h2 m1 n1 m2 n2
      rw [mem k r hr ht] at h2
      cases h2
      rw [List.mem_singleton.1 n1, List.mem_singleton.1 n2]

/-- A handler that two labels of the selector select is an error. -/
theorem starts_violated : ¬ FullStarts := by
  intro h
  have g := Example.good (sel := [Example.app "shop", Example.team "web"])
    (labels := [Example.app "shop", Example.team "web"])
    (anns := [Example.http]) (by decide +kernel) (by decide +kernel) (by decide +kernel)
  have hM := Example.meant (fun _ => none) .json [Example.app "shop", Example.team "web"]
    [Example.app "shop", Example.team "web"] (Example.httpM _ _)
  have hl := (load_written (path := "app.json".toList) g (Example.written_json _) _).2 hM
  obtain ⟨s1, -, -⟩ := setup_loaded (showF := Example.show0) (c := Example.config) hl
  obtain ⟨a, ha⟩ := h Unit exampleCtx Example.show0 (fun _ => none) Example.config .json _ _ _ g
    (Example.written_json _) hM (by
      rintro api ⟨k, hk, ht, _⟩ k' r hr ht' _ _
      rcases List.mem_cons.1 hr with e | hr
      · cases e; cases ht'
      · rcases List.mem_cons.1 hr with e | hr
        · cases e
          exact ⟨"./h".toList, .own rfl rfl⟩
        · cases hr)
  rw [s1 (.alreadyCollected "h".toList) rfl nofun] at ha
  cases ha

/-! ## C122: the same API from JSON and YAML -/

/-- C122 in full: an application that starts from its blueprint in JSON and from the same blueprint
in YAML has the same API in both cases. -/
def FullFormats : Prop :=
  ∀ (F : Type) (cx : Ctx F) (showF : F → Str) (env : Env) (c c' : RtConfig.Config)
    (x : Source.Blueprint cx.cls F) (file file' : File F) (a a' : Application),
    Source.Good x → { c' with blueprintPath := c.blueprintPath } = c →
    Spec.Written c.blueprintPath.toList .json x file →
    Spec.Written c'.blueprintPath.toList .yaml x file' →
    setup cx showF env c (some file) = .ok a → setup cx showF env c' (some file') = .ok a' →
    a.config = a'.config

/-- What C122 does not exclude: the annotations and the route keys have no references. Then it does
not matter whether the application starts: it does in JSON if it does in YAML. -/
theorem formats_partial {F : Type} {cx : Ctx F} {showF : F → Str} {env : Env}
    {c c' : RtConfig.Config} (hcc : { c' with blueprintPath := c.blueprintPath } = c)
    {x : Source.Blueprint cx.cls F} (g : Source.Good x) (hp : Spec.Plain x) {file file' : File F}
    (hj : Spec.Written c.blueprintPath.toList .json x file)
    (hy : Spec.Written c'.blueprintPath.toList .yaml x file') {y z : ResConfig F}
    (hM : Source.BlueprintM cx env .json x y) (hM' : Source.BlueprintM cx env .yaml x z) :
    (∃ a a', setup cx showF env c (some file) = .ok a ∧
      setup cx showF env c' (some file') = .ok a' ∧ a.config = a'.config ∧
      a.tracing = a'.tracing ∧ a.app.http = a'.app.http ∧ a.app.localApi = a'.app.localApi) ∨
    ∃ e, setup cx showF env c (some file) = .err e ∧
      setup cx showF env c' (some file') = .err e := by
  have hl := (load_written g hj y).2 hM
  have hl' := (load_written g hy z).2 hM'
  have hsame := collect_same hp hM hM' showF (Spec.wanted c)
  have hwant : Spec.wanted c' = Spec.wanted c := by rw [← hcc]; rfl
  have hmode : c'.callMode = c.callMode := by rw [← hcc]
  have hhealth : RtConfig.healthRouter c' = RtConfig.healthRouter c := by rw [← hcc]; rfl
  obtain ⟨s1, s2, -⟩ := setup_loaded (showF := showF) hl
  obtain ⟨t1, t2, -⟩ := setup_loaded (showF := showF) hl'
  rw [hwant] at t1 t2
  cases hc : Transform.collectApiConfig showF (view y) (Spec.wanted c) with
  | error e =>
    have hc' := hsame ▸ hc
    by_cases he : e = .apiMissing
    · subst he
      exact .inl ⟨_, _, s2 hc, t2 hc', rfl, rfl, rfl, by simp only [hmode]⟩
    · exact .inr ⟨_, s1 e hc he, t1 e hc' he⟩
  | ok cfg =>
    have hc' := hsame ▸ hc
    rcases setup_same hl hl' hc hc' hwant hmode hhealth with ⟨r, h1, h2⟩ | ⟨h1, h2⟩
    · exact .inl ⟨_, _, h1, h2, rfl, rfl, rfl, by simp only [hmode]⟩
    · exact .inr ⟨_, h1, h2⟩

/-- A path that is a reference: JSON has the reference itself as the path, YAML has its value. -/
theorem formats_violated : ¬ FullFormats := by
  intro h
  have g := Example.good (sel := [Example.app "shop"]) (labels := [Example.app "shop"])
    (anns := [Example.http, Example.stagePath]) (by decide +kernel) (by decide +kernel)
    (by decide +kernel)
  have hM := Example.meant stageEnv .json [Example.app "shop"] [Example.app "shop"]
    (anns := [Example.http, Example.stagePath])
    (anns' := [Example.httpMeaning, Example.pathMeaning "${variables.stage}"])
    (.cons ⟨rfl, rfl⟩ (.cons ⟨rfl, Example.stageJson⟩ .nil))
  have hM' := Example.meant stageEnv .yaml [Example.app "shop"] [Example.app "shop"]
    (anns := [Example.http, Example.stagePath])
    (anns' := [Example.httpMeaning, Example.pathMeaning "prod"])
    (.cons ⟨rfl, rfl⟩ (.cons ⟨rfl, Example.stageYaml⟩ .nil))
  have hl := (load_written (path := "app.json".toList) g (Example.written_json _) _).2 hM
  have hl' := (load_written (path := "app.yaml".toList) g (Example.written_yaml _) _).2 hM'
  obtain ⟨-, -, s3⟩ := setup_loaded (showF := Example.show0) (c := Example.config) hl
  obtain ⟨-, -, t3⟩ := setup_loaded (showF := Example.show0)
    (c := { Example.config with blueprintPath := "app.yaml" }) hl'
  rcases s3 ⟨some [⟨"h".toList, "${variables.stage}".toList, "GET".toList, "./h".toList, 60, false⟩],
    none, false⟩ rfl with ⟨_, h2, _⟩ | ⟨_, r, hr⟩
  · cases h2
  rcases t3 ⟨some [⟨"h".toList, "prod".toList, "GET".toList, "./h".toList, 60, false⟩],
    none, false⟩ rfl with ⟨_, h2, _⟩ | ⟨_, r', hr'⟩
  · cases h2
  have := h Unit exampleCtx Example.show0 stageEnv Example.config
    { Example.config with blueprintPath := "app.yaml" } _ _ _ _ _ g rfl (Example.written_json _)
    (Example.written_yaml _) hr hr'
  dsimp only at this
  exact absurd this (by decide)

/-- The hypotheses of `formats_partial` are met: the example without the path is plain and has a
meaning in both formats. -/
example : Spec.Plain (Example.source [Example.app "shop"] [Example.app "shop"] [Example.http]) ∧
    (∀ f, Source.BlueprintM exampleCtx (fun _ => none) f
      (Example.source [Example.app "shop"] [Example.app "shop"] [Example.http])
      (Example.meaning [Example.app "shop"] [Example.app "shop"] [Example.httpMeaning])) := by
  refine ⟨⟨?_, ?_⟩, fun f => Example.meant _ f _ _ (Example.httpM _ _)⟩
  · intro e he a ha k t ht
    rcases List.mem_cons.1 he with e' | he
    · subst e'; cases ha
    · rcases List.mem_cons.1 he with e' | he
      · subst e'
        cases ha
        have := List.mem_singleton.1 ht
        cases this
      · cases he
  · intro e he s hs k a hk
    rcases List.mem_cons.1 he with e' | he
    · subst e'
      cases hs
      have := List.mem_singleton.1 hk
      cases this
    · rcases List.mem_cons.1 he with e' | he
      · subst e'; cases hs
      · cases he

/-! ## C123: the name of the file says the format -/

/-- C123 in full: the two runtimes read a file in the format that its name says. -/
def FullExtension : Prop :=
  ∀ path : Str, (readsJson path = true ↔ Spec.JsonPath path) ∧
    (workflowReadsJson path = true ↔ Spec.JsonPath path)

/-- The runtime of applications does; that of workflows does not for `.jsonc`. -/
theorem extension_partial (path : Str) :
    (readsJson path = true ↔ Spec.JsonPath path) ∧
    ((∀ s : Str, path ≠ s ++ ".jsonc".toList) →
      (workflowReadsJson path = true ↔ Spec.JsonPath path)) := by
  refine ⟨readsJson_iff path, fun h => ?_⟩
  unfold workflowReadsJson Spec.JsonPath
  rw [endsWith_iff]
  constructor
  · rintro ⟨p, h⟩
    exact ⟨p, .inl h⟩
  · rintro ⟨p, h' | h'⟩
    · exact ⟨p, h'⟩
    · exact absurd h' (h p)

/-- A file in JSON with comments: an application loads it, a workflow does not. -/
theorem extension_violated : ¬ FullExtension ∧
    ∀ (F : Type) (cx : Ctx F) (env : Env) (s : Str) (x : Source.Blueprint cx.cls F)
      (y : ResConfig F), Source.Good x → Source.BlueprintM cx env .json x y →
      load cx env (readsJson (s ++ ".jsonc".toList)) (some ⟨some (Source.write x), none⟩) = .ok y ∧
      setupWorkflow cx env (s ++ ".jsonc".toList) (some ⟨some (Source.write x), none⟩) =
        .err .unreadable := by
  have key : ∀ s : Str, workflowReadsJson (s ++ ".jsonc".toList) = false := by
    intro s
    cases h : workflowReadsJson (s ++ ".jsonc".toList) with
    | false => rfl
    | true =>
      obtain ⟨p, hp⟩ := (endsWith_iff _ _).1 h
      have := congrArg List.getLast? hp
      rw [List.getLast?_append, List.getLast?_append] at this
      cases this
  refine ⟨fun h => ?_, ?_⟩
  · have := (h ("app.jsonc".toList)).2.2 ⟨"app".toList, .inr (by decide)⟩
    exact absurd this (by decide)
  · intro F cx env s x y g hM
    refine ⟨(load_written (path := s ++ ".jsonc".toList) (f := .json) g
      ⟨⟨s, .inr rfl⟩, rfl⟩ y).2 hM, ?_⟩
    unfold setupWorkflow
    rw [key s]
    rfl

/-! ## C124: a missing API is reported -/

/-- C124 in full: an application for an API that its blueprint does not have does not start. -/
def FullMissing : Prop :=
  ∀ (F : Type) (cx : Ctx F) (showF : F → Str) (env : Env) (c : RtConfig.Config)
    (f : Source.Format) (x : Source.Blueprint cx.cls F) (file : File F) (y : ResConfig F)
    (n : String),
    Source.Good x → Spec.Written c.blueprintPath.toList f x file →
    Source.BlueprintM cx env f x y → c.apiResource = some n →
    (∀ api, ¬ Spec.IsApi y (some n.toList) api) →
    ∀ a, setup cx showF env c (some file) ≠ .ok a

/-- It starts, and serves nothing: whatever handlers are registered with it. -/
theorem missing_partial {F : Type} {cx : Ctx F} {showF : F → Str} {env : Env}
    {c : RtConfig.Config} {f : Source.Format} {x : Source.Blueprint cx.cls F} (g : Source.Good x)
    {file : File F} (hw : Spec.Written c.blueprintPath.toList f x file) {y : ResConfig F}
    (hM : Source.BlueprintM cx env f x y) (hno : ∀ api, ¬ Spec.IsApi y (Spec.wanted c) api) :
    ∃ a, setup cx showF env c (some file) = .ok a ∧ a.config.api = none ∧ a.app.http = none ∧
      (∀ path method handler, RtConfig.register a.app path method handler = .ok a.app) ∧
      ∀ o, (run o (Spec.lifeOf a false)).2 = .ok →
        Spec.serving (run o (Spec.lifeOf a false)).1 = if c.callMode = .http then 1 else 0 := by
  have hl := (load_written g hw y).2 hM
  obtain ⟨-, s2, -⟩ := setup_loaded (showF := showF) hl
  refine ⟨_, s2 ((collect_missing showF).2 hno), rfl, rfl, fun _ _ _ => rfl, fun o ho => ?_⟩
  rw [run_serving (s := Spec.lifeOf _ _) (fresh_inv _ _ _ _ _) o ho]
  show (false : Bool).toNat + (decide (c.callMode = .http)).toNat = _
  by_cases h : c.callMode = .http <;> simp [h]

theorem missing_violated : ¬ FullMissing := by
  intro h
  have g := Example.good (sel := [Example.app "shop"]) (labels := [Example.app "shop"])
    (anns := [Example.http]) (by decide +kernel) (by decide +kernel) (by decide +kernel)
  have hM := Example.meant (fun _ => none) .json [Example.app "shop"] [Example.app "shop"]
    (Example.httpM _ _)
  have hno : ∀ api, ¬ Spec.IsApi
      (Example.meaning [Example.app "shop"] [Example.app "shop"] [Example.httpMeaning])
      (some "orders".toList) api := by
    rintro api ⟨k, hk, ht, hw⟩
    have hw := hw _ rfl
    rcases List.mem_cons.1 hk with e | hk
    · cases e
      exact absurd hw (by decide)
    · rcases List.mem_cons.1 hk with e | hk
      · cases e; cases ht
      · cases hk
  obtain ⟨a, ha, _⟩ := missing_partial (cx := exampleCtx) (showF := Example.show0) (f := .json)
    (c := { Example.config with apiResource := some "orders" }) g (Example.written_json _) hM hno
  exact h Unit exampleCtx Example.show0 (fun _ => none)
    { Example.config with apiResource := some "orders" } .json _ _ _ "orders" g
    (Example.written_json _) hM rfl hno a ha

/-! ## C125: shutting down stops the servers -/

/-- C125 in full: whatever happened to an application, `shutdown` returns, and after it nothing of
the application accepts connections. -/
def FullShutdown : Prop :=
  ∀ (http localApi tracing testMode subscriber : Bool) (ops : List Op),
    let s := steps (fresh http localApi tracing testMode subscriber) ops
    (shutdown s).2 = .ok ∧ Spec.serving (shutdown s).1 = 0

/-- What C125 does not exclude: the runtime of tokio was not ended before. Then everything that was
ever started was told to stop, however often the application was run, and in every history at
most two servers accept connections. -/
theorem shutdown_partial (http localApi tracing testMode subscriber : Bool) (ops : List Op) :
    let s := steps (fresh http localApi tracing testMode subscriber) ops
    Spec.serving s ≤ 2 ∧
    ((shutdown s).2 = .ok →
      Spec.serving (shutdown s).1 = 0 ∧ shutdown (shutdown s).1 = ((shutdown s).1, .ok)) ∧
    (.endRuntime ∉ ops → (shutdown s).2 = .ok ∧ Spec.AllStopped (shutdown s).1) := by
  intro s
  have hi : Inv s := steps_inv (fresh_inv _ _ _ _ _) ops
  obtain ⟨h1, h2, h3⟩ := shutdown_spec hi
  refine ⟨serving_le_two hi, fun hok => ?_, fun hops => ?_⟩
  · obtain ⟨a, b⟩ := h2 hok
    refine ⟨?_, shutdown_none a b⟩
    unfold Spec.serving
    rw [List.count_eq_zero]
    exact fun hm => serving_zero h1 a b _ hm rfl
  · have hg : ∀ t ∈ s.servers, t ≠ .gone :=
      steps_not_gone (fresh_inv _ _ _ _ _) nofun ops hops
    obtain ⟨hok, hg'⟩ := h3 hg
    obtain ⟨a, b⟩ := h2 hok
    refine ⟨hok, fun t ht => ?_⟩
    have n1 := hg' t ht
    have n2 := serving_zero h1 a b t ht
    cases t with
    | serving => exact absurd rfl n2
    | stopping => rfl
    | gone => exact absurd rfl n1

/-- When the runtime of tokio has ended, `shutdown` panics, since there is nothing left to be told
to stop. -/
theorem shutdown_violated : ¬ FullShutdown := by
  intro h
  have := (h true false false false false [.run ⟨true, true, true⟩, .endRuntime]).1
  exact absurd this (by decide)

/-- Run, run again, shut down: both servers of the second run, and those of the first, are told to
stop. -/
example : (steps (fresh true true false false false)
      [.run ⟨true, true, true⟩, .run ⟨true, true, true⟩]).servers =
      [.stopping, .stopping, .serving, .serving] ∧
    (steps (fresh true true false false false)
      [.run ⟨true, true, true⟩, .run ⟨true, true, true⟩, .shutdown]).servers =
      [.stopping, .stopping, .stopping, .stopping] := by decide

/-! ## C126: an application can be run again -/

/-- C126 in full: after a shutdown, and with an outside that does what it is asked for, an
application can be run: it then serves with one server for each of its routers. -/
def FullRerun : Prop :=
  ∀ (http localApi tracing testMode subscriber : Bool) (ops : List Op),
    let s := steps (fresh http localApi tracing testMode subscriber) (ops ++ [.shutdown])
    (run Spec.Outside.fine s).2 = .ok ∧
      Spec.serving (run Spec.Outside.fine s).1 = http.toNat + localApi.toNat

/-- What C126 does not exclude: tracing is off, or in test mode, or nothing has set a subscriber. In
general: whenever `run` succeeds there is one server for each router. -/
theorem rerun_partial (http localApi tracing testMode subscriber : Bool) (ops : List Op) :
    let s := steps (fresh http localApi tracing testMode subscriber) ops
    (∀ o, (run o s).2 = .ok →
      Spec.serving (run o s).1 = http.toNat + localApi.toNat) ∧
    (tracing = false ∨ testMode = true ∨ s.subscriber = false →
      (run Spec.Outside.fine s).2 = .ok) := by
  intro s
  have hi : Inv s := steps_inv (fresh_inv _ _ _ _ _) ops
  obtain ⟨e1, e2, e3, e4⟩ := steps_same (fresh http localApi tracing testMode subscriber) ops
  refine ⟨fun o ho => ?_, fun h => run_fine s ?_⟩
  · rw [run_serving hi o ho]
    show (steps _ ops).http.toNat + (steps _ ops).localApi.toNat = _
    rw [e1, e2]
    rfl
  · rcases h with h | h | h
    · exact .inl (e3.trans h)
    · exact .inr (.inl (e4.trans h))
    · exact .inr (.inr h)

/-- An application that traces cannot be run again: the subscriber of the process is set already. -/
theorem rerun_violated : ¬ FullRerun := by
  intro h
  have := (h true false true false false [.run ⟨true, true, true⟩]).1
  exact absurd this (by decide)

/-- The hypotheses of `rerun_partial` are met: run, shut down, run again. -/
example : Spec.serving (run ⟨true, true, true⟩ (steps (fresh true true false false false)
    [.run ⟨true, true, true⟩, .shutdown])).1 = 2 := by decide

/-- The number of servers is that of the listeners of the routers. -/
theorem run_listeners (a : Application) (subscriber : Bool) (ops : List Op) (o : Outside) :
    let s := steps (Spec.lifeOf a subscriber) ops
    (run o s).2 = .ok → Spec.serving (run o s).1 = (RtConfig.listeners a.app).length := by
  intro s ho
  have := (rerun_partial a.app.http.isSome a.app.localApi a.tracing a.app.config.testMode subscriber
    ops).1 o ho
  show Spec.serving (run o (steps (Spec.lifeOf a subscriber) ops)).1 = _
  unfold Spec.lifeOf
  rw [this]
  unfold RtConfig.listeners
  cases a.app.http <;> cases a.app.localApi <;> rfl

end Verif.Startup
