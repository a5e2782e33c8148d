import Verif.Startup.Props
import Verif.Startup.RemoteModel
import Verif.RtConfig.Spec

/-!
# Handlers in another process (C169)
-/

namespace Verif.Startup

open Verif Verif.Subst Verif.Blueprint

/-! ## Specification -/

/-- Some answer is an event. -/
def RemoteSpec.GotEvent {P : Type} (l : List (Told P)) : Prop :=
  ∃ e, Told.events (.next (some e)) ∈ l

/-- C169 in full: in the call mode `http`, whatever happened before, a request for a handler in the
configuration leads to an event that the handlers executable gets if it asks often enough. -/
def FullRemote : Prop :=
  ∀ (F P R : Type) (cx : Ctx F) (showF : F → Str) (env : Env) (c : RtConfig.Config)
    (file : Option (File F)) (a : Application) (h : Wire.HttpHandler) (m : RtConfig.Method)
    (before : List (Ask R)),
    setup cx showF env c file = .ok a → c.callMode = .http → h ∈ Spec.httpHandlers a →
    RtConfig.Spec.NamesMethod (String.ofList h.method) m →
    ∃ n, RemoteSpec.GotEvent (P := P) (asks (asks (started a) before).1
      (.request (String.ofList h.path) m :: List.replicate n .next)).2

/-! ## Lemmas -/

/-- The routes that `setup` makes. -/
theorem setup_router {c : RtConfig.Config} {api : Option (Option RtConfig.WsConfig)}
    {a : RtConfig.App} (h : RtConfig.setup c api = .ok a) :
    a.localApi = decide (c.callMode = .http) ∧ (api = none → a.http = none) ∧
    ∀ r, a.http = some r → ∀ e ∈ r,
      e = (("/runtime/health/check", .get), .health) ∨
      ∃ w, api = some (some w) ∧ e = ((w.basePath, .get), .websocket) := by
  cases api with
  | none =>
    injection h with h
    subst h
    exact ⟨rfl, fun _ => rfl, nofun⟩
  | some ws =>
    have health : ∀ r, RtConfig.healthRouter c = .ok r →
        ∀ e ∈ r, e = ((("/runtime/health/check", .get), .health) :
          (String × RtConfig.Method) × RtConfig.Target) := by
      intro r hr e he
      unfold RtConfig.healthRouter at hr
      split at hr
      · injection hr with hr
        subst hr
        cases he
      · unfold RtConfig.addRoute at hr
        injection hr with hr
        subst hr
        exact List.mem_singleton.1 he
    cases hh : RtConfig.healthRouter c with
    | err x => simp [RtConfig.setup, RtConfig.setupHttp, hh, bind, Outcome.bind] at h
    | panic => simp [RtConfig.setup, RtConfig.setupHttp, hh, bind, Outcome.bind] at h
    | ok r0 =>
      cases ws with
      | none =>
        simp only [RtConfig.setup, RtConfig.setupHttp, hh, bind, Outcome.bind, pure] at h
        injection h with h
        subst h
        refine ⟨rfl, nofun, fun r hr e he => .inl ?_⟩
        injection hr with hr
        subst hr
        exact health _ hh e he
      | some w =>
        cases hw : RtConfig.addRoute r0 w.basePath .get .websocket with
        | err x => simp [RtConfig.setup, RtConfig.setupHttp, hh, hw, bind, Outcome.bind] at h
        | panic => simp [RtConfig.setup, RtConfig.setupHttp, hh, hw, bind, Outcome.bind] at h
        | ok r1 =>
          simp only [RtConfig.setup, RtConfig.setupHttp, hh, hw, bind, Outcome.bind, pure] at h
          injection h with h
          subst h
          refine ⟨rfl, nofun, fun r hr e he => ?_⟩
          injection hr with hr
          subst hr
          unfold RtConfig.addRoute at hw
          split at hw
          · cases hw
          · injection hw with hw
            subst hw
            rcases List.mem_cons.1 he with he | he
            · exact .inr ⟨w, rfl, he⟩
            · exact .inl (health _ hh e he)

theorem lookup_mem' {A B : Type} [BEq A] [LawfulBEq A] {k : A} {v : B} :
    ∀ {l : List (A × B)}, l.lookup k = some v → (k, v) ∈ l
  | [], h => by cases h
  | (k', v') :: l, h => by
    rw [List.lookup_cons] at h
    split at h
    · rename_i e
      injection h with h
      rw [eq_of_beq e, h]
      exact List.mem_cons_self ..
    · exact List.mem_cons_of_mem _ (lookup_mem' h)

/-- What the whole of `setup` makes. -/
theorem setup_process {F : Type} {cx : Ctx F} {showF : F → Str} {env : Env} {c : RtConfig.Config}
    {file : Option (File F)} {a : Application} (h : setup cx showF env c file = .ok a) :
    a.app.localApi = decide (c.callMode = .http) ∧
    ∀ r, a.app.http = some r → ∀ e ∈ r,
      e = (("/runtime/health/check", .get), .health) ∨ e = (("/", .get), .websocket) := by
  cases hl : load cx env (readsJson c.blueprintPath.toList) file with
  | err e => simp [setup, hl, bind, Outcome.bind] at h
  | panic => simp [setup, hl, bind, Outcome.bind] at h
  | ok b =>
    cases hc : Transform.collectApiConfig showF (view b) (c.apiResource.map String.toList) with
    | error e =>
      by_cases he : e = .apiMissing
      · subst he
        simp only [setup, hl, hc, bind, Outcome.bind, pure] at h
        cases hr : RtConfig.setup c none with
        | err e => simp [hr, routerErr] at h
        | panic => simp [hr, routerErr] at h
        | ok x =>
          simp only [hr, routerErr] at h
          injection h with h
          subst h
          obtain ⟨h1, h2, _⟩ := setup_router hr
          refine ⟨h1, fun r hr' => ?_⟩
          rw [show x.http = none from h2 rfl] at hr'
          cases hr'
      · simp only [setup, hl, hc, bind, Outcome.bind] at h
        cases e <;> first | exact absurd rfl he | cases h
    | ok cfg =>
      simp only [setup, hl, hc, bind, Outcome.bind, pure] at h
      cases hw : wsConfig cfg with
      | err e => simp [hw] at h
      | panic => simp [hw] at h
      | ok ws =>
        simp only [hw] at h
        cases hr : RtConfig.setup c (some ws) with
        | err e => simp [hr, routerErr] at h
        | panic => simp [hr, routerErr] at h
        | ok x =>
          simp only [hr, routerErr] at h
          injection h with h
          subst h
          obtain ⟨h1, _, h3⟩ := setup_router hr
          refine ⟨h1, fun r hr' e he => ?_⟩
          rcases h3 r hr' e he with h | ⟨w, hw', h⟩
          · exact .inl h
          · injection hw' with hw'
            subst hw'
            have : w.basePath = "/" := by
              unfold wsConfig at hw
              split at hw
              · cases hw
              · split at hw
                · cases hw
                · rename_i path hp
                  injection hw with hw
                  injection hw with hw
                  subst hw
                  unfold Transform.resolveWebsocketBasePath at hp
                  split at hp
                  · cases hp
                  · injection hp with hp
                    subst hp
                    rfl
            rw [this] at h
            exact .inr h

/-- The queue and the map stay empty, and the application is the same. -/
theorem asks_idle {P R : Type} (a : Application) (qs : List (Ask R)) :
    (asks (started (P := P) a) qs).1 = started a := by
  induction qs with
  | nil => rfl
  | cons q qs ih =>
    have : (ask (started (P := P) a) q).1 = started a := by
      cases q with
      | request path m => rfl
      | config => rfl
      | next =>
        show (askEvents (started a) .poll).1 = _
        unfold askEvents
        split <;> rfl
      | result id r =>
        show (askEvents (started a) (.result id r)).1 = _
        unfold askEvents
        split <;> rfl
    show (asks (ask (started a) q).1 qs).1 = _
    rw [this]
    exact ih

/-! ## C169 -/

/-- What happens instead: whatever was asked before, the handlers executable is told that there is no
event, its results belong to no event, and the server has the health check and the endpoint for
WebSockets at `/` only. -/
theorem remote_idle {F P R : Type} {cx : Ctx F} {showF : F → Str} {env : Env} {c : RtConfig.Config}
    {file : Option (File F)} {a : Application} (h : setup cx showF env c file = .ok a)
    (hc : c.callMode = .http) (before : List (Ask R)) :
    let p : Process P R := (asks (started a) before).1
    (ask p .next).2 = .events (.next none) ∧
    (∀ id r, (ask p (.result id r)).2 = .events .notFound) ∧
    ∀ path m, path ≠ "/runtime/health/check" → path ≠ "/" →
      (ask p (.request path m)).2 = if a.app.http.isSome then .unserved else .refused := by
  intro p
  obtain ⟨h1, h2⟩ := setup_process h
  have hl : a.app.localApi = true := by rw [h1, hc]; rfl
  have hp : p = started a := asks_idle a before
  rw [hp]
  refine ⟨?_, fun id r => ?_, fun path m n1 n2 => ?_⟩
  · show (askEvents (started a) .poll).2 = _
    unfold askEvents
    rw [if_pos (show (started (P := P) (R := R) a).app.app.localApi = true from hl)]
    rfl
  · show (askEvents (started a) (.result id r)).2 = _
    unfold askEvents
    rw [if_pos (show (started (P := P) (R := R) a).app.app.localApi = true from hl)]
    rfl
  · show askServer a path m = _
    unfold askServer
    cases hr : a.app.http with
    | none => rfl
    | some r =>
      have none' : ∀ m, r.lookup (path, m) = none := by
        intro m
        cases hk : r.lookup (path, m) with
        | none => rfl
        | some t =>
          rcases h2 r hr _ (lookup_mem' hk) with e | e
          · injection e with e _
            injection e with e _
            exact absurd e n1
          · injection e with e _
            injection e with e _
            exact absurd e n2
      have : RtConfig.dispatch r path m = none := by
        unfold RtConfig.dispatch
        rw [none' m, none' .get]
        exact ite_self _
      simp only [this]
      rfl

/-- What holds of C169: the handlers executable is told at any time which handlers the blueprint
declares, each with its path and method. In the other call mode there is no local API. -/
theorem remote_config_partial {F P R : Type} {cx : Ctx F} {showF : F → Str} {env : Env}
    {c : RtConfig.Config} {file : Option (File F)} {a : Application}
    (h : setup cx showF env c file = .ok a) (before : List (Ask R)) :
    let p : Process P R := (asks (started a) before).1
    (c.callMode = .http → ∃ l, (ask p .config).2 = .config l ∧
      l.http.map (fun x => (x.path, x.method)) =
        (Spec.httpHandlers a).map (fun x => (x.path, x.method)) ∧
      l.websocket.map (fun x => (x.routeKey, x.route)) =
        (Spec.wsHandlers a).map (fun x => (x.routeKey, x.route))) ∧
    (c.callMode = .ffi → (ask p .config).2 = .refused ∧ (ask p .next).2 = .refused ∧
      ∀ id r, (ask p (.result id r)).2 = .refused) := by
  intro p
  obtain ⟨h1, _⟩ := setup_process h
  have hp : p = started a := asks_idle a before
  rw [hp]
  refine ⟨fun hc => ?_, fun hc => ?_⟩
  · have hl : a.app.localApi = true := by rw [h1, hc]; rfl
    refine ⟨Wire.localConfig a.config, ?_, ?_, ?_⟩
    · show (if a.app.localApi then Told.config (Wire.localConfig a.config) else .refused) = _
      rw [if_pos hl]
    · obtain ⟨⟨api, _, _⟩, _, _⟩ := a
      cases api with
      | none => rfl
      | some api =>
        obtain ⟨http, _, _⟩ := api
        cases http with
        | none => rfl
        | some l =>
          show (l.map _).map _ = l.map _
          rw [List.map_map]
          rfl
    · obtain ⟨⟨api, _, _⟩, _, _⟩ := a
      cases api with
      | none => rfl
      | some api =>
        obtain ⟨_, ws, _⟩ := api
        cases ws with
        | none => rfl
        | some l =>
          show (l.map _).map _ = l.map _
          rw [List.map_map]
          rfl
  · have hl : a.app.localApi = false := by rw [h1, hc]; rfl
    have ev : ∀ op, (askEvents (P := P) (R := R) (started a) op).2 = .refused := by
      intro op
      unfold askEvents
      rw [if_neg (by rw [show (started (P := P) (R := R) a).app.app.localApi = false from hl]
                     decide)]
    refine ⟨?_, ev _, fun id r => ev _⟩
    show (if a.app.localApi then Told.config (Wire.localConfig a.config) else .refused) = _
    rw [hl]
    rfl

/-- The configuration of the examples in the call mode `http`. -/
def Example.remote : RtConfig.Config := { Example.config with callMode := .http }

/-- The example meets the hypotheses: an API with a handler for `GET /`. -/
theorem Example.remote_setup : ∃ a, setup exampleCtx Example.show0 (fun _ => none) Example.remote
      (some (Example.file (Example.source [Example.app "shop"] [Example.app "shop"] [Example.http])))
        = .ok a ∧
    Spec.httpHandlers a =
      [⟨[], "/".toList, "GET".toList, "./h".toList, "h".toList, 60, false⟩] := by
  have g := Example.good (sel := [Example.app "shop"]) (labels := [Example.app "shop"])
    (anns := [Example.http]) (by decide +kernel) (by decide +kernel) (by decide +kernel)
  have hM := Example.meant (fun _ => none) .json [Example.app "shop"] [Example.app "shop"]
    (Example.httpM _ _)
  have hl := (load_written (path := "app.json".toList) g (Example.written_json _) _).2 hM
  obtain ⟨_, _, s3⟩ := setup_loaded (showF := Example.show0) (c := Example.remote) hl
  rcases s3 ⟨some [⟨"h".toList, "/".toList, "GET".toList, "./h".toList, 60, false⟩], none, false⟩
    rfl with ⟨_, h2, _⟩ | ⟨_, r, hr⟩
  · cases h2
  · exact ⟨_, hr, rfl⟩

/-- C169 is false of the code: no event is ever queued. -/
theorem remote_violated : ¬ FullRemote := by
  intro h
  obtain ⟨a, ha, hh⟩ := Example.remote_setup
  obtain ⟨n, e, he⟩ := h Unit Nat Nat exampleCtx Example.show0 (fun _ => none) Example.remote _ a
    ⟨[], "/".toList, "GET".toList, "./h".toList, "h".toList, 60, false⟩ .get [] ha rfl
    (by rw [hh]; exact List.mem_cons_self ..)
    (by unfold RtConfig.Spec.NamesMethod; decide +kernel)
  have none' : ∀ n, ∀ t ∈ (asks (started (P := Nat) (R := Nat) a) (List.replicate n .next)).2,
      t ≠ Told.events (.next (some e)) := by
    intro n
    induction n with
    | zero => nofun
    | succ n ih =>
      intro t ht
      have hi := (remote_idle (P := Nat) (R := Nat) ha rfl []).1
      have hs : (ask (started (P := Nat) (R := Nat) a) .next).1 = started a := by
        have := asks_idle (P := Nat) a [Ask.next (R := Nat)]
        exact this
      rcases List.mem_cons.1 ht with ht | ht
      · rw [ht]
        show (ask (started a) .next).2 ≠ _
        rw [show (ask (started (P := Nat) (R := Nat) a) .next).2 = _ from hi]
        nofun
      · have ht : t ∈ (asks (ask (started (P := Nat) (R := Nat) a) .next).1
            (List.replicate n .next)).2 := ht
        rw [hs] at ht
        exact ih t ht
  rcases List.mem_cons.1 he with he | he
  · have : Told.events (.next (some e)) = askServer a (String.ofList "/".toList) .get := he
    unfold askServer at this
    split at this
    · cases this
    · split at this <;> cases this
  · exact none' n _ he rfl

/-- `remote_idle` of the example. -/
example : ∃ a : Application, Spec.httpHandlers a ≠ [] ∧
    (ask (started (P := Nat) (R := Nat) a) .next).2 = .events (.next none) := by
  obtain ⟨a, ha, hh⟩ := Example.remote_setup
  exact ⟨a, by rw [hh]; nofun, (remote_idle (P := Nat) (R := Nat) ha rfl []).1⟩

end Verif.Startup
