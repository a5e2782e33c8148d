import Verif.Startup.AcceptLemmas
import Verif.Startup.SourceLemmas

/-!
# Lemmas about setting up an application
-/

namespace Verif.Startup

open Verif Verif.Subst Verif.Blueprint

variable {F : Type}

/-! ## The collected handlers -/

theorem collect_declares {y : ResConfig F} {wanted : Option Str} (hm : Spec.Maps y)
    (ht : Spec.Typed y) (hc : Spec.Clear y wanted) (showF : F → Str) {api : ResResource F}
    (ha : Spec.IsApi y wanted api) {cfg : Transform.ApiConfig}
    (hcfg : Transform.collectApiConfig showF (view y) wanted = .ok cfg) :
    (∀ d, d ∈ cfg.http.getD [] ↔
      ∃ k r, (k, r) ∈ y.resources ∧ Spec.Linked api r ∧ Spec.Http showF y k r d) ∧
    (∀ d ∈ (cfg.websocket.map (·.1)).getD [],
      ∃ k r, (k, r) ∈ y.resources ∧ Spec.Linked api r ∧ Spec.Ws showF y k r d) ∧
    (∀ k r e, (k, r) ∈ y.resources → Spec.Linked api r → Spec.Ws showF y k r e →
      ∃ key, { e with routeKey := key } ∈ (cfg.websocket.map (·.1)).getD []) ∧
    (cfg.http.isSome = true ↔ ∃ k r, (k, r) ∈ y.resources ∧ r.type = .handler ∧
      Spec.Linked api r ∧ Spec.Annotated r "celerity.handler.http" (.bool true)) ∧
    (cfg.websocket.isSome = true ↔ ∃ k r, (k, r) ∈ y.resources ∧ r.type = .handler ∧
      Spec.Linked api r ∧ Spec.Annotated r "celerity.handler.websocket" (.bool true)) ∧
    (∀ sp, api.spec = some (.api sp) → cfg.tracingEnabled = sp.tracingEnabled.getD false) := by
  have hg := getApi hc.api ha
  obtain ⟨ka, hka, hty, hw⟩ := ha
  obtain ⟨sp, hsp⟩ := (ht _ hka).1.1 hty
  have hsp : api.spec = some (.api sp) := hsp
  have hv : (resourceView api).spec = .api ⟨sp.protocols.map protocolView, sp.tracingEnabled⟩ := by
    simp only [resourceView, hsp, specView]
  obtain ⟨key, hkey⟩ := Transform.resolveRouteKey_total (resourceView api).spec ⟨_, hv⟩
  have hiff := Transform.collectApiConfig_iff showF (view y) wanted (resourceView api) hg _ hv key hkey
  have hls : (resourceView api).linkSelector = api.linkSelector := rfl
  rw [hls] at hiff
  obtain ⟨hs, ws, p1, p2, -, c1, c2, c3⟩ := (hiff cfg).1 hcfg
  have hsel := mem_select hm hc.values hka .handler
  have hmem : ∀ (key : String) k b', (k, b') ∈ (Transform.selectResources api.linkSelector (view y)
      .handler).filter (fun h => Transform.Spec.isEnabled key.toList h.2) ↔
      ∃ r, (k, r) ∈ y.resources ∧ b' = resourceView r ∧ r.type = .handler ∧ Spec.Linked api r ∧
        Spec.Annotated r key (.bool true) := by
    intro key k b'
    rw [List.mem_filter]
    constructor
    · rintro ⟨h1, h2⟩
      obtain ⟨r, h3, rfl, h4, h5⟩ := (hsel k b').1 h1
      exact ⟨r, h3, rfl, h4, h5, (isEnabled_iff hm h3 key).1 h2⟩
    · rintro ⟨r, h3, rfl, h4, h5, h6⟩
      exact ⟨(hsel k _).2 ⟨r, h3, rfl, h4, h5⟩, (isEnabled_iff hm h3 key).2 h6⟩
  have hmemH := hmem "celerity.handler.http"
  have hmemW := hmem "celerity.handler.websocket"
  have e1 : cfg.http.getD [] = hs := by rw [c1]; split <;> simp_all
  have e2 : (cfg.websocket.map (·.1)).getD [] = ws := by rw [c2]; split <;> simp_all
  have hH : ∀ d, d ∈ hs ↔
      ∃ k r, (k, r) ∈ y.resources ∧ Spec.Linked api r ∧ Spec.Http showF y k r d := by
    intro d
    constructor
    · intro hd
      obtain ⟨⟨k, b⟩, hb, hdef⟩ := pairwise2_left p1 hd
      obtain ⟨r, h3, rfl, h4, h5, h6⟩ := (hmemH k b).1 hb
      exact ⟨k, r, h3, h5, (httpDef_iff hm ht hc showF h3 h4 h6 d).1 hdef⟩
    · rintro ⟨k, r, h3, h5, hd⟩
      obtain ⟨d', hd', hdef⟩ := pairwise2_right p1
        ((hmemH k _).2 ⟨r, h3, rfl, hd.type, h5, hd.enabled⟩)
      have := httpDef_unique hdef ((httpDef_iff hm ht hc showF h3 hd.type hd.enabled d).2 hd)
      rwa [← this]
  have hW : ∀ d ∈ ws, ∃ k r, (k, r) ∈ y.resources ∧ Spec.Linked api r ∧ Spec.Ws showF y k r d := by
    intro d hd
    obtain ⟨⟨k, b⟩, hb, hdef⟩ := pairwise2_left p2 hd
    obtain ⟨r, h3, rfl, h4, h5, h6⟩ := (hmemW k b).1 hb
    exact ⟨k, r, h3, h5, ((wsDef_iff hm ht hc showF h3 h4 h6 key d).1 hdef).1⟩
  refine ⟨?_, ?_, ?_, ?_, ?_, ?_⟩
  · rw [e1]; exact hH
  · rw [e2]; exact hW
  · rw [e2]
    intro k r e h3 h5 he
    obtain ⟨d', hd', hdef⟩ := pairwise2_right p2
      ((hmemW k _).2 ⟨r, h3, rfl, he.type, h5, he.enabled⟩)
    have := wsDef_unique hdef ((wsDef_iff hm ht hc showF h3 he.type he.enabled key
      { e with routeKey := key }).2 ⟨⟨he.type, he.enabled, he.name, he.route, he.settings⟩, rfl⟩)
    exact ⟨key, this ▸ hd'⟩
  · have : cfg.http.isSome = true ↔ hs ≠ [] := by rw [c1]; split <;> simp_all
    rw [this]
    constructor
    · intro hne
      obtain ⟨d, hd⟩ := List.exists_mem_of_ne_nil _ hne
      obtain ⟨k, r, h1, h2, h3⟩ := (hH d).1 hd
      exact ⟨k, r, h1, h3.type, h2, h3.enabled⟩
    · rintro ⟨k, r, h1, h2, h3, h4⟩ hne
      obtain ⟨d', hd', _⟩ := pairwise2_right p1 ((hmemH k _).2 ⟨r, h1, rfl, h2, h3, h4⟩)
      rw [hne] at hd'
      cases hd'
  · have : cfg.websocket.isSome = true ↔ ws ≠ [] := by rw [c2]; split <;> simp_all
    rw [this]
    constructor
    · intro hne
      obtain ⟨d, hd⟩ := List.exists_mem_of_ne_nil _ hne
      obtain ⟨k, r, h1, h2, h3⟩ := hW d hd
      exact ⟨k, r, h1, h3.type, h2, h3.enabled⟩
    · rintro ⟨k, r, h1, h2, h3, h4⟩ hne
      obtain ⟨d', hd', _⟩ := pairwise2_right p2 ((hmemW k _).2 ⟨r, h1, rfl, h2, h3, h4⟩)
      rw [hne] at hd'
      cases hd'
  · intro sp' hsp'
    rw [hsp] at hsp'
    cases hsp'
    exact c3

/-! ## A missing API -/

theorem resolveLocation_not_missing {n : Str} {s : Transform.HandlerSpec}
    {o : Option (Str × Transform.Resource F)} {md : Option (Option Transform.SharedConfig)} :
    Transform.resolveLocation n s o md ≠ .error .apiMissing := by
  rw [Transform.location_precedence]
  split <;> nofun

theorem checkCollected_not_missing {n : Str} {l : List Str} :
    Transform.checkCollected n l ≠ .error .apiMissing := by
  unfold Transform.checkCollected
  split <;> nofun

theorem collectHttp_not_missing (showF : F → Str) (b : Transform.Blueprint F)
    (l : List (Str × Transform.Resource F)) (collected : List Str)
    (acc : List Transform.HttpHandler) :
    Transform.collectHttp showF b collected acc l ≠ .error .apiMissing := by
  induction l generalizing collected acc with
  | nil => nofun
  | cons h l ih =>
    unfold Transform.collectHttp
    split
    · exact ih _ _
    · split
      · next e he =>
        intro hh
        injection hh with hh
        exact checkCollected_not_missing (hh ▸ he)
      · dsimp only
        split
        · next e he =>
          intro hh
          injection hh with hh
          subst hh
          unfold Transform.httpDefinition at he
          split at he
          · unfold Transform.applyHttp at he
            split at he
            · next e' he' =>
              injection he with he
              exact resolveLocation_not_missing (he ▸ he')
            · cases he
          · cases he
        · exact ih _ _

theorem collectWs_not_missing (showF : F → Str) (b : Transform.Blueprint F)
    (s : Transform.ResourceSpec) (l : List (Str × Transform.Resource F)) (collected : List Str)
    (acc : List Transform.WsHandler) :
    Transform.collectWs showF b s collected acc l ≠ .error .apiMissing := by
  induction l generalizing collected acc with
  | nil => nofun
  | cons h l ih =>
    unfold Transform.collectWs
    split
    · exact ih _ _
    · split
      · next e he =>
        intro hh
        injection hh with hh
        exact checkCollected_not_missing (hh ▸ he)
      · dsimp only
        split
        · next e he =>
          intro hh
          injection hh with hh
          subst hh
          unfold Transform.resolveRouteKey at he
          split at he
          · split at he <;> cases he
          · cases he
        · split
          · next e he =>
            intro hh
            injection hh with hh
            subst hh
            unfold Transform.wsDefinition at he
            split at he
            · unfold Transform.applyWs at he
              split at he
              · next e' he' =>
                injection he with he
                exact resolveLocation_not_missing (he ▸ he')
              · cases he
            · cases he
          · exact ih _ _

/-- The API is missing when there is none of the name. -/
theorem collect_missing {y : ResConfig F} {wanted : Option Str} (showF : F → Str) :
    Transform.collectApiConfig showF (view y) wanted = .error .apiMissing ↔
      ∀ r, ¬ Spec.IsApi y wanted r := by
  constructor
  · intro h api hapi
    obtain ⟨k, hk, hty, hw⟩ := hapi
    unfold Transform.collectApiConfig at h
    split at h
    · next e he =>
      injection h with h
      subst h
      unfold Transform.getApiResource at he
      split at he
      · cases he
      · next hf =>
        rw [List.find?_eq_none] at hf
        have hv : (resourceView api).resourceType = .api := by
          simp only [resourceView, hty, typeView]
        have := hf (k, resourceView api) (mem_view.2 ⟨api, hk, rfl⟩)
        cases wanted with
        | none => simp [hv] at this
        | some w => simp [hv, hw w rfl] at this
    · dsimp only at h
      split at h
      · next e he =>
        injection h with h
        exact collectHttp_not_missing _ _ _ _ _ (h ▸ he)
      · split at h
        · next e he =>
          injection h with h
          exact collectWs_not_missing _ _ _ _ _ _ (h ▸ he)
        · cases h
  · intro h
    unfold Transform.collectApiConfig
    rw [getApi_none h]

/-! ## Loading -/

theorem endsWith_iff (s t : Str) : endsWith s t = true ↔ ∃ p, s = p ++ t := by
  unfold endsWith
  rw [List.isSuffixOf_iff_suffix]
  exact ⟨fun ⟨p, h⟩ => ⟨p, h.symm⟩, fun ⟨p, h⟩ => ⟨p, h.symm⟩⟩

theorem readsJson_iff (path : Str) : readsJson path = true ↔ Spec.JsonPath path := by
  unfold readsJson Spec.JsonPath
  rw [Bool.or_eq_true, endsWith_iff, endsWith_iff]
  constructor
  · rintro (⟨p, h⟩ | ⟨p, h⟩)
    · exact ⟨p, .inl h⟩
    · exact ⟨p, .inr h⟩
  · rintro ⟨p, h | h⟩
    · exact .inl ⟨p, h⟩
    · exact .inr ⟨p, h⟩

/-- A file is loaded as what its document means. -/
theorem load_written {cx : Ctx F} {env : Env} {path : Str} {f : Source.Format}
    {x : Source.Blueprint cx.cls F} (g : Source.Good x) {file : File F}
    (hw : Spec.Written path f x file) (y : ResConfig F) :
    load cx env (readsJson path) (some file) = .ok y ↔ Source.BlueprintM cx env f x y := by
  have key : ∀ o : Outcome Err (ResConfig F), loadErr o = .ok y ↔ o = .ok y := by
    intro o
    cases o <;> simp [loadErr]
  cases f with
  | json =>
    obtain ⟨h1, h2⟩ := hw
    rw [(readsJson_iff path).2 h1, ← Source.json_meaning cx env g]
    unfold load
    dsimp only
    rw [if_pos rfl, h2]
    exact key _
  | yaml =>
    obtain ⟨h1, rest, h2⟩ := hw
    have : readsJson path = false := by
      cases h : readsJson path with
      | false => rfl
      | true => exact absurd ((readsJson_iff path).1 h) h1
    rw [this, ← Source.yaml_meaning cx env g rest]
    unfold load
    dsimp only
    rw [if_neg (by nofun), h2]
    exact key _

/-! ## The routers -/

theorem rt_none (c : RtConfig.Config) :
    RtConfig.setup c none = .ok ⟨c, none, [], decide (c.callMode = .http)⟩ := rfl

theorem addRoute_new (r : RtConfig.Router) (path : String) (m : RtConfig.Method)
    (t : RtConfig.Target) (h : r.lookup (path, m) = none) :
    RtConfig.addRoute r path m t = .ok (((path, m), t) :: r) := by
  unfold RtConfig.addRoute
  rw [h]

theorem rt_some (c : RtConfig.Config) (ws : Option RtConfig.WsConfig)
    (h : ∀ w, ws = some w → w.basePath = "/") :
    ∃ r, RtConfig.setup c (some ws) = .ok ⟨c, some r, [], decide (c.callMode = .http)⟩ := by
  obtain ⟨r, h1, h2⟩ : ∃ r, RtConfig.healthRouter c = .ok r ∧ r.lookup ("/", .get) = none := by
    unfold RtConfig.healthRouter
    split
    · exact ⟨[], rfl, rfl⟩
    · exact ⟨_, rfl, by decide⟩
  cases ws with
  | none =>
    refine ⟨r, ?_⟩
    simp only [RtConfig.setup, RtConfig.setupHttp, h1, Bind.bind, Outcome.bind, pure]
  | some w =>
    refine ⟨(("/", .get), .websocket) :: r, ?_⟩
    have hw := h w rfl
    simp only [RtConfig.setup, RtConfig.setupHttp, h1, Bind.bind, Outcome.bind, pure, hw,
      addRoute_new r "/" .get .websocket h2]

/-- The WebSocket part. -/
theorem wsConfig_ok (cfg : Transform.ApiConfig) :
    (cfg.http.isSome = true ∧ cfg.websocket.isSome = true ∧
      wsConfig cfg = .err .hybridNeedsBasePath) ∨
    (¬ (cfg.http.isSome = true ∧ cfg.websocket.isSome = true) ∧
      ∃ ws, wsConfig cfg = .ok ws ∧ ∀ w, ws = some w → w.basePath = "/") := by
  unfold wsConfig Transform.resolveWebsocketBasePath
  cases cfg.websocket with
  | none => exact .inr ⟨by simp, none, rfl, nofun⟩
  | some l =>
    cases cfg.http with
    | none =>
      refine .inr ⟨by simp, _, rfl, ?_⟩
      intro w hw
      injection hw with hw
      rw [← hw]
      show String.ofList "/".toList = "/"
      decide
    | some h => exact .inl ⟨rfl, rfl, rfl⟩

/-! ## Setting up -/

variable {cx : Ctx F} {showF : F → Str} {env : Env} {c : RtConfig.Config}

/-- What setting up does with a blueprint that was loaded. -/
theorem setup_loaded {file : Option (File F)} {y : ResConfig F}
    (h : load cx env (readsJson c.blueprintPath.toList) file = .ok y) :
    (∀ e, Transform.collectApiConfig showF (view y) (Spec.wanted c) = .error e →
      e ≠ .apiMissing → setup cx showF env c file = .err (.config e)) ∧
    (Transform.collectApiConfig showF (view y) (Spec.wanted c) = .error .apiMissing →
      setup cx showF env c file = .ok ⟨Wire.appConfig none, false,
        ⟨c, none, [], decide (c.callMode = .http)⟩⟩) ∧
    (∀ cfg, Transform.collectApiConfig showF (view y) (Spec.wanted c) = .ok cfg →
      (cfg.http.isSome = true ∧ cfg.websocket.isSome = true ∧
        setup cx showF env c file = .err .hybridNeedsBasePath) ∨
      (¬ (cfg.http.isSome = true ∧ cfg.websocket.isSome = true) ∧
        ∃ r, setup cx showF env c file = .ok ⟨Wire.appConfig (some cfg), cfg.tracingEnabled,
          ⟨c, some r, [], decide (c.callMode = .http)⟩⟩)) := by
  have key : setup cx showF env c file =
      match Transform.collectApiConfig showF (view y) (Spec.wanted c) with
      | .ok cfg => (wsConfig cfg).bind fun ws =>
          (routerErr (RtConfig.setup c (some ws))).bind fun a =>
            .ok ⟨Wire.appConfig (some cfg), cfg.tracingEnabled, a⟩
      | .error .apiMissing => (routerErr (RtConfig.setup c none)).bind fun a =>
          .ok ⟨Wire.appConfig none, false, a⟩
      | .error e => .err (.config e) := by
    unfold setup
    rw [h]
    rfl
  refine ⟨?_, ?_, ?_⟩
  · intro e he hne
    rw [key, he]
    cases e with
    | apiMissing => exact absurd rfl hne
    | _ => rfl
  · intro he
    rw [key, he]
    rfl
  · intro cfg hcfg
    rw [key, hcfg]
    dsimp only
    rcases wsConfig_ok cfg with ⟨a, b, d⟩ | ⟨a, ws, b, d⟩
    · left
      refine ⟨a, b, ?_⟩
      rw [d]
      rfl
    · right
      refine ⟨a, ?_⟩
      obtain ⟨r, hr⟩ := rt_some c ws d
      refine ⟨r, ?_⟩
      rw [b]
      simp only [Outcome.bind, hr, routerErr]

/-- Two configurations that differ in the path of the blueprint. -/
theorem setup_same {c' : RtConfig.Config} {file file' : Option (File F)} {y z : ResConfig F}
    (h : load cx env (readsJson c.blueprintPath.toList) file = .ok y)
    (h' : load cx env (readsJson c'.blueprintPath.toList) file' = .ok z)
    {cfg : Transform.ApiConfig}
    (hc : Transform.collectApiConfig showF (view y) (Spec.wanted c) = .ok cfg)
    (hc' : Transform.collectApiConfig showF (view z) (Spec.wanted c) = .ok cfg)
    (hwant : Spec.wanted c' = Spec.wanted c) (hmode : c'.callMode = c.callMode)
    (hhealth : RtConfig.healthRouter c' = RtConfig.healthRouter c) :
    (∃ r, setup cx showF env c file = .ok ⟨Wire.appConfig (some cfg), cfg.tracingEnabled,
        ⟨c, some r, [], decide (c.callMode = .http)⟩⟩ ∧
      setup cx showF env c' file' = .ok ⟨Wire.appConfig (some cfg), cfg.tracingEnabled,
        ⟨c', some r, [], decide (c'.callMode = .http)⟩⟩) ∨
    (setup cx showF env c file = .err .hybridNeedsBasePath ∧
      setup cx showF env c' file' = .err .hybridNeedsBasePath) := by
  have key : ∀ (c : RtConfig.Config) file y,
      load cx env (readsJson c.blueprintPath.toList) file = .ok y →
      Transform.collectApiConfig showF (view y) (Spec.wanted c) = .ok cfg →
      setup cx showF env c file = (wsConfig cfg).bind fun ws =>
          (routerErr (RtConfig.setup c (some ws))).bind fun a =>
            .ok ⟨Wire.appConfig (some cfg), cfg.tracingEnabled, a⟩ := by
    intro c file y h hc
    have hc : Transform.collectApiConfig showF (view y) (c.apiResource.map String.toList) =
      .ok cfg := hc
    unfold setup
    rw [h]
    show (match Transform.collectApiConfig showF (view y) (c.apiResource.map String.toList) with
      | .ok cfg => _ | .error .apiMissing => _ | .error e => _) = _
    rw [hc]
    rfl
  rw [key c file y h hc, key c' file' z h' (hwant ▸ hc')]
  rcases wsConfig_ok cfg with ⟨_, _, d⟩ | ⟨_, ws, b, d⟩
  · right
    rw [d]
    exact ⟨rfl, rfl⟩
  · left
    obtain ⟨r, hr⟩ := rt_some c ws d
    refine ⟨r, ?_, ?_⟩
    · rw [b]
      simp only [Outcome.bind, hr, routerErr]
    · have hr' : RtConfig.setup c' (some ws) =
          .ok ⟨c', some r, [], decide (c'.callMode = .http)⟩ := by
        have e : RtConfig.setupHttp c' ws = RtConfig.setupHttp c ws := by
          unfold RtConfig.setupHttp
          rw [hhealth]
        unfold RtConfig.setup at hr ⊢
        dsimp only at hr ⊢
        rw [e]
        cases hq : RtConfig.setupHttp c ws with
        | ok p =>
          rw [hq] at hr
          obtain ⟨p1, p2⟩ := p
          have hr : Outcome.ok (⟨c, some p1, p2, decide (c.callMode = .http)⟩ : RtConfig.App) =
            .ok ⟨c, some r, [], decide (c.callMode = .http)⟩ := hr
          injection hr with hr
          injection hr with _ h1 h2 _
          injection h1 with h1
          subst h1 h2
          rfl
        | err e => rw [hq] at hr; cases hr
        | panic => rw [hq] at hr; cases hr
      rw [b]
      simp only [Outcome.bind, hr', routerErr]

/-- The handlers of an application made from a configuration. -/
theorem handlers_of (cfg : Transform.ApiConfig) (t : Bool) (a : RtConfig.App) :
    Spec.httpHandlers ⟨Wire.appConfig (some cfg), t, a⟩ = (cfg.http.getD []).map (fun h =>
      ⟨[], h.path, h.method, h.location, h.handler, h.timeout, h.tracingEnabled⟩) ∧
    Spec.wsHandlers ⟨Wire.appConfig (some cfg), t, a⟩ =
      ((cfg.websocket.map (·.1)).getD []).map (fun h =>
        ⟨[], h.routeKey, h.route, h.location, h.handler, h.timeout, h.tracingEnabled⟩) := by
  constructor
  · simp only [Spec.httpHandlers, Wire.appConfig, Option.map_some, Option.bind_some]
    cases cfg.http <;> rfl
  · simp only [Spec.wsHandlers, Wire.appConfig, Option.map_some, Option.bind_some]
    cases cfg.websocket <;> rfl

end Verif.Startup
