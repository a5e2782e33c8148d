import Verif.Startup.AccessProps

/-!
# Property theorems about the base paths of WebSocket APIs (C182)
-/

namespace Verif.Startup

open Verif Verif.Subst Verif.Blueprint

variable {F : Type}

/-- The API declares a base path for WebSocket connections: one of that protocol or of all of them. -/
def Spec.BasePath (api : ResResource F) (p : Str) : Prop :=
  ∃ s d, api.spec = some (.api s) ∧ s.domain = some d ∧
    (.str p ∈ d.basePaths ∨ .config ⟨.websocket, p⟩ ∈ d.basePaths)

/-- The API is the only one that the application can be about. -/
def Spec.OnlyApi (y : ResConfig F) (c : RtConfig.Config) (api : ResResource F) : Prop :=
  Spec.IsApi y (Spec.wanted c) api ∧ ∀ r, Spec.IsApi y (Spec.wanted c) r → r = api

/-- C182 as stated, the endpoint: clients connect at a base path that the API declares. -/
def FullBasePath : Prop :=
  ∀ (showF : Unit → Str) (c : RtConfig.Config) (y : ResConfig Unit) (api : ResResource Unit)
    (a : Application) (r : RtConfig.Router),
    Spec.OnlyApi y c api → (∃ p, Spec.BasePath api p) → setupFrom showF c y = .ok a →
    a.app.http = some r → Spec.wsHandlers a ≠ [] →
    ∃ p, Spec.BasePath api p ∧ r.lookup (String.ofList p, .get) = some .websocket

/-- C182 as stated, hybrid APIs: an API that declares a base path for WebSocket connections does not
fail for want of one. -/
def FullHybridPath : Prop :=
  ∀ (showF : Unit → Str) (c : RtConfig.Config) (y : ResConfig Unit) (api : ResResource Unit),
    Spec.OnlyApi y c api → (∃ p, Spec.BasePath api p) →
    setupFrom showF c y ≠ .err .hybridNeedsBasePath

/-- The handlers of a WebSocket API that was found. -/
theorem collected_ws {showF : F → Str} {b : Transform.Blueprint F} {w : Option Str}
    {cfg : Transform.ApiConfig} (h : Transform.collectApiConfig showF b w = .ok cfg) :
    ∀ x, cfg.websocket = some x → x.1 ≠ [] := by
  unfold Transform.collectApiConfig at h
  split at h
  · cases h
  dsimp only at h
  split at h
  · cases h
  split at h
  · cases h
  cases h
  intro x hx
  dsimp only at hx
  split at hx
  · cases hx
  · next hn =>
    cases hx
    intro e
    exact hn (List.isEmpty_iff.2 e)

/-- The router of an application that was set up. -/
theorem set_router (c : RtConfig.Config) (ws : Option RtConfig.WsConfig)
    (h : ∀ w, ws = some w → w.basePath = "/") :
    ∃ r, RtConfig.setup c (some ws) = .ok ⟨c, some r, [], decide (c.callMode = .http)⟩ ∧
      ∀ p m, r.lookup (p, m) = some .websocket ↔ p = "/" ∧ m = .get ∧ ws.isSome = true := by
  obtain ⟨r, h1, h2, h3⟩ : ∃ r, RtConfig.healthRouter c = .ok r ∧ r.lookup ("/", .get) = none ∧
      ∀ p m, r.lookup (p, m) ≠ some .websocket := by
    unfold RtConfig.healthRouter
    split
    · exact ⟨[], rfl, rfl, nofun⟩
    · refine ⟨_, rfl, by decide, fun p m => ?_⟩
      rw [List.lookup_cons]
      split <;> simp
  cases ws with
  | none =>
    refine ⟨r, ?_, fun p m => ⟨fun e => absurd e (h3 p m), fun e => by simp at e⟩⟩
    simp only [RtConfig.setup, RtConfig.setupHttp, h1, Bind.bind, Outcome.bind, pure]
  | some w =>
    refine ⟨(("/", .get), .websocket) :: r, ?_, fun p m => ?_⟩
    · have hw := h w rfl
      simp only [RtConfig.setup, RtConfig.setupHttp, h1, Bind.bind, Outcome.bind, pure, hw,
        addRoute_new r "/" .get .websocket h2]
    · rw [List.lookup_cons]
      by_cases e : (p, m) = ("/", RtConfig.Method.get)
      · rw [beq_iff_eq.2 e]
        cases e
        simp
      · rw [beq_false_of_ne e]
        refine ⟨fun x => absurd x (h3 p m), fun x => absurd ?_ e⟩
        rw [x.1, x.2.1]

/-- Clients connect at `/` and nowhere else, whatever the API declares; there they can whenever it
has handlers for their messages. So C182 holds of APIs that declare `/`. -/
theorem base_path_partial {showF : F → Str} {c : RtConfig.Config} {y : ResConfig F} {a : Application}
    (h : setupFrom showF c y = .ok a) {r : RtConfig.Router} (hr : a.app.http = some r) (p : String)
    (m : RtConfig.Method) :
    r.lookup (p, m) = some .websocket ↔ p = "/" ∧ m = .get ∧ Spec.wsHandlers a ≠ [] := by
  unfold setupFrom at h
  split at h
  next cfg hcfg =>
    rcases wsConfig_ok cfg with ⟨_, _, e⟩ | ⟨_, ws, e, hp⟩
    · rw [e] at h
      cases h
    · obtain ⟨r', h1, h2⟩ := set_router c ws hp
      rw [e] at h
      simp only [Bind.bind, Outcome.bind, pure, h1, routerErr] at h
      cases h
      cases hr
      rw [h2]
      have hw := collected_ws hcfg
      have key : ws.isSome = true ↔ Spec.wsHandlers
          ⟨Wire.appConfig (some cfg), cfg.tracingEnabled,
            ⟨c, some r, [], decide (c.callMode = .http)⟩⟩ ≠ [] := by
        unfold wsConfig at e
        unfold Spec.wsHandlers Wire.appConfig
        cases hx : cfg.websocket with
        | none =>
          rw [hx] at e
          cases e
          simp [hx]
        | some x =>
          rw [hx] at e
          have := hw x hx
          dsimp only at e
          split at e
          · cases e
          · cases e
            simp [hx, this]
      rw [key]
  next =>
    rw [rt_none] at h
    cases h
    cases hr
  next => cases h

/-- What an API says about its domain changes nothing. -/
theorem domain_ignored (showF : F → Str) (c : RtConfig.Config) {y z : ResConfig F}
    (hr : Spec.AllAlike y.resources z.resources) (hm : y.metadata = z.metadata) :
    setupFrom showF c y = setupFrom showF c z := by
  unfold setupFrom
  rw [view_alike hr hm]

namespace Example

/-- An API for connections, and perhaps for requests, with a base path of connections. -/
def chatApi (protocols : List Protocol) (p : String) : ResResource Unit :=
  { type := .api, metadata := { displayName := "Api".toList },
    linkSelector := some [app "shop"],
    spec := some (.api {
      protocols
      domain := some {
        domainName := "api.example.com".toList
        basePaths := [.config ⟨.websocket, p.toList⟩]
        certificateId := "cert".toList } }) }

def chatMeaning : Str × Scalar Unit := ("celerity.handler.websocket".toList, .bool true)

/-- The handler of the messages. -/
def chat (p : String) : ResConfig Unit :=
  { version := "2025-05-12".toList, transform := some ["celerity-2025-05-12".toList],
    resources := [("api".toList, chatApi [.websocket] p),
      ("h".toList, handlerMeaning [app "shop"] [chatMeaning])] }

/-- A handler of messages and one of requests. -/
def hybrid (p : String) : ResConfig Unit :=
  { version := "2025-05-12".toList, transform := some ["celerity-2025-05-12".toList],
    resources := [("api".toList, chatApi [.http, .websocket] p),
      ("h".toList, handlerMeaning [app "shop"] [chatMeaning]),
      ("g".toList, handlerMeaning [app "shop"] [httpMeaning])] }

theorem chatApi_path (l : List Protocol) (p : String) :
    Spec.BasePath (chatApi l p) p.toList :=
  ⟨_, _, rfl, rfl, .inr (List.mem_cons_self ..)⟩

theorem chatApi_paths {l : List Protocol} {p : String} {q : Str}
    (h : Spec.BasePath (chatApi l p) q) : q = p.toList := by
  obtain ⟨s, d, h1, h2, h3⟩ := h
  cases h1
  cases h2
  simpa using h3

theorem chat_only (p : String) : Spec.OnlyApi (chat p) config (chatApi [.websocket] p) := by
  refine ⟨⟨"api".toList, List.mem_cons_self .., rfl, nofun⟩, ?_⟩
  rintro r ⟨k, h1, h2, _⟩
  rcases List.mem_cons.1 h1 with h | h
  · exact (Prod.mk.inj h).2
  · rw [(Prod.mk.inj (List.mem_singleton.1 h)).2] at h2
    exact absurd h2 (by decide)

theorem hybrid_only (p : String) :
    Spec.OnlyApi (hybrid p) config (chatApi [.http, .websocket] p) := by
  refine ⟨⟨"api".toList, List.mem_cons_self .., rfl, nofun⟩, ?_⟩
  rintro r ⟨k, h1, h2, _⟩
  rcases List.mem_cons.1 h1 with h | h
  · exact (Prod.mk.inj h).2
  · rcases List.mem_cons.1 h with h | h
    · rw [(Prod.mk.inj h).2] at h2
      exact absurd h2 (by decide)
    · rw [(Prod.mk.inj (List.mem_singleton.1 h)).2] at h2
      exact absurd h2 (by decide)

/-- The application of `chat` starts, with an endpoint and a handler. -/
theorem chat_starts : ∃ a r, setupFrom show0 config (chat "/ws") = .ok a ∧ a.app.http = some r ∧
    Spec.wsHandlers a ≠ [] := by
  have h : (match setupFrom show0 config (chat "/ws") with
    | .ok a => a.app.http.isSome && !(Spec.wsHandlers a).isEmpty
    | _ => false) = true := by decide +kernel
  cases hs : setupFrom show0 config (chat "/ws") with
  | ok a =>
    rw [hs] at h
    dsimp only at h
    rw [Bool.and_eq_true, Option.isSome_iff_exists] at h
    obtain ⟨⟨r, hr⟩, hw⟩ := h
    exact ⟨a, r, rfl, hr, fun e => by rw [e] at hw; cases hw⟩
  | err e => rw [hs] at h; cases h
  | panic => rw [hs] at h; cases h

theorem hybrid_fails : setupFrom show0 config (hybrid "/ws") = .err .hybridNeedsBasePath := by
  decide +kernel

end Example

theorem base_path_violated : ¬ FullBasePath := by
  intro h
  obtain ⟨a, r, h1, h2, h3⟩ := Example.chat_starts
  obtain ⟨p, h4, h5⟩ := h _ _ _ _ a r (Example.chat_only "/ws") ⟨_, Example.chatApi_path _ _⟩ h1 h2 h3
  rw [Example.chatApi_paths h4] at h5
  exact absurd ((base_path_partial h1 h2 _ _).1 h5).1 (by decide)

theorem hybrid_path_violated : ¬ FullHybridPath := fun h =>
  h _ _ _ _ (Example.hybrid_only "/ws") ⟨_, Example.chatApi_path _ _⟩ Example.hybrid_fails

/-- The hypotheses of `base_path_partial`, and what it says of the application. -/
example : ∃ a r, setupFrom Example.show0 Example.config (Example.chat "/ws") = .ok a ∧
    a.app.http = some r ∧ r.lookup ("/", .get) = some .websocket ∧
    r.lookup ("/ws", .get) ≠ some .websocket := by
  obtain ⟨a, r, h1, h2, h3⟩ := Example.chat_starts
  refine ⟨a, r, h1, h2, (base_path_partial h1 h2 _ _).2 ⟨rfl, rfl, h3⟩, fun h => ?_⟩
  exact absurd ((base_path_partial h1 h2 _ _).1 h).1 (by decide)

/-- The hypotheses of `domain_ignored`: two base paths. -/
example : Spec.AllAlike (Example.hybrid "/ws").resources (Example.hybrid "/chat").resources :=
  .cons ⟨rfl, rfl, rfl, .inr ⟨_, _, rfl, rfl, rfl, rfl⟩⟩
    (.cons ⟨rfl, rfl, rfl, .inl rfl⟩ (.cons ⟨rfl, rfl, rfl, .inl rfl⟩ .nil))

end Verif.Startup
