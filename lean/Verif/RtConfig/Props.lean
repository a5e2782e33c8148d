import Verif.RtConfig.Lemmas

/-!
# Properties of the runtime's configuration and start (C47, C61, C62, C63)
-/

namespace Verif.RtConfig

open Spec Verif.Text

/-! ## C47: configuration from the environment -/

/-- What `from_env` accepts and produces, exactly. -/
theorem fromEnv_iff (env : Env) (c : Config) : fromEnv env = .ok c ↔ Configured env c := by
  have hlp : ∀ n, parseSigned 32 ((env "CELERITY_LOCAL_API_PORT").getD defaultLocalApiPort).toList
      = some n ↔ (match env "CELERITY_LOCAL_API_PORT" with
        | some s => Int32Text s n
        | none => n = 8592) := by
    intro n
    cases h : env "CELERITY_LOCAL_API_PORT" with
    | some s => exact port_iff s n
    | none =>
      have : parseSigned 32 (Option.getD none defaultLocalApiPort).toList = some 8592 := by decide
      rw [this]
      simp [eq_comm]
  have hlv : ∀ l, parseLevel ((env "CELERITY_MAX_DIAGNOSTICS_LEVEL").getD "info") = some l ↔
      (match env "CELERITY_MAX_DIAGNOSTICS_LEVEL" with
        | some s => LevelName s l
        | none => l = .info) := by
    intro l
    cases h : env "CELERITY_MAX_DIAGNOSTICS_LEVEL" with
    | some s => exact parseLevel_iff s l
    | none =>
      have : parseLevel (Option.getD none "info") = some .info := by decide
      rw [this]
      simp [eq_comm]
  have htest : ∀ b : Bool, (∃ o, OptBool (env "CELERITY_TEST_MODE") o ∧ o.getD false = b) ↔
      (match env "CELERITY_TEST_MODE" with
        | some s => BoolName s b
        | none => b = false) := by
    intro b
    cases h : env "CELERITY_TEST_MODE" with
    | some s =>
      constructor
      · rintro ⟨o, h1, h2⟩
        cases o with
        | none => simp [OptBool] at h1
        | some x => simp only [Option.getD_some] at h2; subst h2; exact h1
      · intro h1; exact ⟨some b, h1, rfl⟩
    | none =>
      constructor
      · rintro ⟨o, h1, h2⟩
        cases o with
        | none => simpa using h2.symm
        | some x => simp [OptBool] at h1
      · intro h1; exact ⟨none, trivial, by simp [h1]⟩
  unfold fromEnv
  simp only [bind_ok_iff, expect_iff, optionalBool_iff, port_iff, mode_iff, hlp, hlv,
    Outcome.pure_eq, Outcome.ok.injEq]
  constructor
  · rintro ⟨bp, hbp, ms, hms, m, hm, sv, hsv, ps, hps, pt, hpt, lb, hlb, lp, hlp', hc, hhc, lv,
      hlv', pf, hpf, ts, hts, rfl⟩
    exact ⟨hbp, ⟨ms, hms, hm⟩, hsv, ⟨ps, hps, hpt⟩, hlb, hlp', hhc, rfl, hlv',
      ⟨pf, hpf, (platform_iff pf _).mp rfl⟩, (htest _).mp ⟨ts, hts, rfl⟩, rfl, rfl, rfl⟩
  · rintro ⟨hbp, ⟨ms, hms, hm⟩, hsv, ⟨ps, hps, hpt⟩, hlb, hlp', hhc, hep, hlv', ⟨pf, hpf, hpn⟩, ht,
      ha, hcs, hsc⟩
    obtain ⟨ts, hts, htd⟩ := (htest _).mpr ht
    refine ⟨_, hbp, ms, hms, _, hm, _, hsv, ps, hps, _, hpt, _, hlb, _, hlp', _, hhc, _, hlv', pf, hpf,
      ts, hts, ?_⟩
    have hpl := (platform_iff pf c.platform).mpr hpn
    cases c
    simp only [Config.mk.injEq] at *
    simp [hpl, htd, hep, ha, hcs, hsc]

/-- **C47, full statement.** The runtime starts with a configuration exactly when the documentation
of the settings says so. -/
def FullConfig : Prop := ∀ env c, fromEnv env = .ok c ↔ Documented env c

/-- A complete environment. -/
def exampleEnv (extra : String → Option String) : Env := fun n =>
  match extra n with
  | some v => some v
  | none =>
    if n = "CELERITY_BLUEPRINT" then some "app.yaml"
    else if n = "CELERITY_RUNTIME_CALL_MODE" then some "http"
    else if n = "CELERITY_SERVICE_NAME" then some "svc"
    else if n = "CELERITY_SERVER_PORT" then some "8080"
    else none

/-- The documented configuration for the complete environment. -/
def exampleConfig : Config where
  blueprintPath := "app.yaml"
  callMode := .http
  serviceName := "svc"
  serverPort := 8080
  loopbackOnly := none
  localApiPort := 8592
  customHealthCheck := none
  otlpEndpoint := "http://otelcollector:4317"
  level := .info
  platform := .other
  testMode := false
  apiResource := none
  consumerApp := none
  scheduleApp := none

/-- **C47 is false of the code, first disagreement.** Without `CELERITY_RUNTIME_PLATFORM`, for which
a default is documented, the process panics. -/
theorem platform_required (env : Env) (h : env "CELERITY_RUNTIME_PLATFORM" = none) (c : Config) :
    fromEnv env ≠ .ok c := by
  intro hc
  obtain ⟨s, hs, _⟩ := ((fromEnv_iff env c).mp hc).platform
  rw [h] at hs; simp at hs

theorem bind_no_err {α β : Type} {x : Outcome String α} {f : α → Outcome String β}
    (hx : ∀ e, x ≠ .err e) (hf : ∀ a e, f a ≠ .err e) : ∀ e, (x >>= f) ≠ .err e := by
  cases x with
  | ok a => exact hf a
  | err e => exact absurd rfl (hx e)
  | panic => nofun

theorem expect_no_err {α : Type} (o : Option α) : ∀ e, expect o ≠ .err e := by
  cases o <;> nofun

theorem optionalBool_no_err (o : Option String) : ∀ e, optionalBool o ≠ .err e := by
  intro e
  unfold optionalBool
  split
  · nofun
  · split <;> nofun

theorem callModeOf_no_err (s : String) : ∀ e, callModeOf s ≠ .err e := by
  intro e
  unfold callModeOf
  split <;> nofun

/-- **C47.** An environment that does not give a configuration ends the process. -/
theorem fromEnv_panics (env : Env) (h : ∀ c, ¬ Configured env c) : fromEnv env = .panic := by
  have hn : ∀ e, fromEnv env ≠ .err e := by
    unfold fromEnv
    iterate 11
      refine bind_no_err (by
        first
          | exact expect_no_err _
          | exact optionalBool_no_err _
          | exact callModeOf_no_err _) fun _ => ?_
    refine bind_no_err (by
      first
        | exact expect_no_err _
        | exact optionalBool_no_err _) fun _ => ?_
    nofun
  cases hf : fromEnv env with
  | ok c => exact absurd ((fromEnv_iff env c).1 hf) (h c)
  | err e => exact absurd hf (hn e)
  | panic => rfl

/-- An empty environment. -/
example : ∀ c, ¬ Configured (fun _ => none) c := fun c h => nomatch h.blueprint

/-- **C47 is false of the code, second disagreement.** Without
`CELERITY_TRACE_OTLP_COLLECTOR_ENDPOINT` the endpoint is empty instead of the documented default. -/
theorem endpoint_default_empty (env : Env) (c : Config) (h : fromEnv env = .ok c)
    (he : env "CELERITY_TRACE_OTLP_COLLECTOR_ENDPOINT" = none) : c.otlpEndpoint = "" := by
  have := ((fromEnv_iff env c).mp h).endpoint
  rw [he] at this; exact this

/-- **C47 is false of the code, third disagreement.** A number that is no port is accepted as the
server's port. -/
theorem negative_port_accepted : ∃ env c, fromEnv env = .ok c ∧ ¬ Port c.serverPort := by
  refine ⟨exampleEnv fun n => if n = "CELERITY_SERVER_PORT" then some "-1"
      else if n = "CELERITY_RUNTIME_PLATFORM" then some "aws" else none,
    { exampleConfig with serverPort := -1, platform := .aws, otlpEndpoint := "" }, by decide, ?_⟩
  intro h
  exact absurd h.1 (by decide)

theorem config_violated : ¬ FullConfig := by
  intro h
  have h1 := (h (exampleEnv fun _ => none) exampleConfig).mpr {
    blueprint := rfl
    mode := ⟨"http", rfl, .http⟩
    service := rfl
    port := ⟨"8080", rfl, ⟨⟨[], ['8', '0', '8', '0'], rfl, by simp, by decide,
      .inl ⟨.inl rfl, by decide⟩⟩, by decide, by decide⟩, by decide, by decide⟩
    loopback := trivial
    localPort := rfl
    health := trivial
    endpoint := rfl
    level := rfl
    platform := rfl
    test := rfl
    api := rfl
    consumer := rfl
    schedule := rfl }
  exact platform_required _ rfl _ h1

/-- **C47, partial.** When the platform and the trace endpoint are set and the ports are ports, the
runtime starts exactly as documented. Missing: the two documented defaults and the range of
ports. -/
theorem config_partial (env : Env) (c : Config)
    (hp : env "CELERITY_RUNTIME_PLATFORM" ≠ none)
    (he : env "CELERITY_TRACE_OTLP_COLLECTOR_ENDPOINT" ≠ none)
    (h1 : ∀ s n, env "CELERITY_SERVER_PORT" = some s → Int32Text s n → Port n)
    (h2 : ∀ s n, env "CELERITY_LOCAL_API_PORT" = some s → Int32Text s n → Port n) :
    fromEnv env = .ok c ↔ Documented env c := by
  rw [fromEnv_iff]
  obtain ⟨pf, hpf⟩ := Option.ne_none_iff_exists'.mp hp
  obtain ⟨ep, hep⟩ := Option.ne_none_iff_exists'.mp he
  constructor
  · intro h
    obtain ⟨ps, hps, hpt⟩ := h.port
    refine ⟨h.blueprint, h.mode, h.service, ⟨ps, hps, hpt, h1 ps _ hps hpt⟩, h.loopback, ?_,
      h.health, ?_, h.level, ?_, h.test, h.api, h.consumer, h.schedule⟩
    · have := h.localPort
      cases hl : env "CELERITY_LOCAL_API_PORT" with
      | some s => rw [hl] at this; exact ⟨this, h2 s _ hl this⟩
      | none => rw [hl] at this; exact this
    · have := h.endpoint
      rw [hep] at this ⊢; exact this
    · obtain ⟨s, hs, hn⟩ := h.platform
      rw [hs]; exact hn
  · intro h
    obtain ⟨ps, hps, hpt, _⟩ := h.port
    refine ⟨h.blueprint, h.mode, h.service, ⟨ps, hps, hpt⟩, h.loopback, ?_, h.health, ?_, h.level, ?_,
      h.test, h.api, h.consumer, h.schedule⟩
    · have := h.localPort
      cases hl : env "CELERITY_LOCAL_API_PORT" with
      | some s => rw [hl] at this; exact this.1
      | none => rw [hl] at this; exact this
    · have := h.endpoint
      rw [hep] at this ⊢; exact this
    · have := h.platform
      rw [hpf] at this
      exact ⟨pf, hpf, this⟩

/-- The hypotheses of `config_partial` are met and the runtime starts. -/
example : fromEnv (exampleEnv fun n =>
      if n = "CELERITY_RUNTIME_PLATFORM" then some "elsewhere"
      else if n = "CELERITY_TRACE_OTLP_COLLECTOR_ENDPOINT" then some "http://otelcollector:4317"
      else none) = .ok exampleConfig := by decide

/-! ## C61: who can connect -/

/-- **C61.** For every environment and blueprint the application listens beyond the loopback
interface only with the server, at the configured server port, and only if
`CELERITY_SERVER_LOOPBACK_ONLY` is `false`; the local API listens on loopback and only in the call
mode `http`. -/
theorem exposure (env : Env) (c : Config) (api : Option (Option WsConfig)) (a : App)
    (hc : fromEnv env = .ok c) (ha : setup c api = .ok a) (l : Listener) (hl : l ∈ listeners a) :
    (l.host = "127.0.0.1" ∨
      (l.host = "0.0.0.0" ∧ env "CELERITY_SERVER_LOOPBACK_ONLY" = some "false" ∧
        l.port = c.serverPort ∧ api ≠ none)) ∧
    (l.port ≠ c.serverPort → l.host = "127.0.0.1" ∧ env "CELERITY_RUNTIME_CALL_MODE" = some "http") := by
  have hcfg := (fromEnv_iff env c).mp hc
  have hsetup : a.config = c ∧ a.localApi = decide (c.callMode = .http) ∧
      (a.http ≠ none → api ≠ none) := by
    unfold setup at ha
    cases api with
    | none => simp at ha; subst ha; simp
    | some ws =>
      simp only [bind_ok_iff] at ha
      obtain ⟨⟨r, routes⟩, _, h2⟩ := ha
      simp at h2; subst h2; simp
  obtain ⟨h1, h2, h3⟩ := hsetup
  unfold listeners at hl
  rw [List.mem_append] at hl
  rcases hl with hl | hl
  · split at hl
    · rename_i r hr
      simp only [List.mem_singleton] at hl
      subst hl
      rw [h1]
      refine ⟨?_, fun h => absurd rfl h⟩
      cases hlb : c.loopbackOnly with
      | none => left; rfl
      | some b =>
        cases b with
        | true => left; rfl
        | false =>
          right
          have := hcfg.loopback
          rw [hlb] at this
          refine ⟨rfl, ?_, rfl, h3 (by rw [hr]; simp)⟩
          cases hv : env "CELERITY_SERVER_LOOPBACK_ONLY" with
          | none => rw [hv] at this; simp [OptBool] at this
          | some s =>
            rw [hv] at this
            have hb : BoolName s false := this
            cases hb; rfl
    · simp at hl
  · split at hl
    · rename_i hloc
      simp only [List.mem_singleton] at hl
      subst hl
      refine ⟨.inl rfl, fun _ => ⟨rfl, ?_⟩⟩
      rw [h2] at hloc
      have hm : c.callMode = .http := by simpa using hloc
      obtain ⟨s, hs, hn⟩ := hcfg.mode
      rw [hm] at hn
      cases hn
      exact hs
    · simp at hl

/-- The hypotheses of `exposure` are met by an application that is exposed on purpose. -/
example : ∃ c a, fromEnv (exampleEnv fun n =>
      if n = "CELERITY_RUNTIME_PLATFORM" then some "aws"
      else if n = "CELERITY_SERVER_LOOPBACK_ONLY" then some "false" else none) = .ok c ∧
    setup c (some none) = .ok a ∧ listeners a = [⟨"0.0.0.0", 8080⟩, ⟨"127.0.0.1", 8592⟩] :=
  ⟨{ exampleConfig with platform := .aws, otlpEndpoint := "", loopbackOnly := some false },
    ⟨{ exampleConfig with platform := .aws, otlpEndpoint := "", loopbackOnly := some false },
      some [(("/runtime/health/check", .get), .health)], [], true⟩, by decide, by decide, by decide⟩

/-! ## C62: registered HTTP handlers are served -/

/-- The methods of HTTP (RFC 9110 and RFC 5789). -/
def httpMethods : List String :=
  ["GET", "HEAD", "POST", "PUT", "DELETE", "CONNECT", "OPTIONS", "TRACE", "PATCH"]

/-- Registering a list of handlers one after the other. -/
def registerAll (a : App) : List (String × String × String) → Outcome String App
  | [] => .ok a
  | (path, method, h) :: rest => (register a path method h).bind fun a' => registerAll a' rest

/-- A request with a method name reaches a handler. -/
def Serves (a : App) (path method h : String) : Prop :=
  ∃ r m, a.http = some r ∧ NamesMethod method m ∧ dispatch r path m = some (.handler h)

/-- **C62, full statement.** After registering handlers for distinct pairs of a path and an HTTP
method at an application with an API, each request with such a pair reaches its handler. -/
def FullRegistered : Prop :=
  ∀ (c : Config) (a : App) (hs : List (String × String × String)),
    setup c (some none) = .ok a → (∀ x ∈ hs, x.2.1 ∈ httpMethods) →
    (hs.map fun x => (x.1, x.2.1)).Nodup →
    ∃ a', registerAll a hs = .ok a' ∧ ∀ x ∈ hs, Serves a' x.1 x.2.1 x.2.2

/-- **C62 is false of the code.** A handler for `CONNECT` is dropped without notice. -/
theorem registered_violated : ¬ FullRegistered := by
  intro h
  obtain ⟨a', h1, h2⟩ := h exampleConfig
    ⟨exampleConfig, some [(("/runtime/health/check", .get), .health)], [], true⟩
    [("/t", "CONNECT", "h")] (by decide) (by decide) (by decide)
  obtain ⟨r, m, _, hm, _⟩ := h2 ("/t", "CONNECT", "h") (by simp)
  have hc : methodOf "CONNECT" = none := by decide
  rw [(methodOf_iff _ _).mpr hm] at hc
  simp at hc

/-- **C62 is false of the code also for the health check path.** Registering a handler for it
panics unless the custom health check is switched on. -/
theorem health_path_panics (c : Config) (ws : Option WsConfig) (a : App) (h : String)
    (hc : c.customHealthCheck ≠ some true) (ha : setup c (some ws) = .ok a) :
    register a "/runtime/health/check" "GET" h = .panic := by
  have hget : c.customHealthCheck.getD false = false := by
    cases hcc : c.customHealthCheck with
    | none => rfl
    | some b => cases b with
      | true => exact absurd hcc hc
      | false => rfl
  have hm : methodOf "GET" = some .get := by decide
  unfold setup at ha
  simp only [bind_ok_iff] at ha
  obtain ⟨⟨r, routes⟩, h1, h2⟩ := ha
  simp only [Outcome.pure_eq, Outcome.ok.injEq] at h2
  subst h2
  have hr : r.lookup ("/runtime/health/check", .get) ≠ none := by
    unfold setupHttp at h1
    simp only [healthRouter, hget, Bool.false_eq_true, if_false, bind_ok_iff] at h1
    obtain ⟨r0, hr0, h1⟩ := h1
    simp only [addRoute, List.lookup_nil, Outcome.ok.injEq] at hr0
    subst hr0
    cases ws with
    | none =>
      simp only [Outcome.pure_eq, Outcome.ok.injEq, Prod.mk.injEq] at h1
      rw [← h1.1]; decide
    | some w =>
      simp only [bind_ok_iff] at h1
      obtain ⟨r1, hr1, h1⟩ := h1
      simp only [Outcome.pure_eq, Outcome.ok.injEq, Prod.mk.injEq] at h1
      rw [← h1.1]
      simp only [addRoute] at hr1
      split at hr1
      · simp at hr1
      · rename_i hno
        simp only [Outcome.ok.injEq] at hr1
        subst hr1
        rw [List.lookup_cons]
        split
        · simp
        · decide
  simp only [register, hm, addRoute]
  cases hl : r.lookup ("/runtime/health/check", .get) with
  | none => exact absurd hl hr
  | some t => rfl

/-- **C62, partial.** Handlers registered for distinct pairs of a path and one of the eight known
methods (in any case), none of which is taken already, are all registered and all served. Missing:
`CONNECT`, and pairs that are taken, such as the health check. -/
theorem registered_partial (a : App) (r : Router) (hs : List (String × String × String))
    (ha : a.http = some r)
    (hm : ∀ x ∈ hs, ∃ m, NamesMethod x.2.1 m)
    (hfree : ∀ x ∈ hs, ∀ m, NamesMethod x.2.1 m → r.lookup (x.1, m) = none)
    (hnd : (hs.map fun x => (x.1, x.2.1.toList.map Char.toLower)).Nodup) :
    ∃ a', registerAll a hs = .ok a' ∧ ∀ x ∈ hs, Serves a' x.1 x.2.1 x.2.2 := by
  suffices key : ∀ (hs : List (String × String × String)) (a : App) (r : Router), a.http = some r →
      (∀ x ∈ hs, methodOf x.2.1 ≠ none) →
      (∀ x ∈ hs, ∀ m, methodOf x.2.1 = some m → r.lookup (x.1, m) = none) →
      (hs.map fun x => (x.1, methodOf x.2.1)).Nodup →
      ∃ a' r', registerAll a hs = .ok a' ∧ a'.http = some r' ∧
        (∀ k, (∀ x ∈ hs, some k ≠ (methodOf x.2.1).map fun m => (x.1, m)) →
          r'.lookup k = r.lookup k) ∧
        ∀ x ∈ hs, ∀ m, methodOf x.2.1 = some m → r'.lookup (x.1, m) = some (.handler x.2.2) by
    have hm' : ∀ x ∈ hs, methodOf x.2.1 ≠ none := by
      intro x hx hn
      obtain ⟨m, hxm⟩ := hm x hx
      rw [(methodOf_iff _ _).mpr hxm] at hn
      simp at hn
    have hnd' : (hs.map fun x => (x.1, methodOf x.2.1)).Nodup := by
      unfold List.Nodup at hnd ⊢
      rw [List.pairwise_map] at hnd ⊢
      refine hnd.imp_of_mem ?_
      intro x y hx hy hne heq
      injection heq with h1 h2
      obtain ⟨m, hxm⟩ := hm x hx
      rw [(methodOf_iff _ _).mpr hxm] at h2
      have hym := (methodOf_iff _ _).mp h2.symm
      unfold NamesMethod at hxm hym
      exact hne (by rw [h1, hxm, hym])
    obtain ⟨a', r', h1, h2, _, h4⟩ := key hs a r ha hm'
      (fun x hx m hxm => hfree x hx m ((methodOf_iff _ _).mp hxm)) hnd'
    refine ⟨a', h1, fun x hx => ?_⟩
    obtain ⟨m, hxm⟩ := hm x hx
    exact ⟨r', m, h2, hxm, by simp [dispatch, h4 x hx m ((methodOf_iff _ _).mpr hxm)]⟩
  intro hs
  induction hs with
  | nil => intro a r ha _ _ _; exact ⟨a, r, rfl, ha, by simp, by simp⟩
  | cons x hs ih =>
    intro a r ha hm hfree hnd
    obtain ⟨path, method, h⟩ := x
    cases hmx : methodOf method with
    | none => exact absurd hmx (hm (path, method, h) (by simp))
    | some m =>
      have hnone := hfree (path, method, h) (by simp) m hmx
      dsimp only at hnone
      have hstep : register a path method h =
          .ok { a with http := some (((path, m), .handler h) :: r) } := by
        simp [register, ha, hmx, addRoute, hnone, Outcome.bind]
      simp only [List.map_cons, List.nodup_cons, hmx] at hnd
      have hne : ∀ y ∈ hs, ∀ m', methodOf y.2.1 = some m' → (y.1, m') ≠ (path, m) := by
        intro y hy m' hm' heq
        injection heq with h1 h2
        apply hnd.1
        rw [List.mem_map]
        exact ⟨y, hy, by rw [h1, hm', h2]⟩
      obtain ⟨a', r', h1, h2, h3, h4⟩ := ih { a with http := some (((path, m), .handler h) :: r) }
        (((path, m), .handler h) :: r) rfl (fun y hy => hm y (by simp [hy]))
        (by
          intro y hy m' hm'
          rw [List.lookup_cons]
          have hb : ((y.1, m') == (path, m)) = false := by simpa using hne y hy m' hm'
          rw [hb]
          exact hfree y (by simp [hy]) m' hm') hnd.2
      refine ⟨a', r', ?_, h2, ?_, ?_⟩
      · simp only [registerAll, hstep, Outcome.bind]; exact h1
      · intro k hk
        rw [h3 k (fun y hy => hk y (by simp [hy])), List.lookup_cons]
        have hb : (k == (path, m)) = false := by
          have := hk (path, method, h) (by simp)
          simp only [hmx, Option.map_some] at this
          simpa using this
        rw [hb]
      · intro y hy m' hm'
        rcases List.mem_cons.mp hy with rfl | hy
        · dsimp only at hm' ⊢
          rw [hmx] at hm'
          injection hm' with hm'
          subst hm'
          rw [h3 (path, m)]
          · simp
          · intro y hy' heq
            cases hmy : methodOf y.2.1 with
            | none => rw [hmy] at heq; simp at heq
            | some m'' =>
              rw [hmy] at heq
              simp only [Option.map_some, Option.some.injEq] at heq
              exact hne y hy' m'' hmy heq.symm
        · exact h4 y hy m' hm'

/-- The hypotheses of `registered_partial` are met. -/
example : ∃ a', registerAll ⟨exampleConfig, some [(("/runtime/health/check", .get), .health)], [], true⟩
    [("/orders", "GET", "list"), ("/orders", "post", "create")] = .ok a' ∧
    Serves a' "/orders" "POST" "create" :=
  ⟨⟨exampleConfig, some [(("/orders", .post), .handler "create"), (("/orders", .get), .handler "list"),
    (("/runtime/health/check", .get), .health)], [], true⟩, by decide,
    _, .post, rfl, (methodOf_iff _ _).mp (by decide), by decide⟩

/-! ## C63: configured WebSocket handlers are reached -/

/-- **C63, full statement.** A message for a route that a WebSocket handler of the blueprint serves
reaches that handler. -/
def FullWebSocket : Prop :=
  ∀ (c : Config) (w : WsConfig) (a : App), setup c (some (some w)) = .ok a →
    ∀ route, wsHandler a route = w.handlers.lookup route

/-- Whatever is configured, no route leads to a handler. -/
theorem websocket_unreachable (c : Config) (api : Option (Option WsConfig)) (a : App)
    (h : setup c api = .ok a) (hs : List (String × String × String)) (a' : App)
    (h' : registerAll a hs = .ok a') (route : String) : wsHandler a' route = none := by
  have h0 : a.wsRoutes = [] := by
    unfold setup at h
    cases api with
    | none => simp at h; subst h; rfl
    | some ws =>
      simp only [bind_ok_iff] at h
      obtain ⟨⟨r, routes⟩, h1, h2⟩ := h
      simp at h2; subst h2
      unfold setupHttp at h1
      simp only [bind_ok_iff] at h1
      obtain ⟨r0, _, h1⟩ := h1
      cases ws with
      | none => simp at h1; exact h1.2
      | some w =>
        simp only [bind_ok_iff] at h1
        obtain ⟨r1, _, h1⟩ := h1
        simp at h1; exact h1.2
  have h1 : ∀ (hs : List (String × String × String)) (a a' : App), registerAll a hs = .ok a' →
      a'.wsRoutes = a.wsRoutes := by
    intro hs
    induction hs with
    | nil => intro a a' h; simp [registerAll] at h; rw [h]
    | cons x hs ih =>
      intro a a' h
      obtain ⟨path, method, hh⟩ := x
      simp only [registerAll] at h
      cases hr : register a path method hh with
      | ok a1 =>
        rw [hr] at h
        rw [ih a1 a' h]
        unfold register at hr
        split at hr
        · injection hr with hr; rw [hr]
        · split at hr
          · injection hr with hr; rw [hr]
          · simp only [addRoute] at hr
            split at hr
            · simp [Outcome.bind] at hr
            · simp only [Outcome.bind, Outcome.ok.injEq] at hr; rw [← hr]
      | err e => rw [hr] at h; simp [Outcome.bind] at h
      | panic => rw [hr] at h; simp [Outcome.bind] at h
  unfold wsHandler
  rw [h1 hs a a' h', h0]
  rfl

/-- **C63 is false of the code.** -/
theorem websocket_violated : ¬ FullWebSocket := by
  intro h
  have h1 := h exampleConfig ⟨"/ws", [("chat", "h")]⟩
    ⟨exampleConfig, some [(("/ws", .get), .websocket), (("/runtime/health/check", .get), .health)],
      [], true⟩ (by decide) "chat"
  revert h1
  decide

/-- **C63, partial.** It holds for APIs without WebSocket handlers. Missing: every other API. -/
theorem websocket_partial (c : Config) (w : WsConfig) (a : App)
    (h : setup c (some (some w)) = .ok a) (route : String) (hw : w.handlers.lookup route = none) :
    wsHandler a route = w.handlers.lookup route := by
  rw [hw]
  exact websocket_unreachable c _ a h [] a rfl route

example : ∃ a, setup exampleConfig (some (some ⟨"/ws", [("chat", "h")]⟩)) = .ok a :=
  ⟨⟨exampleConfig, some [(("/ws", .get), .websocket), (("/runtime/health/check", .get), .health)],
    [], true⟩, by decide⟩

end Verif.RtConfig
