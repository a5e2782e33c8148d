import Verif.Startup.AccessSpec
import Verif.Startup.SetupLemmas
import Verif.RtConfig.Props
import Verif.Startup.Examples

/-!
# Property theorems about guards and CORS settings (C137, C138)
-/

namespace Verif.Startup

open Verif Verif.Subst Verif.Blueprint

variable {F : Type}

/-- Setting up is loading and the rest. -/
theorem setup_eq (cx : Ctx F) (showF : F → Str) (env : Env) (c : RtConfig.Config)
    (file : Option (File F)) : setup cx showF env c file =
      (load cx env (readsJson c.blueprintPath.toList) file).bind (setupFrom showF c) := rfl

theorem view_alike {y z : ResConfig F} (hr : Spec.AllAlike y.resources z.resources)
    (hm : y.metadata = z.metadata) : view y = view z := by
  have h : (y.resources.map fun e => (e.1, resourceView e.2)) =
      z.resources.map fun e => (e.1, resourceView e.2) := by
    generalize y.resources = l at hr
    generalize z.resources = l' at hr
    induction hr with
    | nil => rfl
    | cons ha _ ih =>
      rw [List.map_cons, List.map_cons, ih]
      congr 2
      obtain ⟨h1, h2, h3, h4⟩ := ha
      unfold resourceView
      rw [h1, h2, h3]
      congr 1
      rcases h4 with h4 | ⟨s, s', e, e', p, t⟩
      · rw [h4]
      · rw [e, e', specView, specView, p, t]
  unfold view
  rw [h, hm]

/-- Applications whose blueprints differ only in what the API says about guards, CORS and its domain
are the same. -/
theorem access_ignored {cx : Ctx F} {showF : F → Str} {env : Env} {c : RtConfig.Config}
    {file file' : Option (File F)} {y z : ResConfig F}
    (hy : load cx env (readsJson c.blueprintPath.toList) file = .ok y)
    (hz : load cx env (readsJson c.blueprintPath.toList) file' = .ok z)
    (hr : Spec.AllAlike y.resources z.resources) (hm : y.metadata = z.metadata) :
    setup cx showF env c file = setup cx showF env c file' := by
  rw [setup_eq, setup_eq, hy, hz]
  show setupFrom showF c y = setupFrom showF c z
  unfold setupFrom
  rw [view_alike hr hm]

/-! ## C137: guards -/

/-- C137 as stated: a request without a token does not reach a handler of an API with a guard. -/
def FullGuards : Prop :=
  ∀ (showF : Unit → Str) (c : RtConfig.Config) (y : ResConfig Unit) (api : ResResource Unit)
    (a : Application) (hs : List (String × String × String)) (a' : RtConfig.App) (q : HttpRequest),
    Spec.IsApi y (Spec.wanted c) api → Spec.Guarded api → setupFrom showF c y = .ok a →
    RtConfig.registerAll a.app hs = .ok a' → q.headers = [] → ∀ h, serve a' q ≠ some (.handler h)

/-- The routes of an application that was set up are served for `GET` only. -/
theorem routes_get {showF : F → Str} {c : RtConfig.Config} {y : ResConfig F} {a : Application}
    (h : setupFrom showF c y = .ok a) {r : RtConfig.Router} (hr : a.app.http = some r) :
    ∀ e ∈ r, e.1.2 = .get := by
  have key : ∀ api b, routerErr (RtConfig.setup c api) = .ok b → ∀ r, b.http = some r →
      ∀ e ∈ r, e.1.2 = .get := by
    intro api b hb r hr
    obtain ⟨r0, h0, h0'⟩ : ∃ r0, RtConfig.healthRouter c = .ok r0 ∧ ∀ e ∈ r0, e.1.2 = .get := by
      unfold RtConfig.healthRouter
      split
      · exact ⟨[], rfl, nofun⟩
      · refine ⟨_, rfl, ?_⟩
        intro e he
        rw [List.mem_singleton.1 he]
    cases api with
    | none =>
      rw [rt_none] at hb
      cases hb
      cases hr
    | some ws =>
      cases ws with
      | none =>
        simp only [RtConfig.setup, RtConfig.setupHttp, h0, Bind.bind, Outcome.bind, pure, routerErr]
          at hb
        cases hb
        cases hr
        exact h0'
      | some w =>
        simp only [RtConfig.setup, RtConfig.setupHttp, h0, Bind.bind, Outcome.bind, pure,
          RtConfig.addRoute] at hb
        cases hl : r0.lookup (w.basePath, .get) with
        | some t => rw [hl] at hb; cases hb
        | none =>
          rw [hl] at hb
          cases hb
          cases hr
          intro e he
          rcases List.mem_cons.1 he with rfl | he
          · rfl
          · exact h0' e he
  unfold setupFrom at h
  split at h
  next cfg _ =>
    cases hw : wsConfig cfg with
    | ok ws =>
      cases hb : routerErr (RtConfig.setup c (some ws)) with
      | ok b =>
        simp only [Bind.bind, Outcome.bind, pure, hw, hb] at h
        cases h
        exact key _ _ hb _ hr
      | err e => simp only [Bind.bind, Outcome.bind, hw, hb] at h; cases h
      | panic => simp only [Bind.bind, Outcome.bind, hw, hb] at h; cases h
    | err e => simp only [Bind.bind, Outcome.bind, hw] at h; cases h
    | panic => simp only [Bind.bind, Outcome.bind, hw] at h; cases h
  next =>
    cases hb : routerErr (RtConfig.setup c none) with
    | ok b =>
      simp only [Bind.bind, Outcome.bind, pure, hb] at h
      cases h
      exact key _ _ hb _ hr
    | err e => simp only [Bind.bind, Outcome.bind, hb] at h; cases h
    | panic => simp only [Bind.bind, Outcome.bind, hb] at h; cases h
  next => cases h

/-- No guard keeps any request from its handler: handlers for distinct pairs of a path and a method,
other than `GET` ones of the paths that the runtime serves itself, serve requests with any headers
and with none, whatever the API declares. -/
theorem guards_never {showF : F → Str} {c : RtConfig.Config} {y : ResConfig F} {a : Application}
    (h : setupFrom showF c y = .ok a) {r : RtConfig.Router} (hr : a.app.http = some r)
    (hs : List (String × String × String)) (hm : ∀ x ∈ hs, ∃ m, RtConfig.Spec.NamesMethod x.2.1 m)
    (hg : ∀ x ∈ hs, RtConfig.Spec.NamesMethod x.2.1 .get → ∀ e ∈ r, e.1.1 ≠ x.1)
    (hd : (hs.map fun x => (x.1, x.2.1.toList.map Char.toLower)).Nodup) :
    ∃ a', RtConfig.registerAll a.app hs = .ok a' ∧ ∀ x ∈ hs, ∃ m, RtConfig.Spec.NamesMethod x.2.1 m ∧
      ∀ headers, serve a' ⟨x.1, m, headers⟩ = some (.handler x.2.2) := by
  obtain ⟨a', h1, h2⟩ := RtConfig.registered_partial a.app r hs hr hm (by
    intro x hx m hxm
    rw [List.lookup_eq_none_iff]
    intro e he
    rw [bne_iff_ne]
    intro heq
    have hge := routes_get h hr e he
    rw [← heq] at hge
    refine hg x hx (hge ▸ hxm) e he ?_
    rw [← heq]) hd
  refine ⟨a', h1, fun x hx => ?_⟩
  obtain ⟨r', m, e1, e2, e3⟩ := h2 x hx
  refine ⟨m, e2, fun _ => ?_⟩
  unfold serve
  rw [e1]
  exact e3

namespace Example

/-- An API with a guard and with CORS settings. -/
def guardedApi : ResResource Unit :=
  { type := .api, metadata := { displayName := "Api".toList },
    linkSelector := some [app "shop"],
    spec := some (.api {
      protocols := [.http]
      cors := some (.config {
        allowOrigins := some ["*".toList], allowMethods := some ["*".toList],
        allowHeaders := some ["*".toList] })
      auth := some {
        defaultGuard := some "jwt".toList,
        guards := [("jwt".toList, {
          guardType := .jwt, issuer := some "https://id.example.com".toList,
          tokenSource := some (.str "$.headers.Authorization".toList) })] } }) }

/-- A shop with such an API. -/
def guardedShop : ResConfig Unit :=
  { version := "2025-05-12".toList, transform := some ["celerity-2025-05-12".toList],
    resources := [("api".toList, guardedApi),
      ("h".toList, handlerMeaning [app "shop"] [httpMeaning])] }

theorem guarded : Spec.Guarded guardedApi :=
  ⟨_, _, _, _, rfl, rfl, rfl, List.mem_cons_self .., rfl⟩

theorem crossing : Spec.Crossing guardedApi := ⟨_, _, rfl, rfl, rfl, rfl, rfl⟩

theorem guardedApi_is : Spec.IsApi guardedShop (Spec.wanted config) guardedApi :=
  ⟨"api".toList, List.mem_cons_self .., rfl, nofun⟩

/-- The application of the shop. -/
def shopApp : Application :=
  ⟨Wire.appConfig (some ⟨some [⟨"h".toList, "/".toList, "GET".toList, "./h".toList, 60, false⟩], none,
    false⟩), false, ⟨config, some [(("/runtime/health/check", .get), .health)], [], false⟩⟩

theorem guardedShop_starts : setupFrom show0 config guardedShop = .ok shopApp := by decide +kernel

end Example

theorem guards_violated : ¬ FullGuards := by
  intro h
  obtain ⟨a', h1, h2⟩ := guards_never Example.guardedShop_starts rfl [("/orders", "POST", "h")]
    (by
      intro x hx
      rw [List.mem_singleton.1 hx]
      exact ⟨.post, (RtConfig.methodOf_iff _ _).1 (by decide)⟩)
    (by
      intro x hx hn
      rw [List.mem_singleton.1 hx] at hn
      exact absurd ((RtConfig.methodOf_iff _ _).2 hn) (by decide))
    (by decide)
  obtain ⟨m, _, h3⟩ := h2 _ (List.mem_singleton.2 rfl)
  exact h _ _ _ _ _ _ _ ⟨"/orders", m, []⟩ Example.guardedApi_is Example.guarded
    Example.guardedShop_starts h1 rfl _ (h3 [])

/-- The hypotheses of `access_ignored` about the blueprints: the shop with and without a guard. -/
example : Spec.AllAlike Example.guardedShop.resources
    (Example.meaning [Example.app "shop"] [Example.app "shop"] [Example.httpMeaning]).resources :=
  .cons ⟨rfl, rfl, rfl, .inr ⟨_, _, rfl, rfl, rfl, rfl⟩⟩ (.cons ⟨rfl, rfl, rfl, .inl rfl⟩ .nil)

/-! ## C138: requests from other origins -/

/-- C138 as stated: when the API allows everything from everywhere, a browser that asks whether it may
send a request to a handler gets an answer. -/
def FullPreflight : Prop :=
  ∀ (showF : Unit → Str) (c : RtConfig.Config) (y : ResConfig Unit) (api : ResResource Unit)
    (a : Application) (hs : List (String × String × String)) (a' : RtConfig.App) (origin : String),
    Spec.IsApi y (Spec.wanted c) api → Spec.Crossing api → setupFrom showF c y = .ok a →
    RtConfig.registerAll a.app hs = .ok a' →
    ∀ x ∈ hs, serve a' ⟨x.1, .options, [("origin", origin)]⟩ ≠ none

theorem registerAll_options {a a' : RtConfig.App} {r : RtConfig.Router}
    {hs : List (String × String × String)} (hr : a.http = some r)
    (h : RtConfig.registerAll a hs = .ok a') :
    ∃ r', a'.http = some r' ∧ ∀ p, (∃ t, r'.lookup (p, .options) = some t) ↔
      (∃ t, r.lookup (p, .options) = some t) ∨
        ∃ x ∈ hs, x.1 = p ∧ RtConfig.Spec.NamesMethod x.2.1 .options := by
  induction hs generalizing a r with
  | nil =>
    cases h
    refine ⟨r, hr, fun p => ⟨.inl, ?_⟩⟩
    rintro (h | ⟨x, hx, _⟩)
    · exact h
    · cases hx
  | cons x hs ih =>
    obtain ⟨path, method, id⟩ := x
    rw [RtConfig.registerAll, RtConfig.register, hr] at h
    dsimp only at h
    cases hm : RtConfig.methodOf method with
    | none =>
      rw [hm] at h
      obtain ⟨r', h1, h2⟩ := ih hr h
      refine ⟨r', h1, fun p => (h2 p).trans ?_⟩
      constructor
      · rintro (h | ⟨x, hx, h⟩)
        · exact .inl h
        · exact .inr ⟨x, List.mem_cons_of_mem _ hx, h⟩
      · rintro (h | ⟨x, hx, e, h⟩)
        · exact .inl h
        · rcases List.mem_cons.1 hx with rfl | hx
          · rw [(RtConfig.methodOf_iff _ _).2 h] at hm
            cases hm
          · exact .inr ⟨x, hx, e, h⟩
    | some m =>
      rw [hm] at h
      cases hl : r.lookup (path, m) with
      | some t =>
        unfold RtConfig.addRoute at h
        dsimp only at h
        rw [hl] at h
        cases h
      | none =>
        unfold RtConfig.addRoute at h
        dsimp only at h
        rw [hl] at h
        obtain ⟨r', h1, h2⟩ := ih (r := ((path, m), .handler id) :: r) rfl h
        refine ⟨r', h1, fun p => (h2 p).trans ?_⟩
        constructor
        · rintro (⟨t, h⟩ | ⟨x, hx, h⟩)
          · rw [List.lookup_cons] at h
            split at h
            next heq =>
              have heq : (p, RtConfig.Method.options) = (path, m) := by simpa using heq
              injection heq with e1 e2
              subst e1 e2
              exact .inr ⟨_, List.mem_cons_self .., rfl, (RtConfig.methodOf_iff _ _).1 hm⟩
            next => exact .inl ⟨t, h⟩
          · exact .inr ⟨x, List.mem_cons_of_mem _ hx, h⟩
        · rintro (⟨t, h⟩ | ⟨x, hx, e, h⟩)
          · left
            rw [List.lookup_cons]
            split
            · exact ⟨_, rfl⟩
            · exact ⟨t, h⟩
          · rcases List.mem_cons.1 hx with rfl | hx
            · rw [(RtConfig.methodOf_iff _ _).2 h] at hm
              cases hm
              subst e
              left
              dsimp only
              rw [List.lookup_cons_self]
              exact ⟨_, rfl⟩
            · exact .inr ⟨x, hx, e, h⟩

/-- Such a question is answered only where the application has a handler for `OPTIONS` of its own. -/
theorem preflight_partial {showF : F → Str} {c : RtConfig.Config} {y : ResConfig F} {a : Application}
    (h : setupFrom showF c y = .ok a) (hr : a.app.http.isSome = true)
    {hs : List (String × String × String)} {a' : RtConfig.App}
    (ha : RtConfig.registerAll a.app hs = .ok a') (path : String) (headers : List (String × String)) :
    serve a' ⟨path, .options, headers⟩ ≠ none ↔
      ∃ x ∈ hs, x.1 = path ∧ RtConfig.Spec.NamesMethod x.2.1 .options := by
  obtain ⟨r, hr⟩ := Option.isSome_iff_exists.1 hr
  obtain ⟨r', h1, h2⟩ := registerAll_options hr ha
  have h0 : ¬ ∃ t, r.lookup (path, .options) = some t := by
    rintro ⟨t, ht⟩
    have : r.lookup (path, RtConfig.Method.options) = none := by
      rw [List.lookup_eq_none_iff]
      intro e he
      rw [bne_iff_ne]
      intro heq
      have := routes_get h hr e he
      rw [← heq] at this
      cases this
    rw [this] at ht
    cases ht
  have hs' : serve a' ⟨path, .options, headers⟩ = r'.lookup (path, .options) := by
    unfold serve RtConfig.dispatch
    rw [h1]
    dsimp only
    cases r'.lookup (path, RtConfig.Method.options) <;> rfl
  rw [hs', ← Option.isSome_iff_ne_none, Option.isSome_iff_exists, h2]
  exact ⟨fun h => h.resolve_left h0, .inr⟩

theorem preflight_violated : ¬ FullPreflight := by
  intro h
  have ha : RtConfig.registerAll Example.shopApp.app [("/orders", "POST", "h")] =
      .ok ⟨Example.config, some [(("/orders", .post), .handler "h"),
        (("/runtime/health/check", .get), .health)], [], false⟩ := by decide +kernel
  refine h _ _ _ _ _ _ _ "https://shop.example.com" Example.guardedApi_is Example.crossing
    Example.guardedShop_starts ha _ (List.mem_singleton.2 rfl) ?_
  decide +kernel

/-- The hypotheses of `preflight_partial` are met with a handler for `OPTIONS`. -/
example : ∃ a', RtConfig.registerAll Example.shopApp.app [("/orders", "OPTIONS", "h")] = .ok a' ∧
    serve a' ⟨"/orders", .options, []⟩ = some (.handler "h") := ⟨_, rfl, by decide +kernel⟩

end Verif.Startup
