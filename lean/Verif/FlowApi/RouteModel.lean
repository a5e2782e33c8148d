import Verif.FlowApi.Model

/-!
# Model of the routes of the workflow API

`setup_workflow_api` in `libs/runtime/workflow/src/application.rs` 119-143. The router is that of axum
0.7: a segment `:id` of a route matches one segment of a path that is not empty; a path without a
route is answered with 404, a route without the method with 405; a route for `GET` also serves
`HEAD`.
-/

namespace Verif.FlowApi

open Verif Verif.Wire

/-- A request: the path is that of the URI, the body is there if it is JSON. Headers are as they
come, with names in lower case. -/
structure ApiRequest (F : Type) where
  method : String
  path : Str
  headers : List (String × String)
  body : Option (Json F)

/-- A segment of a route. -/
inductive Seg where
  | lit (s : Str)
  | param
  deriving DecidableEq, Repr

/-- The handlers, workflow/src/application.rs 131-140. -/
inductive Endpoint where
  | health | run | execution | stream | executions
  deriving DecidableEq, Repr

/-- A route: its segments, its method and its handler. -/
structure Route where
  segments : List Seg
  method : String
  endpoint : Endpoint
  deriving DecidableEq, Repr

/-- The routes, workflow/src/application.rs 129-140; the first is
`WORKFLOW_RUNTIME_HEALTH_CHECK_ENDPOINT`, workflow/src/consts.rs 2. -/
def routes : List Route :=
  [⟨[.lit "runtime".toList, .lit "health".toList, .lit "check".toList], "GET", .health⟩,
   ⟨[.lit "run".toList], "POST", .run⟩,
   ⟨[.lit "executions".toList, .param], "GET", .execution⟩,
   ⟨[.lit "executions".toList, .param, .lit "stream".toList], "GET", .stream⟩,
   ⟨[.lit "executions".toList], "GET", .executions⟩]

/-- The parts of a text around its slashes; the router takes paths apart like this. -/
def splitPath : Str → List Str
  | [] => [[]]
  | c :: cs =>
    if c = '/' then [] :: splitPath cs
    else
      match splitPath cs with
      | [] => [[c]]
      | p :: ps => (c :: p) :: ps

/-- Whether a segment of a route matches, workflow/src/application.rs 138-139. -/
def Seg.fits : Seg → Str → Bool
  | .lit s, p => decide (s = p)
  | .param, p => decide (p ≠ [])

/-- Whether a route matches the segments of a path. -/
def fitsAll : List Seg → List Str → Bool
  | [], [] => true
  | s :: ss, p :: ps => s.fits p && fitsAll ss ps
  | _, _ => false

/-- Whether a route matches a path. -/
def Route.fits (r : Route) : Str → Bool
  | '/' :: rest => fitsAll r.segments (splitPath rest)
  | _ => false

/-- What the router does with a request. -/
inductive Routed where
  | notFound
  | methodNotAllowed
  | to (e : Endpoint)
  deriving DecidableEq, Repr

/-- The method of a route serves that of a request; axum's `get` also serves `HEAD`
(workflow/src/application.rs 131-140). -/
def serves (route request : String) : Bool :=
  decide (route = request) || (decide (route = "GET") && decide (request = "HEAD"))

/-- The router made in workflow/src/application.rs 126-140. -/
def routeTo (method : String) (path : Str) : Routed :=
  match routes.filter fun r => r.fits path with
  | [] => .notFound
  | rs =>
    match rs.find? fun r => serves r.method method with
    | some r => .to r.endpoint
    | none => .methodNotAllowed

variable {F : Type} {D S : Type}

/-- The API: no layer comes before the handlers (workflow/src/application.rs 126-142).
`readable` is whether the id in the path can be decoded (`Path<String>`, line 246); `now` is that of
the health check as JSON (lines 132-134). The answer to `HEAD` is that to `GET`. The stream is given
by the status only (lines 256-269, see C68). -/
def api (s : ExecStore.Store (Json F) D S) (saves readable : Bool) (uuid : String) (now : Nat)
    (q : ApiRequest F) : ExecStore.Store (Json F) D S × Answer F :=
  match routeTo q.method q.path with
  | .notFound => (s, ⟨404, .inr []⟩)
  | .methodNotAllowed => (s, ⟨405, .inr []⟩)
  | .to .health => (s, ⟨200, .inl (.obj [("timestamp".toList, .int now)])⟩)
  | .to .run => run s saves uuid now q.body
  | .to .execution =>
    if readable then (s, ⟨200, .inl .null⟩) else (s, ⟨400, .inr "Invalid UTF-8 in `id`".toList⟩)
  | .to .executions => (s, ⟨200, .inl .null⟩)
  | .to .stream => (s, ⟨200, .inr []⟩)

end Verif.FlowApi
