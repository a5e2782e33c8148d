import Verif.Startup.Model
import Verif.LocalApi.Model

/-!
# Model of an application whose handlers are in another process

In the call mode `http` the handlers executable is a process of its own, which asks the local API for
events and posts their results (`libs/runtime/core/src/runtime_local_api.rs`). The application is that
of `Startup.Model`, the queue of events that of the topic LocalApi.

Nothing in `libs/runtime` but tests pushes to the queue: `setup` makes it and gives it to the local
API (`application.rs` 212-226), and the routes that it makes (166-210) do not have it.
-/

namespace Verif.Startup

open Verif

/-- The process of the runtime: the application, and the queue and the map that
`setup_runtime_local_api` makes, core/src/application.rs 212-226. -/
structure Process (P R : Type) where
  app : Application
  events : LocalApi.State P R

/-- An application that was set up and run: the queue and the map are empty,
core/src/application.rs 216-219. -/
def started {P R : Type} (a : Application) : Process P R := ⟨a, .init⟩

/-- What others ask of the process: clients send requests to its server, the handlers executable asks
for the next event, posts a result, or asks for the configuration (runtime_local_api.rs 43-46). -/
inductive Ask (R : Type) where
  | request (path : String) (m : RtConfig.Method)
  | next
  | result (id : String) (r : R)
  | config

/-- What they are told. `unserved`: the router has nothing for the request. `refused`: there is no
server to ask. -/
inductive Told (P : Type) where
  | served (t : RtConfig.Target)
  | unserved
  | events (r : LocalApi.Response P)
  | config (c : Wire.LocalConfig)
  | refused

variable {P R : Type}

/-- A request to the server, core/src/application.rs 166-210 and 291-338. -/
def askServer (a : Application) (path : String) (m : RtConfig.Method) : Told P :=
  match a.app.http with
  | none => .refused
  | some r =>
    match RtConfig.dispatch r path m with
    | some t => .served t
    | none => .unserved

/-- A request to the local API that concerns events, runtime_local_api.rs 50-79. -/
def askEvents (p : Process P R) (op : LocalApi.Op P R) : Process P R × Told P :=
  if p.app.app.localApi then
    let r := LocalApi.step p.events op
    ({ p with events := r.1 }, .events r.2)
  else (p, .refused)

/-- One question and its answer. `runtime_config_handler` is runtime_local_api.rs 115-119. -/
def ask (p : Process P R) : Ask R → Process P R × Told P
  | .request path m => (p, askServer p.app path m)
  | .next => askEvents p .poll
  | .result id r => askEvents p (.result id r)
  | .config =>
    (p, if p.app.app.localApi then .config (Wire.localConfig p.app.config) else .refused)

/-- A history: the process and all answers. -/
def asks (p : Process P R) : List (Ask R) → Process P R × List (Told P)
  | [] => (p, [])
  | q :: qs =>
    let r := ask p q
    let rest := asks r.1 qs
    (rest.1, r.2 :: rest.2)

end Verif.Startup
